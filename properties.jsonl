{"id": "C01", "title": "Unsigned integers decode exactly or report overflow", "statement": "Decoding a non-negative JSON integer literal into uint8/uint16/uint32/uint64/uint stores exactly the mathematical value of the literal when it is at most the type's maximum, and returns ErrIntegerOverflow otherwise; it never stores a wrapped value.", "quantifier": "every JSON integer literal without sign, of any length, and every unsigned Go integer kind (uint on 32- and 64-bit platforms)", "why_tests_cant": "The digit strings are infinite; wrap-around errors occur on isolated ranges (e.g. 256..299 for uint8) that a sampled test easily misses.", "anchors": ["internal/atoi/atoi.go: U8, U16, U32, U64", "jscandec.go: (*Decoder).init parseUint, Decode TokenTypeInteger cases ExpectTypeUint*"]}
{"id": "C02", "title": "64-bit signed integers decode exactly or report overflow", "statement": "Decoding a JSON integer literal into int64 (or int on a 64-bit platform) stores exactly its mathematical value when it lies in [-2^63, 2^63-1] and returns ErrIntegerOverflow otherwise.", "quantifier": "every JSON integer literal, signed or not, of any length", "why_tests_cant": "The overflow test relies on a two's-complement wrap of a 19-digit sum; only a proof covers all 10^19 sums.", "anchors": ["internal/atoi/atoi.go: I64", "jscandec.go: init parseInt, Decode cases ExpectTypeInt, ExpectTypeInt64"]}
{"id": "C03", "title": "Narrow signed integers decode exactly or report overflow", "statement": "Decoding a JSON integer literal into int8, int16 or int32 (or int on a 32-bit platform) stores exactly its mathematical value when it is in range and returns ErrIntegerOverflow otherwise.", "quantifier": "every JSON integer literal and each of the kinds int8, int16, int32", "why_tests_cant": "The wrap-around sign test is only right on part of the digit range (300 wraps to 44 as int8); tests that try the neighbours of the limits pass.", "anchors": ["internal/atoi/atoi.go: I8, I16, I32", "jscandec.go: Decode cases ExpectTypeInt8/16/32"]}
{"id": "C04", "title": "Negative literals never enter unsigned destinations", "statement": "A JSON integer literal that begins with '-' (including -0) decoded into any unsigned kind returns ErrUnexpectedValue at the literal's byte index and leaves the destination unchanged.", "quantifier": "every negative literal, every unsigned kind, every previous destination value", "why_tests_cant": "Ten separate copies of the sign check, infinitely many literals.", "anchors": ["jscandec.go: Decode cases ExpectTypeUint, ExpectTypeUint8..64", "jscandec.go: ExpectTypeSliceUint*"]}
{"id": "C05", "title": "The number scanner reads the longest JSON number", "statement": "Scanning a non-empty text for a number splits it into the longest prefix that is a JSON number literal and the rest, and classifies that prefix as integer exactly when it has neither fraction nor exponent; it reports an error exactly when no number can be completed at the point the scan is forced to.", "quantifier": "every non-empty byte string of any length (in particular lengths around the 8-byte unrolled loops)", "why_tests_cant": "The scanner has three 8-fold unrolled loops whose copies each could be off by one; the interesting inputs are strings of every length and every position of the terminating byte.", "anchors": ["internal/jsonnum/jsonnum.go: ReadNumber"]}
{"id": "C06", "title": "Scanning a quoted number never crashes", "statement": "Decoding any JSON string into a Number, a `string`-tagged numeric field or an integer-keyed map either succeeds or returns an error; it never panics.", "quantifier": "every valid JSON string content, including the empty one", "why_tests_cant": "A test has to think of the empty string; the claim is about all strings.", "anchors": ["internal/jsonnum/jsonnum.go: ReadNumber", "jscandec.go: ExpectTypeNumber, ExpectType*String, ExpectTypeMap key cases"]}
{"id": "C07", "title": "Quoted integers are accepted only if the whole text is an integer literal in range", "statement": "A `string`-tagged integer field or an integer map key accepts a quoted text exactly when the whole text is a JSON integer literal in range of the type (and not negative for unsigned types), and then yields its mathematical value.", "quantifier": "every quoted text, every integer kind", "why_tests_cant": "The set of malformed texts is infinite; the code ignores the scanner's unread tail.", "anchors": ["jscandec.go: ExpectTypeIntString..ExpectTypeUint64String, Decode TokenTypeKey integer key cases", "internal/atoi/atoi.go", "internal/jsonnum/jsonnum.go"]}
{"id": "C08", "title": "Number keeps the literal text", "statement": "A successful decode of a JSON number token into Number stores exactly the bytes of the literal; a successful decode of a JSON string into Number stores exactly the text between the quotes and that text is a JSON number literal.", "quantifier": "every number token and every quoted text", "why_tests_cant": "Infinitely many literals; the quoted case depends on the scanner accepting only whole literals.", "anchors": ["jscandec.go: ExpectTypeNumber in TokenTypeInteger, TokenTypeNumber, TokenTypeString"]}
{"id": "C09", "title": "Unescaping implements the JSON escape grammar", "statement": "For every valid JSON string content, unescaping yields the concatenation of the bytes of its unescaped characters and, for each escape sequence, the character it denotes (for \\uXXXX the UTF-8 encoding of the code unit, U+FFFD for surrogates); contents without a backslash are returned unchanged.", "quantifier": "every valid JSON string content of any length with escapes at any position", "why_tests_cant": "The implementation switches between byte-by-byte, 8-byte batch and IndexByte scanning depending on the remaining length, so correctness depends on every combination of lengths and positions.", "anchors": ["internal/unescape/unescape.go: Valid, lut, lutReplace"]}
{"id": "C10", "title": "Unescaping never reads out of bounds and never grows the text", "statement": "Unescaping a valid JSON string content never panics and its result is at most as long as its input.", "quantifier": "every valid JSON string content", "why_tests_cant": "Out-of-range indexing shows up only at particular remaining lengths after an escape.", "anchors": ["internal/unescape/unescape.go: Valid"]}
{"id": "C11", "title": "Surrogate pairs decode to one character", "statement": "A \\uD8xx\\uDCxx surrogate pair in a JSON string decodes to the UTF-8 encoding of the one supplementary code point it denotes, as encoding/json does.", "quantifier": "every surrogate pair in every string content", "why_tests_cant": "There are 2^20 pairs and unboundedly many contexts.", "anchors": ["internal/unescape/unescape.go: Valid"]}
{"id": "C12", "title": "Decoded strings are valid UTF-8 when the input is", "statement": "If the raw bytes of a valid JSON string content are well-formed UTF-8 then the unescaped string is well-formed UTF-8.", "quantifier": "every valid JSON string content that is well-formed UTF-8", "why_tests_cant": "Needs every code unit of every escape and every interleaving with multi-byte characters.", "anchors": ["internal/unescape/unescape.go: Valid"]}
{"id": "C13", "title": "Escaping then decoding is the identity", "statement": "For every byte string, writing it as a JSON string content with the standard escapes (backslash, quote, control characters as \\u00XX, everything else verbatim) and unescaping the result gives back the byte string.", "quantifier": "every byte string", "why_tests_cant": "A round trip over an infinite domain.", "anchors": ["internal/unescape/unescape.go: Valid"]}
{"id": "C14", "title": "Field lookup: exact match first, then case-insensitive, in declaration order", "statement": "With default options an object key selects the first declared field whose JSON name equals the key; if none, the first declared field whose name has the same byte length and equals the key under case folding; if none, the key is unknown. The number of fields does not matter.", "quantifier": "every list of fields and every key", "why_tests_cant": "The search is unrolled by four; positions 0..3 of every block and every remainder length are separate code.", "anchors": ["jscandec.go: fieldFrameIndexByName"]}
{"id": "C15", "title": "DisableCaseInsensitiveMatching uses exact names only", "statement": "With DisableCaseInsensitiveMatching an object key selects the first declared field whose JSON name equals the key and no other field; whenever it selects a field the default options select the same field.", "quantifier": "every list of fields and every key", "why_tests_cant": "Unrolled inline copy of the lookup.", "anchors": ["jscandec.go: Decode TokenTypeKey SCAN_KEYVALS"]}
{"id": "C16", "title": "Field names are matched after unescaping unless disabled", "statement": "Without DisableFieldNameUnescaping two object keys with the same unescaped text select the same field; with it the raw text is compared.", "quantifier": "every key content and field list", "why_tests_cant": "Infinite set of spellings of the same key.", "anchors": ["jscandec.go: Decode TokenTypeKey, DecodeOptions.DisableFieldNameUnescaping"]}
{"id": "C17", "title": "Decoding into any builds exactly the JSON tree", "statement": "Decoding a JSON value into an `any` yields nil, bool, float64, string, []any or map[string]any mirroring the value: array elements in order, every object key present with the last value given for it, strings and keys unescaped; the previous value is replaced. A number that cannot be parsed as float64 makes Decode return an error.", "quantifier": "every JSON value of any depth and width", "why_tests_cant": "Recursion over unbounded nesting with a shared token cursor; only induction covers all trees.", "anchors": ["jscandec.go: decodeAny, Decode cases ExpectTypeAny"]}
{"id": "C18", "title": "Struct tags determine the JSON names", "statement": "NewDecoder gives each field the JSON name in its tag (text before the first comma), or the Go field name if that is empty; fields tagged \"-\" are never written; the option `string` applies exactly when the text after the first comma is `string`.", "quantifier": "every struct type, every tag text", "why_tests_cant": "Tag texts and struct shapes are unbounded.", "anchors": ["append_type_stack.go: appendTypeToStack case reflect.Struct"]}
{"id": "C19", "title": "The string tag option on unsupported types is rejected on request", "statement": "NewDecoder with DisallowStringTagOptOnUnsupportedTypes returns ErrStringTagOptionOnUnsupportedType if some reachable field with the `string` option has an unsupported type; without the option the tag is ignored on such fields and NewDecoder does not fail for that reason.", "quantifier": "every type", "why_tests_cant": "Nested types of unbounded depth.", "anchors": ["append_type_stack.go: appendTypeToStack", "jscandec.go: InitOptions"]}
{"id": "C20", "title": "NewDecoder is total on finite types and fails only on unsupported kinds", "statement": "For every type of finite depth NewDecoder returns; it returns a decoder if all reachable kinds are supported and an error otherwise. (Non-struct recursive types such as `type L []L` should also be handled.)", "quantifier": "every type graph", "why_tests_cant": "Type graphs are unbounded and cyclic ones make the construction diverge.", "anchors": ["append_type_stack.go: appendTypeToStack", "jscandec.go: NewDecoder"]}
{"id": "C21", "title": "A nil destination is rejected without side effects", "statement": "Decode with a nil destination returns (0, ErrNilDest) without reading the input, and Unmarshal returns ErrNilDest; later Decode calls behave as if the call had not happened.", "quantifier": "every input, option set and decoder history", "why_tests_cant": "Quantifies over histories.", "anchors": ["jscandec.go: Decode, Unmarshal"]}
{"id": "C22", "title": "The error index is -1 exactly on success and otherwise the byte index of a token", "statement": "Decode returns errIndex = -1 exactly when err is nil; when decoding (not tokenizing) fails errIndex is the byte index at which some token of the input starts.", "quantifier": "every input, type, option set and destination", "why_tests_cant": "Over a hundred error exits.", "anchors": ["jscandec.go: Decode"]}
{"id": "C23", "title": "A syntax error leaves the destination untouched", "statement": "If the tokenizer rejects the input Decode returns the tokenizer's error and index and the destination keeps its value.", "quantifier": "every input rejected by the tokenizer, every destination value", "why_tests_cant": "All malformed inputs.", "anchors": ["jscandec.go: Decode (errTok handling)"]}
{"id": "C24", "title": "Decode neither panics nor touches memory outside the destination", "statement": "For a supported destination type and any well-formed input, Decode ends with success or an error; every read and write it does is inside the destination or memory it allocated.", "quantifier": "every supported type, every JSON document, every well-typed destination value, every option set", "why_tests_cant": "The decoder does raw pointer arithmetic; a wrong offset corrupts memory silently.", "anchors": ["jscandec.go: Decode"]}
{"id": "C25", "title": "Decode computes the type-directed reading of the document", "statement": "For every supported type the outcome of Decode (new destination contents or error with its index) is the one given by a simple recursive function over the type and the JSON value.", "quantifier": "every supported type built from scalars, any, slices, arrays, maps, structs, unmarshalers; every JSON document; every well-typed destination", "why_tests_cant": "The decoder is an iterative machine over a flat frame stack; agreement with the recursive reading needs induction over types and documents.", "anchors": ["jscandec.go: Decode", "append_type_stack.go: appendTypeToStack"]}
{"id": "C26", "title": "Arrays: surplus elements are dropped, missing ones keep their value", "statement": "Decoding a JSON array of n elements into a [k]T decodes the first min(n,k) elements into the corresponding array elements, ignores the remaining JSON elements and leaves array elements from n on as they were.", "quantifier": "every k > 0, n, element type and document", "why_tests_cant": "Skipping surplus elements walks nested token structure.", "anchors": ["jscandec.go: ExpectTypeArray, SKIP_ALL_EXTRA_VALUES"]}
{"id": "C27", "title": "Slices get exactly the elements of the JSON array", "statement": "A successful decode of a JSON array of n elements into a slice leaves a non-nil slice of length n whose i-th element is the decoding of the i-th JSON element; on a nil or empty slice nothing else influences the result.", "quantifier": "every n, element type and document, every prior length and capacity", "why_tests_cant": "Depends on prior capacity and length combinations and on pointer arithmetic.", "anchors": ["jscandec.go: ExpectTypeSlice, ExpectTypeSliceBool..ExpectTypeSliceFloat64, isElemComposite"]}
{"id": "C28", "title": "Maps: mentioned keys are set, other entries stay", "statement": "A successful decode of a JSON object into a non-nil map sets every key of the object to the decoding of the last value given for it and leaves other entries unchanged; a nil map is allocated.", "quantifier": "every map type with string, integer or text-unmarshaler keys, every object, every prior contents", "why_tests_cant": "Unbounded key sets and histories of insertions.", "anchors": ["jscandec.go: ExpectTypeMap, TokenTypeKey map case"]}
{"id": "C29", "title": "map[string]string is treated like other maps", "statement": "Decoding an object into a map[string]string keeps the entries of the existing map whose keys are not mentioned, as for every other map type and as encoding/json does.", "quantifier": "every object and every prior contents", "why_tests_cant": "Depends on prior contents.", "anchors": ["jscandec.go: ExpectTypeMapStringString"]}
{"id": "C30", "title": "Struct fields that are not mentioned keep their values", "statement": "A successful decode of an object into a struct changes only fields selected by some key of the object; when keys repeat, the last one decides.", "quantifier": "every struct type in the supported fragment, every object, every prior value", "why_tests_cant": "Unbounded field and key combinations.", "anchors": ["jscandec.go: ExpectTypeStruct, TokenTypeKey"]}
{"id": "C31", "title": "Unknown fields are skipped without any effect", "statement": "Without DisallowUnknownFields, removing an unknown key and its value from an object does not change what Decode does.", "quantifier": "every object, every unknown key with any value, at any nesting depth", "why_tests_cant": "The unknown value can be any JSON tree; the skip loop counts brackets.", "anchors": ["jscandec.go: Decode TokenTypeKey, 'Skip value, go to the next key'"]}
{"id": "C32", "title": "DisallowUnknownFields only turns success into ErrUnknownField", "statement": "With DisallowUnknownFields Decode fails with ErrUnknownField at the first key (in document order of decoding) that matches no field, and otherwise gives the same outcome as without it.", "quantifier": "every supported type and document", "why_tests_cant": "Quantifies over documents.", "anchors": ["jscandec.go: Decode TokenTypeKey"]}
{"id": "C33", "title": "null", "statement": "Decoding null succeeds for every supported type; it sets pointers, maps, slices and interfaces to nil, resets bools, numbers and strings to zero and leaves structs and arrays unchanged.", "quantifier": "every type and previous value", "why_tests_cant": "Depends on previous value.", "anchors": ["jscandec.go: Decode TokenTypeNull"]}
{"id": "C34", "title": "Pointer destinations allocate a fresh value", "statement": "Decoding a non-null value into a (multi-level) pointer destination yields non-nil pointers to the value decoded into a fresh zero value of the element type; null yields nil.", "quantifier": "every pointer depth and every supported element type and document", "why_tests_cant": "Unbounded pointer depth.", "anchors": ["jscandec.go: ON_PTR, ON_VAL_END case ExpectTypePtr"]}
{"id": "C35", "title": "Pointers inside composites", "statement": "Pointer-typed struct fields, slice, array and map elements decode like their element type wrapped in a pointer, wherever they occur.", "quantifier": "every type with nested pointers and every document", "why_tests_cant": "Depends on what follows the pointer value in the document.", "anchors": ["jscandec.go: ON_VAL_END case ExpectTypePtr"]}
{"id": "C36", "title": "Empty structs inside composites", "statement": "A value of type struct{} accepts any JSON object wherever it occurs and does not influence how the rest of the document is decoded.", "quantifier": "every type containing struct{} and every document", "why_tests_cant": "Depends on what follows the empty struct in the document.", "anchors": ["jscandec.go: ExpectTypeEmptyStruct"]}
{"id": "C37", "title": "Recursive struct types", "statement": "Recursive struct types (through pointers, slices or maps) decode to the tree the document describes, at any depth.", "quantifier": "every recursive type and every document depth", "why_tests_cant": "Unbounded recursion depth.", "anchors": ["jscandec.go: ExpectTypePtrRecur, ExpectTypeSliceRecur, ExpectTypeMapRecur, ON_RECUR_OBJ_END"]}
{"id": "C38", "title": "A decoder can be reused", "statement": "The outcome of a Decode call does not depend on the Decode calls made before with the same decoder, whether they succeeded or failed.", "quantifier": "every finite history of calls", "why_tests_cant": "All histories.", "anchors": ["jscandec.go: Decoder.stackExp, Decode deferred reset"]}
{"id": "C39", "title": "The decoder does not retain destination pointers", "statement": "After Decode returns, normally or with an error, the decoder holds no pointer into the destination.", "quantifier": "every call", "why_tests_cant": "All exits of Decode.", "anchors": ["jscandec.go: Decode defer, RecursionStack"]}
{"id": "C40", "title": "Unmarshal equals a fresh decoder with default options", "statement": "Unmarshal(s, t) has the same outcome as NewDecoder followed by Decode(s, t, DefaultOptions), for every T and every previous value of *t.", "quantifier": "every type, input and previous value", "why_tests_cant": "Depends on the dynamic type of an interface destination.", "anchors": ["jscandec.go: Unmarshal, NewDecoder"]}
{"id": "C41", "title": "UnmarshalJSON receives exactly the raw text of the value", "statement": "For a destination implementing json.Unmarshaler, UnmarshalJSON is called once with exactly the bytes of the JSON value from its first to its last byte; if it fails Decode returns its error at the value's index.", "quantifier": "every JSON value, at any position in a supported type", "why_tests_cant": "Composite values span arbitrary many tokens.", "anchors": ["jscandec.go: ON_JSON_UNMARSHALER"]}
{"id": "C42", "title": "UnmarshalText receives the unescaped string", "statement": "For a destination (or map key) implementing encoding.TextUnmarshaler, UnmarshalText is called with the unescaped content of the JSON string; other JSON values except null are rejected with ErrUnexpectedValue.", "quantifier": "every JSON value", "why_tests_cant": "All string contents.", "anchors": ["jscandec.go: ExpectTypeTextUnmarshaler"]}
{"id": "C43", "title": "string-tagged bools and strings", "statement": "A `string`-tagged bool accepts exactly the quoted texts true and false; a `string`-tagged string accepts exactly quoted texts of the form \\\"...\\\" without further escapes and stores the inner text.", "quantifier": "every quoted text", "why_tests_cant": "All quoted texts.", "anchors": ["jscandec.go: ExpectTypeBoolString, ExpectTypeStrString"]}
{"id": "C44", "title": "The integer fast path of float decoding is exact", "statement": "Integer literals short enough for the fast path denote integers that are exactly representable in the float type, so the fast path never rounds; a literal of 8 (float32) or 16 (float64) or more characters never takes it.", "quantifier": "every integer literal", "why_tests_cant": "All literals below the length limit.", "anchors": ["jscandec.go: ExpectTypeFloat32, ExpectTypeFloat64, ExpectTypeSliceFloat32/64"]}
{"id": "C45", "title": "Decode terminates", "statement": "Decode returns for every input; the number of decoding steps is bounded by a constant times the number of tokens for a given type.", "quantifier": "every type, every input", "why_tests_cant": "Loops over tokens with gotos.", "anchors": ["jscandec.go: Decode"]}
{"id": "C46", "title": "Decode into a zero value agrees with encoding/json on the common fragment", "statement": "For supported types and documents, decoding into a zero value gives the value encoding/json gives.", "quantifier": "every supported type and document", "why_tests_cant": "Differential testing samples; the claim is for all documents.", "anchors": ["jscandec.go: Decode", "README.md"]}
{"id": "C47", "title": "string and []byte inputs behave alike; byte input is never aliased by decoded strings", "statement": "Decode gives the same outcome for s as string and as []byte; with []byte input no decoded string, Number, map key or any-string shares memory with the input buffer, so later changes to the buffer do not change the result.", "quantifier": "every input and every later mutation of the buffer", "why_tests_cant": "Aliasing is invisible to value comparison.", "anchors": ["jscandec.go: Decode doc comment", "internal/unescape/unescape.go: Valid"]}
{"id": "C48", "title": "Decoding the same document twice is idempotent", "statement": "If decoding a document into a destination succeeds, decoding it again into the result succeeds and gives the same value.", "quantifier": "every supported type, document, and destination", "why_tests_cant": "Depends on prior contents and capacity.", "anchors": ["jscandec.go: Decode"]}
{"id": "C49", "title": "The set of errors Decode can return", "statement": "Every error returned by Decode is ErrNilDest, the tokenizer's error, ErrUnexpectedValue, ErrIntegerOverflow, a strconv error, an error returned by the user's unmarshaler method, or ErrUnknownField; the last one only with DisallowUnknownFields. In particular Decode never returns ErrStringTagOptionOnUnsupportedType, which Unmarshal swallows.", "quantifier": "every destination type, decoder history, input, destination value and option set", "why_tests_cant": "tests sample inputs; the claim is that no input on any type yields another error", "anchors": ["jscandec.go:Decoder.Decode", "jscandec.go:Unmarshal", "jscandec.go:ErrUnexpectedValue"]}
{"id": "C50", "title": "Negative zero keeps its sign in floats", "statement": "Decoding the literal -0 into a float32 or float64 gives negative zero, as parsing the literal with strconv.ParseFloat does and as the literals -0.0 and -0e0 give.", "quantifier": "every float destination, previous value, decoder history", "why_tests_cant": "the integer fast path depends on the length and form of the literal; equality with the parser must hold for every literal", "anchors": ["decode.go: TokenTypeInteger cases of ExpectTypeFloat32/ExpectTypeFloat64"]}
{"id": "C51", "title": "A struct type may be used in several places of a type", "statement": "What Decode does depends on the structure of the destination type only: replacing one of several uses of a named struct type by a copy of its declaration under another name does not change the error index, the error or the decoded value.", "quantifier": "every type graph, every two types of equal structure, every document, destination and option set", "why_tests_cant": "All type graphs and documents; the recursion detection compares types with every frame built before.", "anchors": ["append_type_stack.go: appendTypeToStack recursion check", "jscandec.go: ExpectTypeSliceRecur, ExpectTypeMapRecur, ExpectTypePtrRecur"]}
{"id": "C52", "title": "Bools, strings and values of a wrong kind", "statement": "A bool destination takes true, false and null, a string destination takes JSON strings (of which it gets the unescaped content) and null; a JSON value of a kind the destination type does not take is refused with ErrUnexpectedValue and the index of its first byte, and the destination keeps its value.", "quantifier": "every type, JSON value, previous content and decoder history", "why_tests_cant": "Tables of tests cover some pairs of types and JSON kinds; the claim is for every type (all nested ones) and every value.", "anchors": ["jscandec.go: Decode, cases TokenTypeTrue, TokenTypeFalse, TokenTypeString, TokenTypeArray, TokenTypeObject"]}
{"id": "C53", "title": "White space does not matter", "statement": "Two texts which contain the same JSON tokens in the same order with different white space between them have the same outcome for the same decoder, destination and options: both panic, or both return the same error, leave the same destination and the same decoder, and the error index of both is -1 or that of the token with the same number (where UnmarshalJSON methods do not look at white space).", "quantifier": "every type (also recursive), decoder history, destination memory, option set and pair of texts that differ in white space", "why_tests_cant": "Byte positions reach the decoder in every token; that they influence only error indices and the substrings read must hold for every text and layout of white space.", "anchors": ["jscandec.go: Decode, indexes and src[...] slices of tokens"]}
{"id": "C54", "title": "Decoding the JSON text of a value gives the value back", "statement": "If a Go value is written as JSON in the style of json.Marshal (fields in order, strings escaped, floats written so that they parse back) and the text is decoded into a fresh variable of the same type, the call succeeds and the variable holds an equal value.", "quantifier": "every type without unmarshaler methods, every value of it that JSON can express, every option set, every history of the decoder", "why_tests_cant": "Infinitely many types and values; fuzzing finds single failures only.", "anchors": ["jscandec.go: Decoder.Decode", "append_type_stack.go: appendTypeToStack", "internal/unescape/unescape.go: Valid"]}
{"id": "C55", "title": "The options for keys matter only for the keys they are about", "statement": "DisableFieldNameUnescaping has no effect on a call of Decode (outcome, destination, state of the decoder) if no key of the document contains an escape; DisableCaseInsensitiveMatching has no effect if no key of the document equals the name of a field of the type (or of a type inside it) up to case only.", "quantifier": "every type (also recursive), history of the decoder, document with such keys, destination and setting of the other options", "why_tests_cant": "All documents, types and histories; the two lookups are separate, unrolled copies.", "anchors": ["jscandec.go: Decode TokenTypeKey SCAN_KEYVALS", "jscandec.go: fieldFrameIndexByName, DecodeOptions"]}
{"id": "C56", "title": "The spelling of strings and keys does not matter", "statement": "Two documents with the same tokens up to white space and up to the spelling of strings and object keys (escaped or not, any of the escapes for the same character) have the same outcome: both panic, or both return the same error, at the same token, and leave the same value. Exceptions: Number and fields with the string option read strings as they are, maps with integer keys read keys as they are, UnmarshalJSON methods get the text, and DisableFieldNameUnescaping is off.", "quantifier": "every type (also recursive), decoder state, destination contents, pair of such documents", "why_tests_cant": "Infinitely many documents and spellings; escapes take different paths in the unescape code.", "anchors": ["jscandec.go: Decoder.Decode", "internal/unescape/unescape.go: Valid"]}
{"id": "C57", "title": "The order of object members does not matter", "statement": "If decoding a document in which no two members of an object stand for the same map key or struct field succeeds, then decoding the document with the members of its objects, at any depth, in any other order succeeds too, into the same destination with any decoder for the type, and leaves an equal value (maps compared by their entries).", "quantifier": "every type, pair of such documents, previous contents of the destination, decoder histories, options", "why_tests_cant": "Infinitely many documents, orders and types; the member order steers the field lookup, the slice reuse and the frame pops.", "anchors": ["jscandec.go: Decoder.Decode", "jscandec.go: fieldByName"]}
{"id": "C58", "title": "A slice keeps the elements it has, also when it must grow", "statement": "If decoding a JSON array into a slice succeeds, each element the slice had before and for which the array has a counterpart is what decoding that counterpart into the old element gives, so parts of it the document does not mention survive, whatever the capacity was. If the capacity does not suffice, the elements behind the old ones are decoded into zero values.", "quantifier": "every slice type, array length, previous length, capacity and contents, every document and decoder history", "why_tests_cant": "Depends on the combination of length, capacity, number of elements and element type; the copy into a larger array is skipped for some element types.", "anchors": ["jscandec.go: ExpectTypeSlice, isElemComposite, typedslicecopy"]}
{"id": "C59", "title": "The methods of a decoded Number", "statement": "For a number literal decoded into a Number: String returns the literal; Int64 returns its value exactly if it is an integer literal within int64, the nearest int64 and a range error if it is an integer out of range, and an error if it has a fraction or an exponent, and it succeeds with v exactly if decoding the literal into an int64 gives v; Float64 is strconv.ParseFloat of the literal, the value (or error) of decoding it into a float64, except for -0.", "quantifier": "every number literal of any length, every document position, previous contents and decoder history", "why_tests_cant": "Infinitely many literals; the two parsers (strconv and atoi) must agree at every boundary.", "anchors": ["jscandec.go: Number.String, Number.Float64, Number.Int64"]}
{"id": "C60", "title": "The runtime's map function for string keys is only used on maps it supports", "statement": "Inserting an entry into any map of a destination calls runtime.mapassign_faststr only for maps with keys of kind string and values of at most 128 bytes (the maps the Go runtime supports it for), so it always has the effect of m[k] and never touches memory outside the map.", "quantifier": "every destination type, every map type within it, every document, destination and decoder history", "why_tests_cant": "The size limit is at an unnatural boundary of the value type and ranges over all types; violating it corrupts memory silently.", "anchors": ["jscandec.go: canUseAssignFaststr, mapassign_faststr, Decode (case TokenTypeKey)", "append_type_stack.go: appendTypeToStack (case reflect.Map)"]}
{"id": "C61", "title": "Memory use is linear in the size of the input", "statement": "The memory kept alive by the destination after Decode or Unmarshal (arrays of slices, pointees, map entries, strings, values of any, at every depth), whether it succeeds or fails, exceeds what it kept alive before by at most a constant times (length of the input + 1). The constant depends on the type of the decoder only, not on the document, the options, the old contents of the destination or earlier calls, if the unmarshaler methods of the user are as frugal.", "quantifier": "every destination type, document, old value, option set, and every sequence of calls with one decoder", "why_tests_cant": "A document that makes the decoder allocate out of proportion (an attack on a server) could be of any size and shape, for any type.", "anchors": ["jscandec.go: Decode, Unmarshal, decodeAny (every allocation: newarray, unsafe_New, makemap, mapassign, make, string conversions)", "internal/unescape/unescape.go: Valid"]}
{"id": "C62", "title": "Nil options never change a result silently", "statement": "Decode with nil DecodeOptions either panics or returns exactly what it returns with any non-nil options, with the same destination and decoder. It never panics because of them for types without structs; for a struct type with fields it panics on every non-empty object. Likewise NewDecoder with nil InitOptions either panics or does what it does with any options, and it panics only if a string tag option on an unsupported type (or an interface type with methods) is involved.", "quantifier": "every type, decoder history, input, destination and option set", "why_tests_cant": "Whether a nil pointer is reached depends on the document and the type; the equality is over all of them.", "anchors": ["jscandec.go: Decode (SCAN_KEYVALS), NewDecoder", "append_type_stack.go: appendTypeToStack (string option)"]}
{"id": "C63", "title": "Memory is allocated with the descriptors of the right types", "statement": "A decoder built by NewDecoder for a type t keeps, for every place in a value of t that Decode can write to, the runtime type descriptor and the size that reflect reports for that place, and goes on keeping them after any number of Decode calls: element frames hold the element type of their slice, array or pointer, map frames the map type and its value type, field tables one entry per field that is not ignored with the field's type, and a recursion leads back to the struct type it is declared with. So backing arrays, pointees and maps are always allocated with the descriptor of their own type, which is what the garbage collector follows.", "quantifier": "every Go type graph with a layout that fits the platform, including recursive ones, every option set, and every history of Decode calls", "why_tests_cant": "A wrong descriptor shows only when the garbage collector runs at a bad moment, and the type graphs are unbounded. The repository's own table test cannot see it: it compares pointers to a zero-size struct with DeepEqual, and three of its cases list wrong types and pass.", "anchors": ["append_type_stack.go: appendTypeToStack", "jscandec.go: stackFrame, getTyp, newarray, mallocgc, makemap (call sites)"]}
{"id": "C64", "title": "The printed name of an ExpectType identifies it", "statement": "ExpectType.String returns a non-empty name for each of the declared constants, different constants have different names and different values, and every other int8 value prints as the empty string; the name of a kind with the string option is string(name of the kind).", "quantifier": "every value of ExpectType and every pair of them", "why_tests_cant": "No test compares all pairs; adding a constant or a case can make two names equal without failing any of them.", "anchors": ["jscandec.go: ExpectType, ExpectType.String"]}
{"id": "C65", "title": "A recursive struct type may be used as a part of other types", "statement": "For a recursive struct type T (one whose fields hold []T, map[K]T or *T), decoding into a type that contains T as a part (a field, the elements of a slice or array, the values of a map) gives the same outcome and the same value as decoding into the type in which T is replaced by its unrolling, a type without recursion; in particular, members, elements and entries after a T are decoded at their own places.", "quantifier": "every type built from recursive struct types by structs, slices, arrays and maps, at every nesting depth, every document, option set and history of successful calls", "why_tests_cant": "The nesting of types around T and of documents inside T is unbounded; the repository's tests only decode recursive types as the root type or in a few fixed wrappers.", "anchors": ["jscandec.go: Decode (structRecur, ON_VAL_END)", "jscandec.go: recursiveStackFrame", "append_type_stack.go: appendTypeToStack"]}
{"id": "C66", "title": "Whether Decode fails, with which error and where, does not depend on what the destination contains", "statement": "Two calls of Decode (or of Unmarshal) with the same document and options, with the same decoder in the same state, return the same error index and the same error whatever values the two destinations hold before the calls (nil or non-empty slices, maps with or without entries, set or nil pointers), if neither panics and unmarshaler methods do not fail depending on the old value of their receiver. This also holds call by call for whole sequences of calls of one decoder with different lists of destinations, successful or not.", "quantifier": "every decoder state (type, history), document (also with syntax errors), option set, pair of destination contents, and sequence of calls", "why_tests_cant": "The contents of destinations (lengths, capacities, entries, nesting) are unbounded and multiply with types, documents and histories; tests decode into zero or a few prefilled values.", "anchors": ["jscandec.go: Decode", "jscandec.go: Unmarshal"]}
{"id": "C67", "title": "Decoding one document on top of another", "statement": "Decoding an object into a struct or a map and then, after success, a second object into the same destination has the result of decoding a single object with the members of the first followed by those of the second (white space aside): the same value in the destination and, if the second document is rejected, the same error at the same token. If the first document is rejected, the single object is rejected in the same way. It does not matter which decoders for the type are used and what they decoded before.", "quantifier": "every struct and map type, pair of documents, old value of the destination, option set, and histories of the decoders", "why_tests_cant": "It relates three calls over unbounded types, documents, old values and decoder histories; tests compare a few fixed configurations.", "anchors": ["jscandec.go: Decode"]}
{"id": "C68", "title": "A type may get new fields", "statement": "If struct types inside a type, at any depth, get new fields, at any place between the old ones, then every document that does not mention the new fields is decoded into the new type with the same result as into the old type: the same error at the same index, or success, the same values in all old fields, elements and entries, and a panic only if the old type panics.", "quantifier": "every type and every change of it by new fields, pair of decoders with any histories, document, option set and pair of destinations that agree on the old fields", "why_tests_cant": "It relates two calls over unbounded types, changes of types, documents, old values and decoder histories; a new field moves all offsets and frames of the decoder behind it, and tests compare a few fixed pairs of types.", "anchors": ["jscandec.go: Decode", "append_type_stack.go: appendTypeToStack"]}
{"id": "C69", "title": "An error depends only on the document up to the end of what it points at", "statement": "If Decode reports an error for a JSON document, the reported index is that of the first byte of a value, key or closing bracket of the document, and every other JSON document that has the same bytes up to and including the byte after the end of that value, key or bracket is rejected by the same decoder with the same error at the same index, whatever follows, whatever the destination contains (unless the call panics, and if unmarshaler methods do not fail depending on the old value of their receiver). So no error is caused by, or changed by, anything that comes after the value it reports.", "quantifier": "every decoder state (type, history), pair of documents with a common beginning, option set and pair of destinations", "why_tests_cant": "It relates the decoding of every rejected document to that of infinitely many other documents with the same beginning, for all types and histories; tests compare fixed documents. The decoder looks ahead in the token list (element counts, ends of containers), so that nothing after the error matters is not evident.", "anchors": ["jscandec.go: Decode"]}
{"id": "C70", "title": "The order in which the fields of a struct are declared does not matter", "statement": "Let two types differ only in the order in which the fields of struct types inside them, at any depth, are declared (and so in the offsets of the fields), where no JSON key matches two fields of one struct. Decoding a document into a value of the one type and into a value of the other type with the same field contents gives the same error at the same index, or success in both cases, and afterwards again the same contents of all fields; a panic occurs for both or for neither.", "quantifier": "every pair of types that are reorderings of each other, JSON document, option set and old values", "why_tests_cant": "It relates two decoders with different frames and offsets on all documents; a test compares fixed types and documents. The decoder searches fields in declaration order, four at a time, and leaves a struct by moving back over frames whose positions depend on the order.", "anchors": ["jscandec.go: Decode", "append_type_stack.go: appendTypeToStack", "jscandec.go: fieldFrameIndexByName"]}
{"id": "C71", "title": "Whatever the input, the destination stays a value of its type", "statement": "If the variable passed to Decode holds a value of its Go type, then after every call that returns, with or without an error, it again holds a value of its type: strings, slice headers, pointers and maps in it are valid ones of their types, slices have a length that does not exceed their capacity and an array of that many elements, and all elements, pointees and map values are in turn values of their types. This remains so over any sequence of calls with any inputs.", "quantifier": "every type, input (well-formed or not), option set, old value and history of the decoder", "why_tests_cant": "The decoder writes through unsafe.Pointer at computed offsets, so the Go type system does not protect the destination; a write of the wrong type or at the wrong offset for one document among infinitely many breaks it, also on paths where the decoder has lost track of the nesting.", "anchors": ["jscandec.go: Decode", "append_type_stack.go: appendTypeToStack"]}
{"id": "C72", "title": "Decode works only on memory of the destination, on every input", "statement": "During every call of Decode with a well-formed document, also one that does not fit the type and also one on which the call panics, every value the decoder reads or writes lies inside the destination, inside an array of a slice in it, behind a pointer in it or in a map in it, or inside memory allocated by the call for these.", "quantifier": "every type, well-formed document, option set, old value, history of the decoder and moment of the call", "why_tests_cant": "Writes go through unsafe.Pointer plus an offset that the decoder advances per element; an offset that is advanced once too often for some document corrupts the heap silently, and a test sees nothing unless it happens to check the memory behind the array.", "anchors": ["jscandec.go: Decode", "jscandec.go: ON_VAL_END"]}
{"id": "C73", "title": "Strict decoding into pointer-free types keeps every promise on every document", "statement": "For a non-recursive type without pointers, struct{} and unsupported map keys inside, decoded with DisallowUnknownFields (or, with any options, if it has no structs either), and for every well-formed document whether it fits the type or not: Decode does exactly what the reading of the document for the type says; it returns without a panic (unmarshaler methods on values, no empty quoted numbers) and never addresses memory out of bounds; earlier calls make no difference; elements, fields, layers, repeated decoding, member order and the pointer to the type behave as claimed in C26, C30, C34, C46, C48, C57, C58 and C67, without a condition on the spots the document reaches.", "quantifier": "all such types, every well-formed document, all old values and histories of the decoder", "why_tests_cant": "The known ways to lead the decoder astray are an object for an unknown key, a non-null pointer and an object for struct{}; that there is no further one needs all documents for all types.", "anchors": ["jscandec.go: Decode", "jscandec.go: DecodeOptions.DisallowUnknownFields"]}
{"id": "C74", "title": "Wider integer types keep the values", "statement": "If integer types anywhere inside a type (fields, elements, slices of integers, map values, behind pointers) are replaced by types that contain all their values, every document that decodes without an error into the old type decodes without an error into the new one, with the same numbers everywhere; a document refused by the new type is refused by the old one; if the signedness stays, every error other than ErrIntegerOverflow stays the same, with its index and the values stored before it.", "quantifier": "every type with a tree, every choice of replaced integer types at every depth, every well-formed document, all options and old values, 32- and 64-bit", "why_tests_cant": "Each integer type has its own hand-written parser and its own branch in the decoder; agreement for all literals, types and documents needs all of them at once.", "anchors": ["jscandec.go: Decode", "internal/atoi", "jscandec.go: ErrIntegerOverflow"]}
{"id": "C75", "title": "Parts of a document decoded separately", "statement": "White space around a document changes nothing but the error index, which moves by the length of the white space in front. The text of a part of a document (what a type like json.RawMessage would store) is a document of its own; decoding it has the same effect as decoding that part in its place, up to the position in the error index. So after a successful Decode every array element, slice element, map entry and struct field is what decoding its text separately into the old (or fresh) variable gives, and a failing Decode reports the error that the first failing part reports by itself, at the index there plus the position of the part.", "quantifier": "every well-formed document and every part of it at any depth, every decoder in any state (recursive types and unmarshaler methods included), destination memory and option set; for the parts of containers every non-recursive type, and documents that do not reach the spots where the code is wrong", "why_tests_cant": "It compares runs on different byte arrays for all documents, nesting depths, positions, types and old values.", "anchors": ["jscandec.go: Decode", "jscandec.go: DecodeErr / error index", "jscandec.go: ExpectTypeJSONUnmarshaler"]}
{"id": "C76", "title": "Containers with the same elements agree", "statement": "A JSON array decoded into a nil []T and into a zero [n]T: if the slice is decoded without error, so is the array, and it holds the first n elements of the slice followed by zero values; if the JSON array has at most n elements both succeed with the same elements or fail with the same error at the same index. A JSON object decoded into a struct whose selected fields have type T and are zero, and into a map with values of type T that lacks the keys, where different members have different keys and select different fields: both succeed, or both fail with the same error at the same index, and each field holds what the map has for its key (zero if the map has nothing because decoding stopped before).", "quantifier": "every element type, length, JSON array or object, old backing memory of capacity 0, other entries of the map, options", "why_tests_cant": "Arrays, slices, maps and structs have separate code paths for pushing and popping, growing and resetting; that they treat the elements alike is a statement about all element types and documents at once.", "anchors": ["jscandec.go: Decode", "jscandec.go: ExpectTypeSlice, ExpectTypeArray, ExpectTypeMap, ExpectTypeStruct"]}
