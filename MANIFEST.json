{
 "claims": [
  {
   "property": "C01",
   "status": "proved",
   "theorems": [
    "Verif.Props.C01_unsigned"
   ],
   "note": "Every unsigned kind, literal, previous value, option set and history of the decoder."
  },
  {
   "property": "C02",
   "status": "proved",
   "theorems": [
    "Verif.Props.C02_signed64"
   ],
   "note": "Every literal, previous value and history."
  },
  {
   "property": "C03",
   "status": "partial",
   "theorems": [
    "Verif.Props.C03_decode_refuted",
    "Verif.Props.C03_decode_partial",
    "Verif.Props.C03_refuted",
    "Verif.Props.C03_refuted_other",
    "Verif.Props.C03_signed_parse_partial"
   ],
   "note": "False of the code for int8/int16/int32 (wrap-around accepted): refuted on witnesses; the exact guarantee is proved."
  },
  {
   "property": "C04",
   "status": "proved",
   "theorems": [
    "Verif.Props.C04_negative",
    "Verif.Props.C04_fraction"
   ],
   "note": ""
  },
  {
   "property": "C05",
   "status": "proved",
   "theorems": [
    "Verif.Props.C05_scan",
    "Verif.Props.C05_scan_number"
   ],
   "note": "Every non-empty text."
  },
  {
   "property": "C06",
   "status": "partial",
   "theorems": [
    "Verif.Props.C06_refuted",
    "Verif.Props.C06_refuted_other",
    "Verif.Props.C06_quoted_partial",
    "Verif.Props.C06_scan_panics_iff"
   ],
   "note": "False of the code for the empty quoted text, which panics; that is the only such text."
  },
  {
   "property": "C07",
   "status": "partial",
   "theorems": [
    "Verif.Props.C07_refuted",
    "Verif.Props.C07_refuted_value",
    "Verif.Props.C07_quoted_partial",
    "Verif.Props.C07_keys_partial",
    "Verif.Props.C07_exact",
    "Verif.Props.C07_keys_exact",
    "Verif.Props.C07_unique",
    "Verif.Props.C07_contains",
    "Verif.Props.C07_short"
   ],
   "note": "False of the code: bytes after the first invalid character are not rejected ('1x' stores 82); proved for texts that are integers and for texts without an integer beginning. C07_exact and C07_keys_exact say for every text whether the code takes it and what it stores."
  },
  {
   "property": "C08",
   "status": "partial",
   "theorems": [
    "Verif.Props.C08_number",
    "Verif.Props.C08_string_partial",
    "Verif.Props.C08_string_exact",
    "Verif.Props.C08_refuted"
   ],
   "note": "Number tokens proved; for strings false of the code ('1x' accepted); C08_string_exact says what the code does with every string."
  },
  {
   "property": "C09",
   "status": "proved",
   "theorems": [
    "Verif.Props.C09_unescape",
    "Verif.Props.C09_plain",
    "Verif.Props.C09_denotes_unique"
   ],
   "note": ""
  },
  {
   "property": "C10",
   "status": "proved",
   "theorems": [
    "Verif.Props.C10_no_growth"
   ],
   "note": ""
  },
  {
   "property": "C11",
   "status": "partial",
   "theorems": [
    "Verif.Props.C11_refuted",
    "Verif.Props.C11_surrogates_partial"
   ],
   "note": "False of the code: a surrogate pair becomes two U+FFFD."
  },
  {
   "property": "C12",
   "status": "proved",
   "theorems": [
    "Verif.Props.C12_utf8"
   ],
   "note": ""
  },
  {
   "property": "C13",
   "status": "proved",
   "theorems": [
    "Verif.Props.C13_roundtrip",
    "Verif.Props.C13_decode"
   ],
   "note": ""
  },
  {
   "property": "C14",
   "status": "proved",
   "theorems": [
    "Verif.Props.C14_default_matching"
   ],
   "note": ""
  },
  {
   "property": "C15",
   "status": "proved",
   "theorems": [
    "Verif.Props.C15_exact_matching",
    "Verif.Props.C15_agrees"
   ],
   "note": ""
  },
  {
   "property": "C16",
   "status": "proved",
   "theorems": [
    "Verif.Props.C16_key_text"
   ],
   "note": ""
  },
  {
   "property": "C17",
   "status": "proved",
   "theorems": [
    "Verif.Props.C17_any",
    "Verif.Props.C17_inside"
   ],
   "note": "Every JSON value, previous value, option set and history."
  },
  {
   "property": "C18",
   "status": "partial",
   "theorems": [
    "Verif.Props.C18_tag",
    "Verif.Props.C18_table",
    "Verif.Props.C18_names_partial",
    "Verif.Props.C18_ignored_partial",
    "Verif.Props.C18_outside_partial",
    "Verif.Props.C18_refuted",
    "Verif.Props.C18_dash_comma"
   ],
   "note": "Names and offsets for all struct types (C18_table); the string option for types with a tree; that ignored fields are never written for all non-recursive types, every input and every history (an invariant of the token loop). For recursive types false of the code: a field tagged - is overwritten (C18_refuted). The tag `-,` ignores the field (encoding/json names it -)."
  },
  {
   "property": "C19",
   "status": "proved",
   "theorems": [
    "Verif.Props.C19_rejected",
    "Verif.Props.C19_only",
    "Verif.Props.C19_ignored"
   ],
   "note": "Every type graph. If another reachable type is unsupported, its error may come first."
  },
  {
   "property": "C20",
   "status": "partial",
   "theorems": [
    "Verif.Props.C20_outcomes",
    "Verif.Props.C20_supported",
    "Verif.Props.C20_unsupported",
    "Verif.Props.C20_finite",
    "Verif.Props.C20_recursive",
    "Verif.Props.C20_depth",
    "Verif.Props.C20_diverges",
    "Verif.Props.C20_refuted",
    "Verif.Props.C20_refuted_struct",
    "Verif.Props.C20_refuted_interface",
    "Verif.Props.C20_refuted_options"
   ],
   "note": "Proved for all types of finite depth and all recursion through pointers, slices and maps of structs; false of the code for other recursion (never returns), for interface types with methods and for nil options (panics)."
  },
  {
   "property": "C21",
   "status": "proved",
   "theorems": [
    "Verif.Props.C21_decode_nil",
    "Verif.Props.C21_unmarshal_nil"
   ],
   "note": "Every type and history."
  },
  {
   "property": "C22",
   "status": "proved",
   "theorems": [
    "Verif.Props.C22_index_iff",
    "Verif.Props.C22_index_token",
    "Verif.Props.C22_index_inside"
   ],
   "note": "Every type and history."
  },
  {
   "property": "C23",
   "status": "proved",
   "theorems": [
    "Verif.Props.C23_syntax_error",
    "Verif.Props.C23_unmarshal"
   ],
   "note": "Every type and history."
  },
  {
   "property": "C24",
   "status": "partial",
   "theorems": [
    "Verif.Props.C24_refuted",
    "Verif.Props.C24_refuted_empty",
    "Verif.Props.C24_refuted_pointer",
    "Verif.Props.C24_safe_partial",
    "Verif.Props.C24_safe_strict",
    "Verif.Props.C24_structless",
    "Verif.Props.C24_root_partial",
    "Verif.Props.C24_right_partial",
    "Verif.Props.C24_recursive_partial"
   ],
   "note": "False of the code (unknown object-valued keys, empty quoted numbers, pointer unmarshalers); proved for non-recursive types away from those spots, and for recursive struct types, and types with such types inside, on TameR and TameDocX documents."
  },
  {
   "property": "C25",
   "status": "partial",
   "theorems": [
    "Verif.Props.C25_refuted",
    "Verif.Props.C25_reading_partial",
    "Verif.Props.C25_strict",
    "Verif.Props.C25_structless",
    "Verif.Props.C25_element_partial",
    "Verif.Props.C25_root_partial",
    "Verif.Props.C25_recursive_partial"
   ],
   "note": "False of the code: what ends a struct early (C31, C36) hides wrong values from it. Proved for non-recursive types, and recursive struct types on TameR documents (C25_recursive_partial: as the unrolled type is read); documents that do not reach one of the spots where the code leaves the document. C25_strict has no condition on the document."
  },
  {
   "property": "C26",
   "status": "partial",
   "theorems": [
    "Verif.Props.C26_elements_partial",
    "Verif.Props.C26_success_partial",
    "Verif.Props.C26_error_partial",
    "Verif.Props.C26_array_partial",
    "Verif.Props.C26_array_error_partial",
    "Verif.Props.C26_zero",
    "Verif.Props.C26_refuted",
    "Verif.Props.C26_inside_partial",
    "Verif.Props.C26_inside_error_partial"
   ],
   "note": "False of the code: an object for an unknown key in an element of a nested array ends the array. Proved, for success and failure, on RightDoc documents in terms of what Decode does with each JSON element alone. Types with recursive struct types inside (C65): the same on documents within TameDocX, except that the values left by errors are not compared."
  },
  {
   "property": "C27",
   "status": "partial",
   "theorems": [
    "Verif.Props.C27_elements_partial",
    "Verif.Props.C27_fresh_partial",
    "Verif.Props.C27_error_partial",
    "Verif.Props.C27_slice_partial",
    "Verif.Props.C27_nil_partial",
    "Verif.Props.C27_refuted",
    "Verif.Props.C27_refuted_empty",
    "Verif.Props.C27_inside_partial",
    "Verif.Props.C27_inside_error_partial"
   ],
   "note": "Length, order and element values proved; false of the code for empty slices with spare capacity (old backing contents show through). Types with recursive struct types inside (C65): the same on documents within TameDocX, except that the values left by errors are not compared."
  },
  {
   "property": "C28",
   "status": "partial",
   "theorems": [
    "Verif.Props.C28_entries_partial",
    "Verif.Props.C28_error_partial",
    "Verif.Props.C28_map_partial",
    "Verif.Props.C28_refuted",
    "Verif.Props.C28_inside_partial",
    "Verif.Props.C28_inside_error_partial"
   ],
   "note": "Proved for element types whose decoding does not depend on the previous value; false of the code for composite elements on repeated keys (values merge). Types with recursive struct types inside (C65): the same on documents within TameDocX, except that the values left by errors are not compared."
  },
  {
   "property": "C29",
   "status": "partial",
   "theorems": [
    "Verif.Props.C29_mapSS_partial",
    "Verif.Props.C29_refuted"
   ],
   "note": "False of the code: the map is replaced. What the code does instead is proved."
  },
  {
   "property": "C30",
   "status": "partial",
   "theorems": [
    "Verif.Props.C30_kept_partial",
    "Verif.Props.C30_decides_partial",
    "Verif.Props.C30_parts_partial",
    "Verif.Props.C30_error_partial",
    "Verif.Props.C30_untouched_partial",
    "Verif.Props.C30_last_partial",
    "Verif.Props.C30_success_partial",
    "Verif.Props.C30_recursive_kept_partial",
    "Verif.Props.C30_refuted",
    "Verif.Props.C30_inside_partial",
    "Verif.Props.C30_inside_error_partial"
   ],
   "note": "False of the code: an object for an unknown key of a nested struct ends that struct, and its later keys select fields of the outer one. Proved on RightDoc documents in terms of what Decode does with each value alone. Recursive struct types: unselected fields keep their values. Types with recursive struct types inside (C65): the same on documents within TameDocX, except that the values left by errors are not compared."
  },
  {
   "property": "C32",
   "status": "partial",
   "theorems": [
    "Verif.Props.C32_always",
    "Verif.Props.C32_known_partial",
    "Verif.Props.C32_unknown_partial",
    "Verif.Props.C32_index_partial",
    "Verif.Props.C32_success_partial",
    "Verif.Props.C32_list",
    "Verif.Props.C32_recursive_partial",
    "Verif.Props.C32_recursive_known_partial",
    "Verif.Props.C32_inside_partial",
    "Verif.Props.C32_inside_known_partial"
   ],
   "note": "For all types and documents the option changes nothing or gives ErrUnknownField at a key; that it is the first unknown key is proved for non-recursive types on RightDoc documents (which allow non-null pointers at the right ends), and for recursive struct types, and types with such types inside, on TameR and TameDocX documents."
  },
  {
   "property": "C33",
   "status": "partial",
   "theorems": [
    "Verif.Props.C33_null_partial",
    "Verif.Props.C33_inside_partial",
    "Verif.Props.C33_refuted"
   ],
   "note": "Every type except []struct{} (null is ignored there, refuted) and json.Unmarshaler types."
  },
  {
   "property": "C34",
   "status": "partial",
   "theorems": [
    "Verif.Props.C34_fresh_partial",
    "Verif.Props.C34_pointer_partial",
    "Verif.Props.C34_null",
    "Verif.Props.C34_refuted"
   ],
   "note": "False of the code: {\"u\":{},\"X\":1} is decoded into a struct but refused for a pointer to it. Proved on RightDoc documents (pointers to zero-size types excluded), null for all."
  },
  {
   "property": "C35",
   "status": "partial",
   "theorems": [
    "Verif.Props.C35_refuted",
    "Verif.Props.C35_refuted_silent",
    "Verif.Props.C35_last_partial",
    "Verif.Props.C35_reading_partial",
    "Verif.Props.C35_contains"
   ],
   "note": "False of the code: witnesses. Proved for every type with a tree on documents in which a pointer inside gets null, or a value at the right end of an array or of the document (RightDoc); RightDoc contains TameDoc."
  },
  {
   "property": "C36",
   "status": "partial",
   "theorems": [
    "Verif.Props.C36_root_partial",
    "Verif.Props.C36_field_partial",
    "Verif.Props.C36_refuted",
    "Verif.Props.C36_refuted_panic",
    "Verif.Props.C35_reading_partial"
   ],
   "note": "False of the code when nested; proved for struct{} as the destination and as a field of the destination, and at the right end of the document for every type (C35_reading_partial)."
  },
  {
   "property": "C38",
   "status": "partial",
   "theorems": [
    "Verif.Props.C38_refuted",
    "Verif.Props.C38_refuted_success",
    "Verif.Props.C38_everything",
    "Verif.Props.C38_interchangeable",
    "Verif.Props.C38_reuse_partial",
    "Verif.Props.C38_right_partial",
    "Verif.Props.C38_reuse_early",
    "Verif.Props.C38_recursive_partial"
   ],
   "note": "False of the code for recursive types after a failed call, and for a struct with an array and a double pointer inside a slice after a successful call. Proved for every type with a tree that has no arrays, every document and every history (C38_everything); for every type with a tree on TameDoc documents, whatever happened before; for recursive struct types on TameR documents if earlier calls did not fail while decoding."
  },
  {
   "property": "C39",
   "status": "partial",
   "theorems": [
    "Verif.Props.C39_refuted",
    "Verif.Props.C39_frames_partial",
    "Verif.Props.C39_no_recursion"
   ],
   "note": "False of the code for recursive types (recursion stack)."
  },
  {
   "property": "C40",
   "status": "partial",
   "theorems": [
    "Verif.Props.C40_refuted",
    "Verif.Props.C40_unmarshal"
   ],
   "note": "Proved for all non-interface T; false of the code for interface T with a preset value."
  },
  {
   "property": "C41",
   "status": "partial",
   "theorems": [
    "Verif.Props.C41_unmarshalJSON_partial",
    "Verif.Props.C41_inside",
    "Verif.Props.C41_refuted"
   ],
   "note": "Value types proved; pointer types with the method panic."
  },
  {
   "property": "C42",
   "status": "proved",
   "theorems": [
    "Verif.Props.C42_unmarshalText"
   ],
   "note": "Destinations; map keys are covered by C28."
  },
  {
   "property": "C43",
   "status": "proved",
   "theorems": [
    "Verif.Props.C43_bool",
    "Verif.Props.C43_string"
   ],
   "note": ""
  },
  {
   "property": "C44",
   "status": "proved",
   "theorems": [
    "Verif.Props.C44_float",
    "Verif.Props.C44_short_literals_exact"
   ],
   "note": "-0 is C50. Assumes what strconv and the conversion guarantee on exactly representable integers."
  },
  {
   "property": "C45",
   "status": "proved",
   "theorems": [
    "Verif.Props.C45_terminates"
   ],
   "note": "Every type and history."
  },
  {
   "property": "C49",
   "status": "proved",
   "theorems": [
    "Verif.Props.C49_errors"
   ],
   "note": "Every type and history."
  },
  {
   "property": "C50",
   "status": "partial",
   "theorems": [
    "Verif.Props.C50_refuted",
    "Verif.Props.C50_negative_zero"
   ],
   "note": "False of the code: the integer fast path loses the sign of -0."
  },
  {
   "property": "C51",
   "status": "partial",
   "theorems": [
    "Verif.Props.C51_refuted",
    "Verif.Props.C51_refuted_unrolled",
    "Verif.Props.C51_refuted_strict"
   ],
   "note": "False of the code: a second use of a struct type below a slice, map or pointer is taken for recursion; struct{A []Q; B []Q} loses B. For types without such a second use C22, C25 and C30 give the outcome as a function of the tree of the type."
  },
  {
   "property": "C46",
   "status": "partial",
   "theorems": [
    "Verif.Props.C46_refuted",
    "Verif.Props.C46_refuted_accepts",
    "Verif.Props.C46_decodes_partial",
    "Verif.Props.C46_means_partial",
    "Verif.Props.C46_accepts_partial",
    "Verif.Props.C46_right_partial",
    "Verif.Props.C46_right_means_partial"
   ],
   "note": "Means is a declarative meaning of documents in the style of encoding/json. Full statement AgreesOnZero false of the code (C35, C03). Proved for TameDoc documents without -0; the converse for types all of whose checks are exact and documents without duplicate members; both also on RightDoc (non-null pointers at the right end)."
  },
  {
   "property": "C52",
   "status": "proved",
   "theorems": [
    "Verif.Props.C52_mismatch",
    "Verif.Props.C52_mismatch_inside",
    "Verif.Props.C52_bool",
    "Verif.Props.C52_string"
   ],
   "note": "Pointers to zero-size types excluded in C52_mismatch."
  },
  {
   "property": "C53",
   "status": "proved",
   "theorems": [
    "Verif.Props.C53_position"
   ],
   "note": "Every type, decoder state, destination and option set."
  },
  {
   "property": "C31",
   "status": "partial",
   "theorems": [
    "Verif.Props.C31_refuted",
    "Verif.Props.C31_removed_partial",
    "Verif.Props.C31_root_partial",
    "Verif.Props.C31_recursive_partial",
    "Verif.Props.C31_inside_partial"
   ],
   "note": "False of the code when the value of an unknown key contains an object (panic or early end of the struct). Proved for non-recursive types on RightDoc documents, and for objects as values of unknown keys of the destination itself: SkipsUnknown relates two texts. Recursive struct types, and types with such types inside: the same on TameR and TameDocX documents, except for the value left by an error."
  },
  {
   "property": "C47",
   "status": "proved",
   "theorems": [
    "Verif.Props.C47_alike",
    "Verif.Props.C47_unmarshal",
    "Verif.Props.C47_own",
    "Verif.Props.C47_buffer"
   ],
   "note": "Every type, history, input, destination and option set. Unmarshaler methods, which get the input uncopied, must copy what they keep (MethodsCopy)."
  },
  {
   "property": "C48",
   "status": "partial",
   "theorems": [
    "Verif.Props.C48_refuted",
    "Verif.Props.C48_once_partial",
    "Verif.Props.C48_recursive_partial"
   ],
   "note": "False of the code for documents with duplicate keys (spare elements of a slice come back). Proved for every type with a tree on RightDoc documents without duplicate members, if the unmarshaler methods are idempotent themselves; and for recursive struct types, and types with such types inside, on TameR and TameDocX documents."
  },
  {
   "property": "C37",
   "status": "partial",
   "theorems": [
    "Verif.Props.C37_refuted",
    "Verif.Props.C37_refuted_silent",
    "Verif.Props.C37_refuted_pointers",
    "Verif.Props.C37_refuted_mutual",
    "Verif.Props.C37_refuted_nested",
    "Verif.Props.C37_refuted_empty",
    "Verif.Props.C37_reading_partial",
    "Verif.Props.C37_decodes_partial",
    "Verif.Props.C37_means_partial"
   ],
   "note": "False of the code: null entries of a map[K]T, and members after a recursive field in an element i>0 of a []T, go to the wrong place. Proved at every depth, by induction, for struct types T with fields *T, []T, map[K]T on documents within TameR; mutual recursion through several struct types is missing."
  },
  {
   "property": "C54",
   "status": "partial",
   "theorems": [
    "Verif.Props.C54_roundtrip_partial",
    "Verif.Props.C54_json",
    "Verif.Props.C54_refuted",
    "Verif.Props.json_unique",
    "Verif.Props.json_wf",
    "Verif.Props.means_unique",
    "Verif.Props.C54_recursive_partial",
    "Verif.Props.C54_right_partial"
   ],
   "note": "False of the code for non-null pointers inside (C35). Proved for every type without pointers and struct{} inside, all values, options and histories; and for every type and all values whose non-nil pointers are at the right end of an array or of the value (C54_right_partial). Recursive struct types: values of every depth, if there is no field []T or the only recursive field is the last one (other types lead into C37)."
  },
  {
   "property": "C56",
   "status": "proved",
   "theorems": [
    "Verif.Props.C56_spelling",
    "Verif.Props.C56_looks"
   ],
   "note": "Every type, decoder state, destination. C56_spelling ([]byte input): outcomes are equal. C56_looks (also string input): equal except where the bytes of strings live."
  },
  {
   "property": "C55",
   "status": "proved",
   "theorems": [
    "Verif.Props.C55_unescaping",
    "Verif.Props.C55_case"
   ],
   "note": "Every type, decoder state, destination."
  },
  {
   "property": "C57",
   "status": "partial",
   "theorems": [
    "Verif.Props.C57_refuted",
    "Verif.Props.C57_order_partial",
    "Verif.Props.C57_right_partial",
    "Verif.Props.C57_recursive_partial"
   ],
   "note": "False of the code: an object for a struct{} inside a nested struct ends that struct. Proved for every type with a tree on TameDoc documents; nothing is assumed about the spots the reordered document reaches; and if both documents are RightDoc (C57_right_partial). UnmarshalJSON methods must not see the order. Recursive struct types: if both documents are within TameR."
  },
  {
   "property": "C58",
   "status": "partial",
   "theorems": [
    "Verif.Props.C58_refuted",
    "Verif.Props.C58_existing_partial",
    "Verif.Props.C58_new_partial",
    "Verif.Props.C58_inside_partial"
   ],
   "note": "False of the code for slices of pointers (C35). Proved for every slice type except []struct{} and every length and capacity, on RightDoc documents (a non-null pointer only as the last element). Types with recursive struct types inside (C65): the same on documents within TameDocX."
  },
  {
   "property": "C59",
   "status": "proved",
   "theorems": [
    "Verif.Props.C59_methods",
    "Verif.Props.C59_int64",
    "Verif.Props.C59_float64"
   ],
   "note": "strconv.ParseInt is transcribed from Go's library; ParseFloat is a parameter with FloatContract."
  },
  {
   "property": "C60",
   "status": "proved",
   "theorems": [
    "Verif.Props.C60_flag",
    "Verif.Props.C60_insert"
   ],
   "note": "Every type, decoder state, destination and key. The runtime's contract for mapassign_faststr is stated as RuntimeFast."
  },
  {
   "property": "C61",
   "status": "proved",
   "theorems": [
    "Verif.Props.C61_memory",
    "Verif.Props.C61_history",
    "Verif.Props.C61_unmarshal"
   ],
   "note": "Every type, decoder state, destination, option set and document of the JSON grammar, with and without success. Unmarshaler methods must be frugal themselves (Frugal). Bookkeeping of the Go runtime is not counted."
  },
  {
   "property": "C62",
   "status": "proved",
   "theorems": [
    "Verif.Props.C62_or",
    "Verif.Props.C62_structfree",
    "Verif.Props.C62_struct",
    "Verif.Props.C62_new",
    "Verif.Props.C62_new_panic"
   ],
   "note": "Decode with nil options panics or equals Decode with every other options, for every decoder whatsoever; struct-free types (reachability in the type graph) never differ; struct types with fields panic on every non-empty object; the same for NewDecoder and nil InitOptions."
  },
  {
   "property": "C63",
   "status": "proved",
   "theorems": [
    "Verif.Props.C63_table",
    "Verif.Props.C63_elements",
    "Verif.Props.C63_recursion",
    "Verif.Props.C63_maps"
   ],
   "note": "Every type graph with Layout, every option set and history. The theorem is about the frame table that the allocation sites index; the blocks of the memory model do not carry descriptors themselves. For maps with composite key types the value frame is not where Decode looks for it (a condition in FrameFits, shown necessary by an example)."
  },
  {
   "property": "C64",
   "status": "proved",
   "theorems": [
    "Verif.Props.C64_names",
    "Verif.Props.C64_codes",
    "Verif.Props.C64_other",
    "Verif.Props.C64_quoted"
   ],
   "note": "By cases over the whole (finite) type, all pairs."
  },
  {
   "property": "C65",
   "status": "partial",
   "theorems": [
    "Verif.Props.C65_refuted",
    "Verif.Props.C65_refuted_tail",
    "Verif.Props.C65_refuted_entries",
    "Verif.Props.C65_refuted_array",
    "Verif.Props.C65_refuted_offset",
    "Verif.Props.C65_reading_partial",
    "Verif.Props.C65_decodes_partial",
    "Verif.Props.C65_means_partial",
    "Verif.Props.C65_reuse_partial",
    "Verif.Props.C65_safe_partial",
    "Verif.Props.C65_twice_partial",
    "Verif.Props.C65_order_partial"
   ],
   "note": "Full statement RecursiveInside false of the code: after a slice of T inside another type the frames are left wrong, arrays of T panic, and T at an offset other than 0 misplaces the members after a recursion. Proved for every nesting of arrays, slices, maps and structs around recursive struct types, at every depth, on documents within TameDocX: non-empty arrays and slices of T itself only as the root []T, recursion at a non-zero offset only last."
  },
  {
   "property": "C66",
   "status": "proved",
   "theorems": [
    "Verif.Props.C66_verdict",
    "Verif.Props.C66_session",
    "Verif.Props.C66_unmarshal",
    "Verif.Props.C66_needed"
   ],
   "note": "Every decoder state, document, option set and pair of destinations; sequences of calls with any destinations. Calls that panic are not compared. The condition on unmarshaler methods is shown necessary (C66_needed)."
  },
  {
   "property": "C67",
   "status": "partial",
   "theorems": [
    "Verif.Props.C67_refuted",
    "Verif.Props.C67_layers_partial",
    "Verif.Props.C67_recursive_partial"
   ],
   "note": "False of the code for map[string]string (C29). Proved for all other map types and all struct types on RightDoc documents, all histories of the three decoders and all old values; and for recursive struct types within TameR, where the earlier calls of the three decoders returned no error."
  },
  {
   "property": "C68",
   "status": "partial",
   "theorems": [
    "Verif.Props.C68_refuted",
    "Verif.Props.C68_new_fields_partial",
    "Verif.Props.C68_recursive_partial"
   ],
   "note": "False of the code: where an unknown key ends a struct early (C31), keys behind it select new fields of the outer struct. Every type with a tree, every change of it by new fields and all old values that agree, on documents that are RightDoc for the old type; nothing is assumed about the spots reached with the new type. Recursive struct types (new fields of recursive types included): the same on TameR documents, except that the values left by errors are not compared."
  },
  {
   "property": "C69",
   "status": "proved",
   "theorems": [
    "Verif.Props.C69_prefix"
   ],
   "note": "Every decoder state of every type, every pair of documents of the JSON grammar with a common beginning, all options and destinations. Calls that panic are not compared; the condition on unmarshaler methods is that of C66 (shown necessary by C66_needed)."
  },
  {
   "property": "C70",
   "status": "partial",
   "theorems": [
    "Verif.Props.C70_order_partial",
    "Verif.Props.C70_zero_partial",
    "Verif.Props.C70_recursive_partial",
    "Verif.Props.C70_refuted"
   ],
   "note": "All types with a tree (pointers included), all reorderings at every depth, all old values, options: the same error index and error, the same panics, the same field contents. Missing: documents outside RightDoc of the first type; there the claim is false of the code (C70_refuted: the end of an array after a field of type **int is taken for the end of whatever is one frame up, which depends on the order of the fields). Recursive struct types: the same on TameR documents, except that the values left by errors are not compared."
  },
  {
   "property": "C71",
   "status": "partial",
   "theorems": [
    "Verif.Props.C71_kept_partial",
    "Verif.Props.C71_history_partial",
    "Verif.Props.C71_refuted"
   ],
   "note": "All types with a tree, every input text (well-formed or not, fitting the type or not), all options, every history, success and error. Missing: recursive types, for which it is refuted (an integer is written over the data pointer of a string). Memory that has become unreachable from the destination during the call is not part of the model."
  },
  {
   "property": "C72",
   "status": "partial",
   "theorems": [
    "Verif.Props.C72_inside_partial",
    "Verif.Props.C72_structless",
    "Verif.Props.C72_right_partial",
    "Verif.Props.C72_returns",
    "Verif.Props.C72_refuted",
    "Verif.Props.C72_refuted_nested"
   ],
   "note": "False of the code for slices of structs: a document with an object for an unknown key makes it write behind the end of the array; and for slices of slices inside a struct (C72_refuted_nested). Proved for all non-recursive types without such slices, every document, options, history and old value (also for the calls that panic), and for all types without structs and pointers (slices of slices etc. included)."
  },
  {
   "property": "C73",
   "status": "proved",
   "theorems": [
    "Verif.Props.C73_reading",
    "Verif.Props.C73_safe",
    "Verif.Props.C73_reuse",
    "Verif.Props.C73_array",
    "Verif.Props.C73_slice",
    "Verif.Props.C73_kept",
    "Verif.Props.C73_decides",
    "Verif.Props.C73_pointer",
    "Verif.Props.C73_means",
    "Verif.Props.C73_twice",
    "Verif.Props.C73_order",
    "Verif.Props.C73_layers"
   ],
   "note": "The side conditions of the other claims that do not concern the spots a document reaches stay: no empty quoted numbers (C06), methods on values (C41), -0 (C50), duplicate members (C48)."
  },
  {
   "property": "C74",
   "status": "partial",
   "theorems": [
    "Verif.Props.C74_outcome_partial",
    "Verif.Props.C74_widen_partial",
    "Verif.Props.C74_refuses_partial",
    "Verif.Props.C74_other_errors_partial",
    "Verif.Props.C74_sure_partial",
    "Verif.Props.C74_literals_outcome_partial",
    "Verif.Props.C74_literals_partial",
    "Verif.Props.C74_recursive_outcome_partial",
    "Verif.Props.C74_recursive_partial",
    "Verif.Props.C74_recursive_literals_partial",
    "Verif.Props.C74_refuted",
    "Verif.Props.C74_refuted_quoted"
   ],
   "note": "False of the code for narrow signed types (300 into an int8 gives 44, C74_refuted) and for integers with the `string` option ({\"n\":\"12 \"} into a uint8 gives 104, into an int 360, C74_refuted_quoted). Proved for unsigned and 64-bit types replaced by any wider types, at every depth of every type with a tree, all old values, on RightDoc of the old type (on every document for sure types). C74_literals_partial: every integer type, the `string` option and integer map keys too, on RightDoc documents whose integers are literals in the range of the old type (where its overflow check is incomplete). Missing: other documents. Recursive struct types: the same on TameR documents, except that the values left by errors are not compared."
  },
  {
   "property": "C75",
   "status": "partial",
   "theorems": [
    "Verif.Props.C75_trim",
    "Verif.Props.C75_document",
    "Verif.Props.C75_part",
    "Verif.Props.C75_array_partial",
    "Verif.Props.C75_array_error_partial",
    "Verif.Props.C75_slice_partial",
    "Verif.Props.C75_slice_error_partial",
    "Verif.Props.C75_map_partial",
    "Verif.Props.C75_struct_partial",
    "Verif.Props.C75_struct_error_partial",
    "Verif.Props.C75_recursive_pointer_partial",
    "Verif.Props.C75_recursive_slice_partial",
    "Verif.Props.C75_recursive_map_partial",
    "Verif.Props.C75_recursive_error_partial",
    "Verif.Props.C75_inside_array_partial",
    "Verif.Props.C75_inside_slice_partial",
    "Verif.Props.C75_inside_map_partial",
    "Verif.Props.C75_inside_struct_partial",
    "Verif.Props.C75_inside_array_error_partial",
    "Verif.Props.C75_inside_slice_error_partial",
    "Verif.Props.C75_inside_struct_error_partial",
    "Verif.Props.C75_refuted"
   ],
   "note": "White space around the document, and any part decoded in its place or separately: proved for every decoder whatsoever (recursive types, any history, any UnmarshalJSON). What Decode of the whole container does to the part: every type with a tree, on RightDoc documents; false of the code outside of them (C75_refuted). Recursive struct types: the value of a *T, []T or map[K]T field within TameR consists of what the texts of its parts give, decoded separately into T; an error comes from an unknown key, a value of the wrong kind for its field, or a part whose text, decoded separately, gives the same error at the same byte. Types with recursive struct types inside: the same on TameDocX documents."
  },
  {
   "property": "C76",
   "status": "partial",
   "theorems": [
    "Verif.Props.C76_slice_to_array_partial",
    "Verif.Props.C76_array_slice_partial",
    "Verif.Props.C76_array_slice_error_partial",
    "Verif.Props.C76_struct_map_partial",
    "Verif.Props.C76_struct_map_values_partial",
    "Verif.Props.C76_struct_mapSS_partial",
    "Verif.Props.C76_struct_mapSS_values_partial",
    "Verif.Props.C76_refuted"
   ],
   "note": "Arrays against slices and structs against maps: every element type with a tree, on documents within RightDoc for both types (outside of it false of the code: C76_refuted). map[string]string, which the code treats as a type of its own, against structs of strings: the same, the old map not counting."
  }
 ]
}