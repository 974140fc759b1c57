CLAIMS = [
 ("C01", "proved", ["C01_unsigned"], "Every unsigned kind, literal, previous value, option set and history of the decoder."),
 ("C02", "proved", ["C02_signed64"], "Every literal, previous value and history."),
 ("C03", "partial", ["C03_decode_refuted", "C03_decode_partial", "C03_refuted", "C03_refuted_other", "C03_signed_parse_partial"], "False of the code for int8/int16/int32 (wrap-around accepted): refuted on witnesses; the exact guarantee is proved."),
 ("C04", "proved", ["C04_negative", "C04_fraction"], ""),
 ("C05", "proved", ["C05_scan", "C05_scan_number"], "Every non-empty text."),
 ("C06", "partial", ["C06_refuted", "C06_refuted_other", "C06_quoted_partial", "C06_scan_panics_iff"], "False of the code for the empty quoted text, which panics; that is the only such text."),
 ("C07", "partial", ["C07_refuted", "C07_refuted_value", "C07_quoted_partial", "C07_keys_partial", "C07_exact", "C07_keys_exact", "C07_unique", "C07_contains", "C07_short"], "False of the code: bytes after the first invalid character are not rejected ('1x' stores 82); proved for texts that are integers and for texts without an integer beginning. C07_exact and C07_keys_exact say for every text whether the code takes it and what it stores."),
 ("C08", "partial", ["C08_number", "C08_string_partial", "C08_string_exact", "C08_refuted"], "Number tokens proved; for strings false of the code ('1x' accepted); C08_string_exact says what the code does with every string."),
 ("C09", "proved", ["C09_unescape", "C09_plain", "C09_denotes_unique"], ""),
 ("C10", "proved", ["C10_no_growth"], ""),
 ("C11", "partial", ["C11_refuted", "C11_surrogates_partial"], "False of the code: a surrogate pair becomes two U+FFFD."),
 ("C12", "proved", ["C12_utf8"], ""),
 ("C13", "proved", ["C13_roundtrip", "C13_decode"], ""),
 ("C14", "proved", ["C14_default_matching"], ""),
 ("C15", "proved", ["C15_exact_matching", "C15_agrees"], ""),
 ("C16", "proved", ["C16_key_text"], ""),
 ("C17", "proved", ["C17_any", "C17_inside"], "Every JSON value, previous value, option set and history."),
 ("C18", "partial", ["C18_tag", "C18_table", "C18_names_partial", "C18_ignored_partial", "C18_outside_partial", "C18_refuted", "C18_dash_comma"], "Names and offsets for all struct types (C18_table); the string option for types with a tree; that ignored fields are never written for all non-recursive types, every input and every history (an invariant of the token loop). For recursive types false of the code: a field tagged - is overwritten (C18_refuted). The tag `-,` ignores the field (encoding/json names it -)."),
 ("C19", "proved", ["C19_rejected", "C19_only", "C19_ignored"], "Every type graph. If another reachable type is unsupported, its error may come first."),
 ("C20", "partial", ["C20_outcomes", "C20_supported", "C20_unsupported", "C20_finite", "C20_recursive", "C20_depth", "C20_diverges", "C20_refuted", "C20_refuted_struct", "C20_refuted_interface", "C20_refuted_options"], "Proved for all types of finite depth and all recursion through pointers, slices and maps of structs; false of the code for other recursion (never returns), for interface types with methods and for nil options (panics)."),
 ("C21", "proved", ["C21_decode_nil", "C21_unmarshal_nil"], "Every type and history."),
 ("C22", "proved", ["C22_index_iff", "C22_index_token", "C22_index_inside"], "Every type and history."),
 ("C23", "proved", ["C23_syntax_error", "C23_unmarshal"], "Every type and history."),
 ("C24", "partial", ["C24_refuted", "C24_refuted_empty", "C24_refuted_pointer", "C24_safe_partial", "C24_safe_strict", "C24_structless", "C24_root_partial", "C24_right_partial", "C24_recursive_partial"], "False of the code (unknown object-valued keys, empty quoted numbers, pointer unmarshalers); proved for non-recursive types away from those spots, and for recursive struct types, and types with such types inside, on TameR and TameDocX documents."),
 ("C25", "partial", ["C25_refuted", "C25_reading_partial", "C25_strict", "C25_structless", "C25_element_partial", "C25_root_partial", "C25_recursive_partial"], "False of the code: what ends a struct early (C31, C36) hides wrong values from it. Proved for non-recursive types, and recursive struct types on TameR documents (C25_recursive_partial: as the unrolled type is read); documents that do not reach one of the spots where the code leaves the document. C25_strict has no condition on the document."),
 ("C26", "partial", ["C26_elements_partial", "C26_success_partial", "C26_error_partial", "C26_array_partial", "C26_array_error_partial", "C26_zero", "C26_refuted", "C26_inside_partial", "C26_inside_error_partial"], "False of the code: an object for an unknown key in an element of a nested array ends the array. Proved, for success and failure, on RightDoc documents in terms of what Decode does with each JSON element alone. Types with recursive struct types inside (C65): the same on documents within TameDocX, except that the values left by errors are not compared."),
 ("C27", "partial", ["C27_elements_partial", "C27_fresh_partial", "C27_error_partial", "C27_slice_partial", "C27_nil_partial", "C27_refuted", "C27_refuted_empty", "C27_inside_partial", "C27_inside_error_partial"], "Length, order and element values proved; false of the code for empty slices with spare capacity (old backing contents show through). Types with recursive struct types inside (C65): the same on documents within TameDocX, except that the values left by errors are not compared."),
 ("C28", "partial", ["C28_entries_partial", "C28_error_partial", "C28_map_partial", "C28_refuted", "C28_inside_partial", "C28_inside_error_partial"], "Proved for element types whose decoding does not depend on the previous value; false of the code for composite elements on repeated keys (values merge). Types with recursive struct types inside (C65): the same on documents within TameDocX, except that the values left by errors are not compared."),
 ("C29", "partial", ["C29_mapSS_partial", "C29_refuted"], "False of the code: the map is replaced. What the code does instead is proved."),
 ("C30", "partial", ["C30_kept_partial", "C30_decides_partial", "C30_parts_partial", "C30_error_partial", "C30_untouched_partial", "C30_last_partial", "C30_success_partial", "C30_recursive_kept_partial", "C30_refuted", "C30_inside_partial", "C30_inside_error_partial"], "False of the code: an object for an unknown key of a nested struct ends that struct, and its later keys select fields of the outer one. Proved on RightDoc documents in terms of what Decode does with each value alone. Recursive struct types: unselected fields keep their values. Types with recursive struct types inside (C65): the same on documents within TameDocX, except that the values left by errors are not compared."),
 ("C32", "partial", ["C32_always", "C32_known_partial", "C32_unknown_partial", "C32_index_partial", "C32_success_partial", "C32_list", "C32_recursive_partial", "C32_recursive_known_partial", "C32_inside_partial", "C32_inside_known_partial"], "For all types and documents the option changes nothing or gives ErrUnknownField at a key; that it is the first unknown key is proved for non-recursive types on RightDoc documents (which allow non-null pointers at the right ends), and for recursive struct types, and types with such types inside, on TameR and TameDocX documents."),
 ("C33", "partial", ["C33_null_partial", "C33_inside_partial", "C33_refuted"], "Every type except []struct{} (null is ignored there, refuted) and json.Unmarshaler types."),
 ("C34", "partial", ["C34_fresh_partial", "C34_pointer_partial", "C34_null", "C34_refuted"], "False of the code: {\"u\":{},\"X\":1} is decoded into a struct but refused for a pointer to it. Proved on RightDoc documents (pointers to zero-size types excluded), null for all."),
 ("C35", "partial", ["C35_refuted", "C35_refuted_silent", "C35_last_partial", "C35_reading_partial", "C35_contains"], "False of the code: witnesses. Proved for every type with a tree on documents in which a pointer inside gets null, or a value at the right end of an array or of the document (RightDoc); RightDoc contains TameDoc."),
 ("C36", "partial", ["C36_root_partial", "C36_field_partial", "C36_refuted", "C36_refuted_panic", "C35_reading_partial"], "False of the code when nested; proved for struct{} as the destination and as a field of the destination, and at the right end of the document for every type (C35_reading_partial)."),
 ("C38", "partial", ["C38_refuted", "C38_refuted_success", "C38_everything", "C38_interchangeable", "C38_reuse_partial", "C38_right_partial", "C38_reuse_early", "C38_recursive_partial"], "False of the code for recursive types after a failed call, and for a struct with an array and a double pointer inside a slice after a successful call. Proved for every type with a tree that has no arrays, every document and every history (C38_everything); for every type with a tree on TameDoc documents, whatever happened before; for recursive struct types on TameR documents if earlier calls did not fail while decoding."),
 ("C39", "partial", ["C39_refuted", "C39_frames_partial", "C39_no_recursion"], "False of the code for recursive types (recursion stack)."),
 ("C40", "partial", ["C40_refuted", "C40_unmarshal"], "Proved for all non-interface T; false of the code for interface T with a preset value."),
 ("C41", "partial", ["C41_unmarshalJSON_partial", "C41_inside", "C41_refuted"], "Value types proved; pointer types with the method panic."),
 ("C42", "proved", ["C42_unmarshalText"], "Destinations; map keys are covered by C28."),
 ("C43", "proved", ["C43_bool", "C43_string"], ""),
 ("C44", "proved", ["C44_float", "C44_short_literals_exact"], "-0 is C50. Assumes what strconv and the conversion guarantee on exactly representable integers."),
 ("C45", "proved", ["C45_terminates"], "Every type and history."),
 ("C49", "proved", ["C49_errors"], "Every type and history."),
 ("C50", "partial", ["C50_refuted", "C50_negative_zero"], "False of the code: the integer fast path loses the sign of -0."),
 ("C51", "partial", ["C51_refuted", "C51_refuted_unrolled", "C51_refuted_strict"], "False of the code: a second use of a struct type below a slice, map or pointer is taken for recursion; struct{A []Q; B []Q} loses B. For types without such a second use C22, C25 and C30 give the outcome as a function of the tree of the type."),
 ("C46", "partial", ["C46_refuted", "C46_refuted_accepts", "C46_decodes_partial", "C46_means_partial", "C46_accepts_partial", "C46_right_partial", "C46_right_means_partial"], "Means is a declarative meaning of documents in the style of encoding/json. Full statement AgreesOnZero false of the code (C35, C03). Proved for TameDoc documents without -0; the converse for types all of whose checks are exact and documents without duplicate members; both also on RightDoc (non-null pointers at the right end)."),
 ("C52", "proved", ["C52_mismatch", "C52_mismatch_inside", "C52_bool", "C52_string"], "Pointers to zero-size types excluded in C52_mismatch."),
 ("C53", "proved", ["C53_position"], "Every type, decoder state, destination and option set."),
 ("C31", "partial", ["C31_refuted", "C31_removed_partial", "C31_root_partial", "C31_recursive_partial", "C31_inside_partial"], "False of the code when the value of an unknown key contains an object (panic or early end of the struct). Proved for non-recursive types on RightDoc documents, and for objects as values of unknown keys of the destination itself: SkipsUnknown relates two texts. Recursive struct types, and types with such types inside: the same on TameR and TameDocX documents, except for the value left by an error."),
 ("C47", "proved", ["C47_alike", "C47_unmarshal", "C47_own", "C47_buffer"], "Every type, history, input, destination and option set. Unmarshaler methods, which get the input uncopied, must copy what they keep (MethodsCopy)."),
 ("C48", "partial", ["C48_refuted", "C48_once_partial", "C48_recursive_partial"], "False of the code for documents with duplicate keys (spare elements of a slice come back). Proved for every type with a tree on RightDoc documents without duplicate members, if the unmarshaler methods are idempotent themselves; and for recursive struct types, and types with such types inside, on TameR and TameDocX documents."),
 ("C37", "partial", ["C37_refuted", "C37_refuted_silent", "C37_refuted_pointers", "C37_refuted_mutual", "C37_refuted_nested", "C37_refuted_empty", "C37_reading_partial", "C37_decodes_partial", "C37_means_partial"], "False of the code: null entries of a map[K]T, and members after a recursive field in an element i>0 of a []T, go to the wrong place. Proved at every depth, by induction, for struct types T with fields *T, []T, map[K]T on documents within TameR; mutual recursion through several struct types is missing."),
 ("C54", "partial", ["C54_roundtrip_partial", "C54_json", "C54_refuted", "json_unique", "json_wf", "means_unique", "C54_recursive_partial", "C54_right_partial"], "False of the code for non-null pointers inside (C35). Proved for every type without pointers and struct{} inside, all values, options and histories; and for every type and all values whose non-nil pointers are at the right end of an array or of the value (C54_right_partial). Recursive struct types: values of every depth, if there is no field []T or the only recursive field is the last one (other types lead into C37)."),
 ("C56", "proved", ["C56_spelling", "C56_looks"], "Every type, decoder state, destination. C56_spelling ([]byte input): outcomes are equal. C56_looks (also string input): equal except where the bytes of strings live."),
 ("C55", "proved", ["C55_unescaping", "C55_case"], "Every type, decoder state, destination."),
 ("C57", "partial", ["C57_refuted", "C57_order_partial", "C57_right_partial", "C57_recursive_partial"], "False of the code: an object for a struct{} inside a nested struct ends that struct. Proved for every type with a tree on TameDoc documents; nothing is assumed about the spots the reordered document reaches; and if both documents are RightDoc (C57_right_partial). UnmarshalJSON methods must not see the order. Recursive struct types: if both documents are within TameR."),
 ("C58", "partial", ["C58_refuted", "C58_existing_partial", "C58_new_partial", "C58_inside_partial"], "False of the code for slices of pointers (C35). Proved for every slice type except []struct{} and every length and capacity, on RightDoc documents (a non-null pointer only as the last element). Types with recursive struct types inside (C65): the same on documents within TameDocX."),
 ("C59", "proved", ["C59_methods", "C59_int64", "C59_float64"], "strconv.ParseInt is transcribed from Go's library; ParseFloat is a parameter with FloatContract."),
 ("C60", "proved", ["C60_flag", "C60_insert"], "Every type, decoder state, destination and key. The runtime's contract for mapassign_faststr is stated as RuntimeFast."),
 ("C61", "proved", ["C61_memory", "C61_history", "C61_unmarshal"], "Every type, decoder state, destination, option set and document of the JSON grammar, with and without success. Unmarshaler methods must be frugal themselves (Frugal). Bookkeeping of the Go runtime is not counted."),
    ("C62", "proved", ["C62_or", "C62_structfree", "C62_struct", "C62_new", "C62_new_panic"], "Decode with nil options panics or equals Decode with every other options, for every decoder whatsoever; struct-free types (reachability in the type graph) never differ; struct types with fields panic on every non-empty object; the same for NewDecoder and nil InitOptions."),
    ("C63", "proved", ["C63_table", "C63_elements", "C63_recursion", "C63_maps"], "Every type graph with Layout, every option set and history. The theorem is about the frame table that the allocation sites index; the blocks of the memory model do not carry descriptors themselves. For maps with composite key types the value frame is not where Decode looks for it (a condition in FrameFits, shown necessary by an example)."),
 ("C64", "proved", ["C64_names", "C64_codes", "C64_other", "C64_quoted"], "By cases over the whole (finite) type, all pairs."),
 ("C65", "partial", ["C65_refuted", "C65_refuted_tail", "C65_refuted_entries", "C65_refuted_array", "C65_refuted_offset", "C65_reading_partial", "C65_decodes_partial", "C65_means_partial", "C65_reuse_partial", "C65_safe_partial", "C65_twice_partial", "C65_order_partial"], "Full statement RecursiveInside false of the code: after a slice of T inside another type the frames are left wrong, arrays of T panic, and T at an offset other than 0 misplaces the members after a recursion. Proved for every nesting of arrays, slices, maps and structs around recursive struct types, at every depth, on documents within TameDocX: non-empty arrays and slices of T itself only as the root []T, recursion at a non-zero offset only last."),
 ("C66", "proved", ["C66_verdict", "C66_session", "C66_unmarshal", "C66_needed"], "Every decoder state, document, option set and pair of destinations; sequences of calls with any destinations. Calls that panic are not compared. The condition on unmarshaler methods is shown necessary (C66_needed)."),
 ("C67", "partial", ["C67_refuted", "C67_layers_partial", "C67_recursive_partial"], "False of the code for map[string]string (C29). Proved for all other map types and all struct types on RightDoc documents, all histories of the three decoders and all old values; and for recursive struct types within TameR, where the earlier calls of the three decoders returned no error."),
 ("C68", "partial", ["C68_refuted", "C68_new_fields_partial", "C68_recursive_partial"], "False of the code: where an unknown key ends a struct early (C31), keys behind it select new fields of the outer struct. Every type with a tree, every change of it by new fields and all old values that agree, on documents that are RightDoc for the old type; nothing is assumed about the spots reached with the new type. Recursive struct types (new fields of recursive types included): the same on TameR documents, except that the values left by errors are not compared."),
 ("C69", "proved", ["C69_prefix"], "Every decoder state of every type, every pair of documents of the JSON grammar with a common beginning, all options and destinations. Calls that panic are not compared; the condition on unmarshaler methods is that of C66 (shown necessary by C66_needed)."),
 ("C70", "partial", ["C70_order_partial", "C70_zero_partial", "C70_recursive_partial", "C70_refuted"], "All types with a tree (pointers included), all reorderings at every depth, all old values, options: the same error index and error, the same panics, the same field contents. Missing: documents outside RightDoc of the first type; there the claim is false of the code (C70_refuted: the end of an array after a field of type **int is taken for the end of whatever is one frame up, which depends on the order of the fields). Recursive struct types: the same on TameR documents, except that the values left by errors are not compared."),
 ("C71", "partial", ["C71_kept_partial", "C71_history_partial", "C71_refuted"], "All types with a tree, every input text (well-formed or not, fitting the type or not), all options, every history, success and error. Missing: recursive types, for which it is refuted (an integer is written over the data pointer of a string). Memory that has become unreachable from the destination during the call is not part of the model."),
 ("C72", "partial", ["C72_inside_partial", "C72_structless", "C72_right_partial", "C72_returns", "C72_refuted", "C72_refuted_nested"], "False of the code for slices of structs: a document with an object for an unknown key makes it write behind the end of the array; and for slices of slices inside a struct (C72_refuted_nested). Proved for all non-recursive types without such slices, every document, options, history and old value (also for the calls that panic), and for all types without structs and pointers (slices of slices etc. included)."),
 ("C73", "proved", ["C73_reading", "C73_safe", "C73_reuse", "C73_array", "C73_slice", "C73_kept", "C73_decides", "C73_pointer", "C73_means", "C73_twice", "C73_order", "C73_layers"], "The side conditions of the other claims that do not concern the spots a document reaches stay: no empty quoted numbers (C06), methods on values (C41), -0 (C50), duplicate members (C48)."),
 ("C74", "partial", ["C74_outcome_partial", "C74_widen_partial", "C74_refuses_partial", "C74_other_errors_partial", "C74_sure_partial", "C74_literals_outcome_partial", "C74_literals_partial", "C74_recursive_outcome_partial", "C74_recursive_partial", "C74_recursive_literals_partial", "C74_refuted", "C74_refuted_quoted"], "False of the code for narrow signed types (300 into an int8 gives 44, C74_refuted) and for integers with the `string` option ({\"n\":\"12 \"} into a uint8 gives 104, into an int 360, C74_refuted_quoted). Proved for unsigned and 64-bit types replaced by any wider types, at every depth of every type with a tree, all old values, on RightDoc of the old type (on every document for sure types). C74_literals_partial: every integer type, the `string` option and integer map keys too, on RightDoc documents whose integers are literals in the range of the old type (where its overflow check is incomplete). Missing: other documents. Recursive struct types: the same on TameR documents, except that the values left by errors are not compared."),
 ("C75", "partial", ["C75_trim", "C75_document", "C75_part", "C75_array_partial", "C75_array_error_partial", "C75_slice_partial", "C75_slice_error_partial", "C75_map_partial", "C75_struct_partial", "C75_struct_error_partial", "C75_recursive_pointer_partial", "C75_recursive_slice_partial", "C75_recursive_map_partial", "C75_recursive_error_partial", "C75_inside_array_partial", "C75_inside_slice_partial", "C75_inside_map_partial", "C75_inside_struct_partial", "C75_inside_array_error_partial", "C75_inside_slice_error_partial", "C75_inside_struct_error_partial", "C75_refuted"], "White space around the document, and any part decoded in its place or separately: proved for every decoder whatsoever (recursive types, any history, any UnmarshalJSON). What Decode of the whole container does to the part: every type with a tree, on RightDoc documents; false of the code outside of them (C75_refuted). Recursive struct types: the value of a *T, []T or map[K]T field within TameR consists of what the texts of its parts give, decoded separately into T; an error comes from an unknown key, a value of the wrong kind for its field, or a part whose text, decoded separately, gives the same error at the same byte. Types with recursive struct types inside: the same on TameDocX documents."),
 ("C76", "partial", ["C76_slice_to_array_partial", "C76_array_slice_partial", "C76_array_slice_error_partial", "C76_struct_map_partial", "C76_struct_map_values_partial", "C76_struct_mapSS_partial", "C76_struct_mapSS_values_partial", "C76_refuted"], "Arrays against slices and structs against maps: every element type with a tree, on documents within RightDoc for both types (outside of it false of the code: C76_refuted). map[string]string, which the code treats as a type of its own, against structs of strings: the same, the old map not counting."),
]
