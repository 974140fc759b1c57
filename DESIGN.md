# Formal model of romshark/jscan-experimental-decoder in Lean 4

Everything lives in `/verif/lean/Verif`:

| directory | contents |
|-----------|----------|
| `Model/` | the model of the Go code, function by function, every definition citing the lines it models |
| `Spec/` | small specifications that do not mention the machine: JSON grammar, documents, meaning of documents, values of a type, which documents leave the well-behaved fragment |
| `Big/` | recursive, type-directed decoders on memory (`Dec`, `Top`, `Rec`, `Root`): the intermediate layer between the machine and the specifications |
| `Proof/` | lemmas |
| `Props/` | the property theorems `C01_…` to `C76_…`, each with an `example` that a concrete, non-trivial case meets its hypotheses |
| `Conform/` | validation of the model: the tables of the repository's own tests (1264 cases of `jscandec_test.go`, run on reused decoders with `[]byte` and `string` input, and the 68 frame tables of `jscandec_internal_test.go`), evaluated in the model by the kernel. Generated by `tools/conformance`. These are tests of the reading of the code, not proofs of properties; no theorem depends on them. |

## 1. What is modelled

| code | model |
|------|-------|
| `internal/atoi/atoi.go` (all) | `Model/Atoi.lean`, generated literally from the Go text by `tools/gen_atoi.py`; fixed-width `UInt8..64`, `Int8..64` arithmetic, so wrap-around is the machine's; `Model/IntKind.lean` for the choice of the parser |
| `internal/jsonnum/jsonnum.go` (all) | `Model/JsonNum.lean`, with the 8-way unrolled loops |
| `internal/unescape/unescape.go` (all) | `Model/Unescape.lean`, with the batch scan and `goto ESCAPE_SEQUENCE`; both look-up tables |
| `append_type_stack.go` (all) | `Model/AppendType.lean` over a graph model of `reflect.Type` |
| `jscandec.go`: error values, options, environment | `Model/Ext.lean` |
| `jscandec.go`: `fieldFrameIndexByName` and its case-insensitive twin | `Model/Fields.lean` |
| `jscandec.go`: `decodeAny` | `Model/Any.lean` |
| `jscandec.go`: the token loop of `Decode` with all its `case`s and labels, the specialised slice decoders, map key decoding, recursion frames | `Model/Decode.lean`, memory in `Model/Mem.lean`, tokens in `Model/Tokens.lean` |
| `jscandec.go`: `NewDecoder`, `Decode`, `Unmarshal` | `Model/Api.lean` |
| `jscandec.go`: `Number.String`, `Number.Float64`, `Number.Int64` (with `strconv.ParseInt(s, 10, 64)` transcribed from Go's library, from knowledge of it: its source is not in the sandbox) | `Model/Number.lean` |

Not modelled: the rounding of allocation sizes and the garbage collector,
map iteration order, the tokenizer itself, simultaneous use of one decoder by several goroutines (the API does not allow it).

### 1.1 Runtime
* A byte slice / string is `List UInt8`. An index out of range, a nil dereference, an out-of-bounds
  unsafe access or a call of `reflect`/`unsafe` outside its contract is an explicit outcome
  (`Option.none` in the leaf functions, `decode = none` at the top): never a default value. So `decode = none` means: the code panics, or it touches
  memory outside the destination and what it allocated (after which the Go program may do anything).
* Memory is an ownership tree. A *block* is a list of cells in address units, an address is a path of
  blocks plus an offset. The loop's raw pointer writes (`Dest`+`Offset`) become bounds-checked
  updates of a block. Sizes and offsets come from the type description, as in the Go code.
  `Cell.zero` stands for zeroed memory of any type.
  Not modelled: two live pointers to the same block (aliasing between user data).
* Loops and gotos: the token loop is a small-step machine whose program counter ranges over the labels
  of the Go code; `run` iterates it with fuel. Termination is a theorem (C45), not an assumption.
* A string remembers whether it shares memory with the input (`Str.shared`): this is what C47 is about.

### 1.2 Environment
* The jscan tokenizer is an external dependency whose source is not present. Its contract: on valid
  JSON it calls the callback exactly once with the flat token array of the document (`Model/Tokens.lean`:
  `flatten` of a positioned syntax tree `JVal`; `Spec/Doc.lean: Wf` says that the tree matches the text); on invalid JSON it reports an error and
  an index and never calls the callback. `Spec/Json.lean: IsDoc` is the complete JSON grammar with positions; the tree of a document is unique (`json_unique`) and `Wf` follows from it (`json_wf`). Concrete cases use the small parser `Spec/Parse.lean`; no general theorem depends on it.
* `strconv.ParseFloat`, the float conversions, `strings.EqualFold`, and user methods `UnmarshalJSON`,
  `UnmarshalText` are fields of a structure `Ext`; all theorems hold for every `Ext` (extra assumptions, such as
  `FloatContract` or `MethodsCopy`, are hypotheses of the theorem that needs them).
* `reflect.Type` is a graph `env : TypeId → TypeInfo` (kind, element, key, length, size, fields with offset and tag,
  implemented interfaces); `Layout` says that sizes and offsets fit together, as Go guarantees.

### 1.3 Vocabulary of the statements
* `DecoderFor x ty d`: `d` was made by `NewDecoder` for a type whose tree is `ty` (`Spec/Types.lean: typeTree` gives the tree of every
  non-recursive type) and was then used for any number of `Decode` calls with any inputs, destinations and options (`Served`). `RecDecoder` is the same for a struct type that contains itself.
* `Dest x ty mem V`: the memory `mem` holds the Go value `V` of type `ty`. `Returns x ty r i e V`: the call returned index `i`, error `e` and left the value `V`.
* `decV`/`decTopV` (`Spec/Value.lean`): the recursive reading of a document at a type, on values. `Means` (`Spec/Means.lean`): the declarative meaning of documents in the style of encoding/json.
* `TameDoc`, `TameR`, `RootTame`: the document does not reach one of the spots where the code leaves the document (section 2, R). They are decidable and checked by computation in the examples.

## 2. Properties: model and proof

`R` marks properties that are false of the code as it is: the negation is proved on a concrete witness
and `_partial` theorems give the largest fragment found on which it holds. The MANIFEST says which.

* **C01, C02, C03(R)** exact integer decoding. Spec: `digitsVal`, the
  value of a decimal literal. Proof: the machine sums are ring-homomorphic images of the `Nat`/`Int` sums; case split on
  length. C03 is refuted for int8/16/32 (`I8("300") = 44`): the exact wrap behaviour is characterised.
* **C04** '-' into unsigned: the scalar case of the machine.
* **C05, C06(R), C07(R), C08(R)** number scanner. Spec: a declarative grammar of JSON numbers (`IsNumber`).
  C06: `ReadNumber("")` panics, so an empty quoted number crashes. C07: trailing bytes are ignored.
  `C07_exact` says for every text whether it is taken for a quoted integer and what is stored (`TakenFor`, over
  `Spec/Quoted.lean`): every arm of every parser is worked out on arbitrary bytes, not only digits (generated lemmas,
  `Proof/AtoiBytes.lean`, from `tools/gen_atoi_bytes.py`). `C07_keys_exact` says the same of integer map keys.
* **C09–C13** unescape. Spec: `Denotes`, the grammar of JSON string contents. C11 (R): surrogate pairs give two
  replacement characters.
* **C14–C16** field lookup: list search specification, any number of fields.
* **C17** `decodeAny`: structural spec of the tree, induction over the syntax tree.
* **C18** names, tags, offsets: `C18_table` is an invariant of `appendTypeToStack` over all type graphs; that bytes outside known fields (`Spec/Covered`) are never written is an invariant of the token loop for every input (`Proof/Cover`): the pointer of every frame is nil, at a place of its type, or behind a pointer, slice or map at such a place.
* **C19, C20(R)** `NewDecoder`: induction over the recursion depth on all type graphs; `Spec/TypeGraph` says which types are reachable and finite. C20: `type L []L` diverges for every fuel.
* **C21–C23, C40(R)** wrapper functions. C40 fails for interface destinations with a preset value.
* **C24(R), C25(R)** the token loop refines the recursive decoder on memory (`Proof/Sim*`: simulation, induction over type and document), which refines the reading on values (`Proof/Val*`).
  Outside the fragment (nested pointers, nested `struct{}` with an object, unknown keys with an object inside a nested struct, empty quoted numbers) there are witnesses of misbehaviour.
  `Props/RootStruct` extends the fragment for structs that are the destination itself.
* **C26(R), C27(R), C28(R), C29(R), C30(R), C32, C33(R), C34(R), C41(R)–C43, C52** read off the refinement; C26, C27, C28, C30 and C34 again in `Props/Parts.lean` on `RightDoc` documents and in terms of what `Decode` does with each part alone (`Alone`). **C31(R), C35(R), C36(R)**: witnesses, and the fragments on which they hold. `Spec/Right.lean` describes the documents with non-null pointers inside on which `Decode` works (`RightDoc`), `Proof/SimRight.lean` is the simulation of the token loop for them (the state after a value depends on its place: inside, at the end of an array, at the end of the document), `Proof/ValRight.lean` the passage to values. C31, C32, C48, C57, C67 and C68 are stated on `RightDoc` as well (`Proof/DropRight`, `UnknownRight`, `TwiceRight`, `ReorderRight`, `RightMono`, `Evolve`).
* **C37(R)** recursive struct types: `Big/Rec`, `Proof/SimRec*` (the recursion stack is a stack), induction over the depth of the document, no bound on it. Witnesses for misplaced members, `[]*T`, mutual recursion, recursion inside a nested struct. `Proof/RecIdeal` shows that within `TameR` the outcome is the reading `decV` of the type unrolled to the depth of the document; through it the recursive versions of C24, C25, C31, C32, C48, C54 and C57 (`Props/RecMore`, `RecDrop`, `RecRoundTrip`) follow from the lemmas about `decV`.
* **C38(R), C39(R)** history: the state of the decoder after any sequence of calls is equivalent to the fresh one for non-recursive types on tame documents; for recursive types only if earlier calls did not fail. For types without arrays (Spec/NoArrays.lean) the two runs are related step by step (Proof/Reuse.lean): their frames differ only in the offsets left in slice element frames, which are reset before use or belong to a nil pointer; so every document has the same outcome. With arrays the length left in an array frame can turn a working document into a panic, even after a successful call (`C38_refuted_success`).
* **C44** fast-path bounds: literals of < 8 / < 16 characters have magnitude < 2^24 / < 2^53. **C50(R)**: −0.
* **C45** termination: measure on (tokens left, frames, pc) for every frame table, fuel bound.
* **C46(R)** `Means`, soundness and completeness on the fragment. **C48(R)** second decoding, on values; on `RightDoc` documents through `decPV` (`Proof/TwiceRight`).
* **C47** invariant of the machine over all types and histories: two runs that differ only in the kind of input agree up to the sharing flag; with `[]byte` input nothing is shared.
* **C49, C22** error kinds and indices: invariants of the machine, all types and histories.
* **C51(R)** sharing of named struct types: witness; for types without a second use the outcome is a function of the tree (C25).
* **C53** white space: bisimulation of two runs of the machine, all types and histories.
* **C54(R)** round trip: `Spec/Encode` writes values, `Proof/Encode` shows by induction over the type that the text is a document (grammar) that means the value; C46 and the uniqueness of meanings (`means_unique`) do the rest. With pointers: `RightV` (Spec/RightVal.lean) is the condition on values under which the text is within `RightDoc`.
* **C55** options: runs under two option sets that select the same field for every key of the document are equal, step by step, for every frame table; the field names of all frames come from the type graph (invariant of `appendTypeToStack`).
* **C56** spelling: the bisimulation of C53 with strings and keys related by `SameString` (same denotation), C09 for the unescaped bytes, C47's erasure for string input.
* **C57** order of members: `Reordered` (some permutation of the members of every object), `GoEq` (maps by lookup); induction on the type over `decV`: a member commutes with the others because they select other fields/keys (`struct_insert`, `map_insert`), `any` by C17's `AnyTree`. Refuted for `struct{}` inside nested structs.
* **C58** growing slices: over `decV`, by the three cases of slice preparation (array reused, new array with the old elements copied, new array without): an element that is not copied has no influence on the result (`not_copied`). Stated with `decode` of the element type. On `Tame` documents (a pointer element must be null).
* **C59** `Number` methods: `strconv.ParseInt` is transcribed (`Model/Number.lean`); induction over the digits gives its result on every JSON number literal; with C08, C02, C04 and C44 this gives the agreement with decoding into `int64` and `float64`.
* **C60** `mapassign_faststr`: the frames carry `MapCanUseAssignFaststr`, and the model of the insertion fails if the function is called outside the runtime's contract (string keys, values of at most 128 bytes); an invariant of `appendTypeToStack` (induction over its calls) and `Decode` keeping the frames give the claim. The runtime's contract itself is trusted.
* **C61** Memory: `footprint` counts the bytes a value keeps alive (heap blocks of slices, pointers, maps, strings, `any`), independently of the machine. Every step of the token loop is shown to pay for what it allocates out of a potential (tokens, elements and bytes of the input that are left, computed from the grammar `IsDoc`) or out of the step itself, whose number C45 bounds. Unmarshaler methods are parameters: `Frugal` bounds what they keep per byte they get. Bookkeeping of the Go runtime (buckets of maps, spare capacity of `[]any`) is not counted.
- **C62** (nil options): simulation between the machine with nil options and with any options (`Proof/NilOpts.lean`): each step is equal or a crash at a key of a struct frame. Struct frames only come from struct types that are reachable in the
  type graph (an invariant of `appendType`); the panic for structs is by running the two steps. `appendType` with nil options: induction over the fuel.
- **C63** (type descriptors): `Frame.typ` and `Frame.mapValueTyp` model `Typ` and `MapValueType`. `FrameFits` (`Spec/Descriptors.lean`) says what a frame for a type must hold; proved by induction over the calls of `appendType` with an invariant that survives
  the later changes to a frame (recursion marks, the string option, the capacity of array elements, field tables) (`Proof/Descriptors.lean`). The allocation sites use `frames[si+1].Typ` (slices, pointers), `frames[recurFrame].Typ` (recursion) and the map frame's `Typ`.
* **C64** the constants of `ExpectType` with their values and `String` (Model/Names.lean); distinctness over all pairs by evaluation in the kernel, totality by cases.
* **C65** recursive struct types inside other types (type trees with the recursive types as leaves, Big/Inside.lean, Spec/Inside.lean): refuted in general by evaluation; the fragment where it holds (`TameDocX`) is proved by extending the simulation of C37 with the arrays, slices, maps and structs around the recursive type (Proof/SimInside*.lean), the construction of the frames by `NewDecoder` (Proof/InsideTypes.lean) and the comparison with the unrolled type (Proof/InsideVal.lean, InsideMeans.lean). `Props/InsideParts.lean` states C26, C27, C28, C30 and C58 for these types: the readings of the unrolled containers (`elemsV`, `mapV`, `structV`) consist of readings of the parts, and each part is again within `TameDocX` (`tameX_doc`), so each reading is that of a decoder for the type of the part.
* **C66** the verdict does not depend on the contents of the destination (Spec/Judge.lean): a relation between two runs of the machine with different memories that keeps token index, frame, array counters and the containers on the recursion stacks equal (Proof/Judge.lean), preserved by every step unless one side panics; then lifted to `decode`, `unmarshal` and sequences of calls. Nothing is assumed of type, document or decoder state.
* **C67** one document on top of another (Props/Layer.lean): the readings of structs and maps (Spec/Right.lean) are folds over the members, so the reading of a concatenation is the composition; C53 moves the two documents to their places in the third text. Witness for `map[string]string`. Recursive struct types (Props/RecLayer.lean): the same composition for the readings of C37, within `TameR`.
* **C68** new fields (Spec/Evolve.lean, Proof/Evolve.lean, Props/Evolve.lean): `ETy` is a pair of types that differ by new fields; by induction on it the readings of the old and new type are related by `Sees`, and `Right` of the old type carries over. Recursive struct types (Spec/EvolveRec.lean, Proof/EvolveRec.lean, Props/RecEvolve.lean): as C74.
* **C69** errors and what follows them (Spec/Causal.lean, Proof/Causal*.lean, Props/Causal.lean): `extents` lists where values, keys and closing brackets begin and end. Texts that agree up to the byte after an extent have token lists that agree up to it except for the ends and counts of containers still open there (`Ag`, by induction on both trees); a simulation of two runs of the machine (all types, step by step) shows that such a difference is only looked at after the error.
* **C70** declaration order (Spec/Shuffle.lean, Proof/Shuffle.lean, Props/Shuffle.lean): an `FTy` is a type with a permutation of the fields of each struct; `Moved` relates values field by field. The type-directed reading commutes with the permutation (a key selects the field of the same name, as no key matches two), and `RightDoc` of the one type gives that of the other. Refuted outside `RightDoc`. Recursive struct types (Spec/ShuffleRec.lean, Proof/ShuffleRec.lean, Props/RecShuffle.lean): as C74.
* **C71** type safety of the destination (Proof/KeptAddr.lean, Proof/KeptCell.lean, Proof/Kept.lean, Props/Kept.lean): `Addressed root a ty` says that in every memory that holds a value of type `root` the address `a` leads nowhere or to a value of type `ty`, and that replacing it by another one gives a value of `root`. The invariant of the token loop, for every token sequence: each frame's pointer, at each offset it can take, addresses a value of the type of the frame, and the memory holds a value of the type of the destination. No document is assumed to fit, so this includes the runs on which the code decodes wrongly (C24-C26, C35). Refuted for recursive types, where a struct's pointer is restored without its offset. In the model a pointer into memory that the call has meanwhile unlinked from the destination (a replaced pointer, slice or map) is resolved by its path; such memory is garbage in Go and not observable in the destination.
* **C72** bounds (Spec/Bounds.lean, Proof/KeptAddr.lean, Proof/Structless.lean, Props/Bounds.lean): the model fails on every access outside a block, so what has to be shown is that the pointer of the current frame is never outside its block when a step fails. The invariant of C71 carries `inside`: without element-wise slices every addressed value lies inside its block (the offset of array elements is capped by ON_VAL_END, pointees and map values have the size of their type). Refuted for slices of structs: `[{"u":{}},{"X":1}]` into a slice of structs advances the element pointer twice for the first element. Refuted too for slices of slices inside a struct (`C72_refuted_nested`). A pointer whose path leads to no block (memory unlinked during the call) is not judged.
* **C73** strict decoding (Spec/Sure.lean, Props/Sure.lean): `ty.sure o` is a check on the type and the options alone. It implies `TameDoc` and with it `RightDoc` for every document (induction on the type), so the partial theorems of C24, C25, C26, C30, C34, C38, C46, C48, C57, C58, C67 and C72 hold without their condition on the document. The witness is the document of `C72_refuted`, decoded strictly.
* Failures of C27, C28, C30 (Props/PartsMore.lean): a failing call fails where one of the parts fails when decoded alone (or at a refused key), everything before it can be decoded alone, and the place of the failing part holds what the failing call on it alone leaves.
* **C74** wider integers (Spec/Widen.lean, Proof/Widen.lean, Props/Widen.lean): `WTy` is a type before and after; the readings of both types give the same outcome, or the first one gives an error that the wider type may avoid (induction on the type; literals by the exactness theorems C01–C03). The new type reaches no other spots, so `RightDoc` is only asked of the old one. Refuted for narrow signed types (C03) and for integers with the `string` option, which take a byte behind the digits for a digit. `C74_literals_partial` covers every integer type, the `string` option and integer map keys on documents whose integers are literals in range (`WTy.Literals`, place by place). Recursive struct types (Spec/WidenRec.lean, Proof/WidenRec.lean, Props/RecWiden.lean): both versions unrolled to the depth of the document, and the outcome theorem of C25 for recursive types.
* **C75** parts of a document (Spec/Piece.lean, Proof/Piece.lean, Props/Piece.lean): the text of a part of a document satisfies the grammar, with the tree moved to the left; the proof of C53 (two token arrays with the same contents) is used with the relation “the same bytes”, so that `UnmarshalJSON` methods need no condition, and the error index is that of the token with the same number. Together with the theorems on parts (C26–C30) this gives the statement for the elements, entries and fields of containers. `Proof/JsonB.lean` is a sound check that a text is in the grammar, for the examples. Recursive struct types (Spec/RecPiece.lean, Props/RecParts.lean): the member of a document within `TameR` that decides a `*T`, `[]T` or `map[K]T` field is again within `TameR` (with the weakest conditions, `tameR_top`), so the reading of the field is a reading of the parts as `T`; `C30_recursive_kept_partial` from the fold over the members in `decRV`. `C75_recursive_error_partial`: the first refused member (`structV_err`), then case by case on the field (`FieldRefuses`).
* **C76** containers with the same elements (Props/Agree.lean): both readings of a JSON array are the reading of the elements into zero values, one with places left over; the readings of an object by a struct and by a map are compared member by member. `map[string]string` has a loop of its own, shown to read what the general loop reads into a nil map. Documents within `RightDoc` for both types; outside of it false of the code (`C76_refuted`).

## 3. Trusted base

Lean 4.33.0's kernel; axioms `propext`, `Classical.choice`, `Quot.sound` only (vcheck prints them per theorem);
the reading of the Go source recorded in the citations (re-read side by side with the model twice, and validated by `Conform/`); the environment contract of 1.2; the memory abstraction of 1.1.

## 4. Mutation tests

`seeded/LOG.jsonl`: realistic bugs seeded into `Model/` in a scratch copy, the claims they break and the theorems that failed. Survivors led to C47, C52, the recursive-type theorems of C37 and stronger statements elsewhere; the remaining survivors are
believed to be equivalent edits or to lie outside every claim (noted per line; this is a judgement, not a proof). A build stops at the first declarations it cannot elaborate, so `theorems_failed` lists these and the theorems that depend on them according to a dependency table from an earlier state of the development: the dependents are inferred, not observed, and some names were changed or removed since. `claim` lists are mostly computed from them. Outcome `oom`: some proofs failed and the rebuild ran out of memory or time in others. `killed-stuck` and some `killed` runs were stopped after the first failures; in some of them only a supporting lemma or an example failed, which shows that the proof needs repair, not by itself that the claim cannot be proved of the edited program.
