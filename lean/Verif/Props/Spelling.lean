import Verif.Props.Place
import Verif.Props.Alias
/-!
# C56: the spelling of strings does not matter
-/
namespace Verif.Props
open Verif.Model Verif.Spec Verif.Proof Verif.Proof.Alias Verif.Proof.Demo

/-- **C56**: with `[]byte` input, for every decoder, in any state, every destination memory and options that do not turn the unescaping of keys off: two texts with the same tokens up to white space and the
spelling of strings and keys (with or without escapes, `\u` escapes with upper or lower case digits, ...) have the same outcome. Spelling counts only where the decoder reads strings as they are: `Number` and
fields with the `string` option, and keys of maps with integer keys. `UnmarshalJSON` methods, which get the text of their value, must ignore the spelling too. -/
theorem C56_spelling {x : Ext} (hx : x.strInput = false) {d : Decoder} {src src' : Bytes} {v v' : JVal} (hw : Wf src v) (hw' : Wf src' v') (h : SameSpelling d src src' v v')
    (hj : ∀ rt, CallsJSON d rt → IgnoresSpelling x SameString SameString src src' rt) (mem : Block) (o : Option Options) (ho : ∀ o', o = some o' → o'.disableFieldNameUnescaping = false) :
    SameOutcome v v' (decode x d src (.ok v) (some mem) o) (decode x d src' (.ok v') (some mem) o) :=
  Place.decode_spelling hx hw hw' h hj mem o ho

/-- **C56**: the same for `string` and `[]byte` input. A string without escapes may be a piece of a `string` input and a string with escapes never is, so the outcomes are the same for a caller who does not see where
the bytes of strings live; methods must not see it either (`MethodsCopy`). -/
theorem C56_looks {x : Ext} {d : Decoder} (hc : MethodsCopy x d) {src src' : Bytes} {v v' : JVal} (hw : Wf src v) (hw' : Wf src' v') (h : SameSpelling d src src' v v')
    (hj : ∀ rt, CallsJSON d rt → IgnoresSpelling x SameString SameString src src' rt) (mem : Block) (o : Option Options) (ho : ∀ o', o = some o' → o'.disableFieldNameUnescaping = false) :
    LooksAlike v v' (decode x d src (.ok v) (some mem) o) (decode x d src' (.ok v') (some mem) o) := by
  have e1 := decode_copy x hc src (.ok v) (some mem) o
  have e2 := decode_copy x hc src' (.ok v') (some mem) o
  have := C56_spelling (x := bytesInput x) rfl (d := decE copyKey d) hw hw' h hj (forget mem) o ho
  rw [show some (forget mem) = (some mem).map forget from rfl, e1, e2] at this
  revert this
  cases decode x d src (.ok v) (some mem) o <;> cases decode x d src' (.ok v') (some mem) o <;> intro this
  · trivial
  · exact this
  · exact this
  · obtain ⟨h1, h2, -, h4⟩ := this
    exact ⟨h1, sameMem_iff.2 h2, h4⟩

/-! ## Examples -/

/-- `{"X":1,"Y":"a\n"}` and `{"\u0058" : 1, "Y" : "\u0061\u000A"}` into a `struct{X int; Y string}` with anything inside. -/
example (mem : Block) : LooksAlike (demoDoc b!"{\"X\":1,\"Y\":\"a\\n\"}") (demoDoc b!"{\"\\u0058\" : 1, \"Y\" : \"\\u0061\\u000A\"}")
    (decode demoX (demoDec 4) b!"{\"X\":1,\"Y\":\"a\\n\"}" (.ok (demoDoc b!"{\"X\":1,\"Y\":\"a\\n\"}")) (some mem) (some defaultOptions))
    (decode demoX (demoDec 4) b!"{\"\\u0058\" : 1, \"Y\" : \"\\u0061\\u000A\"}" (.ok (demoDoc b!"{\"\\u0058\" : 1, \"Y\" : \"\\u0061\\u000A\"}")) (some mem) (some defaultOptions)) := by
  have ht : ∀ f ∈ (demoDec 4).frames, f.type = .struct ∨ f.type = .scalar (.int .int) ∨ f.type = .scalar .str := by decide
  have hj : ∀ f ∈ (demoDec 4).frames, f.type ≠ .jsonUnmarshaler ∧ f.type ≠ .textUnmarshaler := by decide
  refine C56_looks ?_ (demo_doc (by decide)).2 (demo_doc (by decide)).2 ?_ ?_ mem _ ?_
  · exact fun f hf rt _ => ⟨fun h => absurd h (hj f hf).1, fun h => absurd h (hj f hf).2⟩
  · change Respelled _ _ _ _ (.obj 0 [((1, 4), .num true 5 6), ((7, 10), .str 11 16)] 16) (.obj 0 [((1, 9), .num true 12 13), ((15, 18), .str 21 35)] 35)
    simp only [Respelled, RespelledM]
    have hk : SameString b!"X" b!"\\u0058" := ⟨b!"X", .plain (by decide) .nil, .uni (w := 0) (x := 0) (y := 5) (z := 8) (by decide) (by decide) (by decide) (by decide) .nil⟩
    have hs : SameString b!"a\\n" b!"\\u0061\\u000A" := ⟨[97, 10], .plain (by decide) (.esc (by decide) .nil),
      .uni (w := 0) (x := 0) (y := 6) (z := 1) (by decide) (by decide) (by decide) (by decide) (.uni (w := 0) (x := 0) (y := 0) (z := 10) (by decide) (by decide) (by decide) (by decide) .nil)⟩
    refine ⟨.inr ⟨?_, hk⟩, ⟨trivial, by decide⟩, .inl (by decide), .inr ⟨?_, hs⟩, trivial⟩
    · rintro ⟨i, f, fk, k, hf, h, -⟩
      rcases ht f (List.mem_of_getElem? hf) with h' | h' | h' <;> rw [h'] at h <;> simp at h
    · rintro ⟨f, hf, h⟩
      rcases ht f hf with h' | h' | h' <;> rw [h'] at h <;> simp at h
  · rintro rt ⟨f, hf, h, -⟩
    exact absurd h (hj f hf).1
  · rintro o ⟨⟩; rfl

/-- The outcome in fresh memory: success, `X` is 1 and `Y` is "a\n". -/
example : (okMem (demoUnmarshal 4 b!"{\"\\u0058\" : 1, \"Y\" : \"\\u0061\\u000A\"}" (zeros 24))).map (fun m => (intAt 0 m, strAt 8 m)) = some (some 1, some [97, 10]) := by decide +kernel

/-- Where strings are read as they are, spelling counts: `"1"` and `"\u0031"` for a field with the `string` option. -/
example : (okMem (demoUnmarshal 25 b!"{\"n\":\"1\"}" (zeros 8))).map (intAt 0) = some (some 1) ∧
    (okMem (demoUnmarshal 25 b!"{\"n\":\"\\u0031\"}" (zeros 8))).map (intAt 0) = none := by decide +kernel

end Verif.Props
