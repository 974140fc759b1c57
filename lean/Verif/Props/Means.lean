import Verif.Proof.MeansConv
import Verif.Proof.Unique
import Verif.Props.Scalars
import Verif.Props.Structs
/-!
# C46: decoding into a zero value agrees with `encoding/json`

`Means` (`Spec/Means.lean`) is the meaning `encoding/json` gives to a document read into a fresh variable.
-/
namespace Verif.Props
open Verif.Model Verif.Big Verif.Spec Verif.Proof Verif.Proof.Demo Verif.Proof.Outcome Verif.Proof.Means

/-- The full statement of C46: `Decode` into a zero value succeeds exactly if the document has a meaning for the type, and then yields it. -/
def AgreesOnZero (x : Ext) : Prop :=
  ∀ (ty : Ty) (d : Decoder) (src : Bytes) (v : JVal) (o : Options), DecoderFor x ty d → Wf src v →
    ((∃ V, Means x src o ty v V) ↔ ∃ r, decode x d src (.ok v) (some (zeros (ty.size x))) (some o) = some r ∧ r.err = none) ∧
    ∀ V, Returns x ty (decode x d src (.ok v) (some (zeros (ty.size x))) (some o)) (-1) none V → Means x src o ty v V

/-- Two members that select different fields. -/
theorem demo_once {x : Ext} {src : Bytes} {o : Options} {names : List Bytes} {m m' : (Nat × Nat) × JVal} {j j' : Nat} (hw : WfStr src m.1.1 m.1.2) (hw' : WfStr src m'.1.1 m'.1.2)
    (h : KeySelects x src o names m.1 j) (h' : KeySelects x src o names m'.1 j') (hj : j ≠ j') :
    ∀ (a b : Nat) n n' i, [m, m'][a]? = some n → [m, m'][b]? = some n' → KeySelects x src o names n.1 i → KeySelects x src o names n'.1 i → a = b := by
  have key : ∀ {k : Nat × Nat} {i i' : Nat}, WfStr src k.1 k.2 → KeySelects x src o names k i → KeySelects x src o names k i' → i = i' := by
    intro k i i' hw h h'
    obtain ⟨n, h1, h2⟩ := key_selects hw h
    obtain ⟨n', h3, h4⟩ := key_selects hw h'
    rw [h1] at h3; cases h3
    rw [h2] at h4; cases h4; rfl
  intro a b n n' i ha hb hn hn'
  match a, b with
  | 0, 0 => rfl
  | 1, 1 => rfl
  | 0, 1 => cases ha; cases hb; exact absurd ((key hw h hn).trans (key hw' hn' h')) hj
  | 1, 0 => cases ha; cases hb; exact absurd ((key hw h hn').trans (key hw' hn h')) hj
  | a + 2, _ => simp at ha
  | 0, b + 2 => simp at hb
  | 1, b + 2 => simp at hb

/-- `{"A":1,"B":2}` stands for `{A: &1, B: 2}` of the type `struct{A *int; B int}`. -/
theorem means_pointer : Means demoX b!"{\"A\":1,\"B\":2}" defaultOptions (.struct 16 [(b!"A", 0, .ptr (.scalar (.int .int))), (b!"B", 8, .scalar (.int .int))])
    (.obj 0 [((1, 4), .num true 5 6), ((7, 10), .num true 11 12)] 12) (.struct [.ptr (.int 1), .int 2]) := by
  have hdoc := (demo_doc (src := b!"{\"A\":1,\"B\":2}") (by decide)).2
  have kA : KeySelects demoX b!"{\"A\":1,\"B\":2}" defaultOptions [b!"A", b!"B"] (1, 4) 0 :=
    ⟨b!"A", demo_key (.plain (by decide) .nil) rfl, by simp only [SelectsField]; exact .exact (.here rfl)⟩
  have kB : KeySelects demoX b!"{\"A\":1,\"B\":2}" defaultOptions [b!"A", b!"B"] (7, 10) 1 :=
    ⟨b!"B", demo_key (.plain (by decide) .nil) rfl, by simp only [SelectsField]; exact .exact (.there (by decide) (.here rfl))⟩
  have hn : ∀ {i e : Nat} {n : Int}, Wf b!"{\"A\":1,\"B\":2}" (.num true i e) → text b!"{\"A\":1,\"B\":2}" i e ≠ b!"-0" →
      decTopV demoX b!"{\"A\":1,\"B\":2}" (some defaultOptions) (.scalar (.int .int)) (.num true i e) (.int 0) = .ok (.int n) →
      Means demoX b!"{\"A\":1,\"B\":2}" defaultOptions (.scalar (.int .int)) (.num true i e) (.int n) := fun hw hz h =>
    top_sound demo_floats rfl (.scalar (.int .int)) _ _ hw hz (.inr rfl) trivial h
  refine .inr ⟨0, _, 12, _, rfl, rfl, rfl, (fun h => by cases h), demo_once (x := demoX) (names := [b!"A", b!"B"]) (j := 0) (j' := 1) hdoc.2.2.2.2.1 hdoc.2.2.2.2.2.2.1 kA kB (by decide), ?_⟩
  intro j f P W hf hP hW
  match j with
  | 0 =>
    cases hf; cases hP; cases hW
    exact .inl ⟨_, List.mem_cons_self, kA, .inr ⟨(fun ⟨_, _, h⟩ => by cases h), _, rfl, hn hdoc.2.2.2.2.2.1 (by decide) rfl⟩⟩
  | 1 =>
    cases hf; cases hP; cases hW
    exact .inl ⟨_, List.mem_cons_of_mem _ List.mem_cons_self, kB, hn hdoc.2.2.2.2.2.2.2.1 (by decide) rfl⟩
  | j + 2 => simp at hf

/-- **C46 is false of the code**: `{"A":1,"B":2}` into a `struct{A *int; B int}` fails. -/
theorem C46_refuted : ¬ AgreesOnZero demoX := by
  intro h
  have hd : DecoderFor demoX (demoTree 8) (demoDec 8) := demo_for' (t := 8) (by decide)
  have hdoc := demo_doc (src := b!"{\"A\":1,\"B\":2}") (by decide)
  obtain ⟨r, h1, h3⟩ := (h _ _ _ _ defaultOptions hd hdoc.2).1.1 ⟨_, means_pointer⟩
  have : ((decode demoX (demoDec 8) b!"{\"A\":1,\"B\":2}" (.ok (.obj 0 [((1, 4), .num true 5 6), ((7, 10), .num true 11 12)] 12)) (some (zeros 16)) (some defaultOptions)).map (·.err)) = some (some .unexpectedValue) := by decide +kernel
  change decode demoX (demoDec 8) b!"{\"A\":1,\"B\":2}" (.ok (.obj 0 [((1, 4), .num true 5 6), ((7, 10), .num true 11 12)] 12)) (some (zeros 16)) (some defaultOptions) = _ at h1
  rw [h1] at this
  simp only [Option.map_some, Option.some.injEq] at this
  rw [h3] at this; cases this

/-- **C46 is false of the code** also in the other direction: `300` is accepted for an `int8` (C03), where it has no meaning. -/
theorem C46_refuted_accepts : (∃ V, Returns demoX (demoTree 24) (decode demoX (demoDec 24) b!"300" (.ok (demoDoc b!"300")) (some (zeros 1)) (some defaultOptions)) (-1) none V) ∧
    ∀ V, ¬ Means demoX b!"300" defaultOptions (demoTree 24) (demoDoc b!"300") V := by
  obtain ⟨hd, hm, -, -, ht⟩ := demo_case (t := 24) (src := b!"300") (o := defaultOptions) (by decide) (by decide) (by decide)
  refine ⟨⟨.int 44, returns_ok hd hm ht rfl⟩, ?_⟩
  rintro V (⟨⟨i, e, h⟩, -⟩ | ⟨b, i, e, n, h, hq, -⟩)
  · cases h
  · cases h
    obtain ⟨h1, h2, -⟩ := hq
    generalize ht : text b!"300" _ _ = t at h1
    cases h1 with
    | pos h => cases ht; have := h2.2; revert this; decide
    | neg h => cases ht

/-- **C46**, on the fragment `TameDoc`, without the literal `-0`: a document that has a meaning for the type is decoded to it. -/
theorem C46_decodes_partial {x : Ext} (hx : FloatContract x) (hf : x.tokFloat64 = x.parseFloat64) {ty : Ty} {d : Decoder} (hd : DecoderFor x ty d) {src : Bytes} {v : JVal} (hw : Wf src v)
    (hz : noNegZero src v) {o : Options} (ht : TameDoc x src (some o) ty v) {V : Val} (h : Means x src o ty v V) :
    ∃ V', Returns x ty (decode x d src (.ok v) (some (zeros (ty.size x))) (some o)) (-1) none V' ∧ Means x src o ty v V' := by
  obtain ⟨V', h1, h2⟩ := top_good hx hf ty v V hw hz ht h
  exact ⟨V', returns_ok hd (zero_dest hd) ht h1, h2⟩

/-- **C46**, on the fragment `TameDoc`, without the literal `-0` and duplicate members, for types all of whose checks are exact: what is decoded is what the document means. -/
theorem C46_means_partial {x : Ext} (hx : FloatContract x) (hf : x.tokFloat64 = x.parseFloat64) {ty : Ty} (hty : Exact x ty) {d : Decoder} (hd : DecoderFor x ty d) {src : Bytes} {v : JVal} (hw : Wf src v)
    (hz : noNegZero src v) {o : Options} (ht : TameDoc x src (some o) ty v) (ho : Once x src o ty v) {V : Val}
    (h : Returns x ty (decode x d src (.ok v) (some (zeros (ty.size x))) (some o)) (-1) none V) : Means x src o ty v V :=
  top_sound hx hf ty v V hw hz hty ho ((Unique.returns_ok_iff hd (zero_dest hd) ht).1 h)

/-- **C46**, on the same fragment: `Decode` succeeds exactly if the document has a meaning for the type. -/
theorem C46_accepts_partial {x : Ext} (hx : FloatContract x) (hf : x.tokFloat64 = x.parseFloat64) {ty : Ty} (hty : Exact x ty) {d : Decoder} (hd : DecoderFor x ty d) {src : Bytes} {v : JVal} (hw : Wf src v)
    (hz : noNegZero src v) {o : Options} (ht : TameDoc x src (some o) ty v) (ho : Once x src o ty v) :
    (∃ V, Means x src o ty v V) ↔ ∃ r, decode x d src (.ok v) (some (zeros (ty.size x))) (some o) = some r ∧ r.err = none := by
  constructor
  · rintro ⟨V, h⟩
    obtain ⟨V', ⟨r, m, h1, -, h3, -⟩, -⟩ := C46_decodes_partial hx hf hd hw hz ht h
    exact ⟨r, h1, h3⟩
  · rintro ⟨r, hr, he⟩
    obtain ⟨V', m, h1, h2, h3, h4⟩ := ok_inv hd (zero_dest hd) ht hr he
    exact ⟨V', C46_means_partial hx hf hty hd hw hz ht ho ⟨r, m, hr, h2, he, h3, h4⟩⟩

/-- `{"X":1,"Y":"a"}` into a `struct{X int; Y string}`. -/
example : ∃ V, Returns demoX (demoTree 4) (decode demoX (demoDec 4) b!"{\"X\":1,\"Y\":\"a\"}" (.ok (demoDoc b!"{\"X\":1,\"Y\":\"a\"}")) (some (zeros 24)) (some defaultOptions)) (-1) none V ∧
    Means demoX b!"{\"X\":1,\"Y\":\"a\"}" defaultOptions (demoTree 4) (demoDoc b!"{\"X\":1,\"Y\":\"a\"}") V := by
  obtain ⟨hd, hm, -, hw, ht⟩ := demo_case (t := 4) (src := b!"{\"X\":1,\"Y\":\"a\"}") (o := defaultOptions) (by decide) (by decide) (by decide)
  have hz : noNegZero b!"{\"X\":1,\"Y\":\"a\"}" (.obj 0 [((1, 4), .num true 5 6), ((7, 10), .str 11 14)] 14) := by
    refine ⟨?_, ?_, trivial⟩ <;> simp only [noNegZero]
    decide
  have ho : Once demoX b!"{\"X\":1,\"Y\":\"a\"}" defaultOptions (.struct 24 [(b!"X", 0, .scalar (.int .int)), (b!"Y", 8, .scalar .str)]) (.obj 0 [((1, 4), .num true 5 6), ((7, 10), .str 11 14)] 14) := by
    rintro i ms z ⟨⟩
    refine ⟨?_, demo_once (x := demoX) (names := [b!"X", b!"Y"]) (j := 0) (j' := 1) hw.2.2.2.2.1 hw.2.2.2.2.2.2.1 ?_ ?_ (by decide)⟩
    · intro m hm j P hj hP
      match j with
      | 0 => cases hP; trivial
      | 1 => cases hP; trivial
      | j + 2 => simp [OnceF] at hP
    · exact ⟨b!"X", demo_key (.plain (by decide) .nil) rfl, by simp only [SelectsField]; exact .exact (.here rfl)⟩
    · exact ⟨b!"Y", demo_key (.plain (by decide) .nil) rfl, by simp only [SelectsField]; exact .exact (.there (by decide) (.here rfl))⟩
  have hr := returns_ok (V' := .struct [.int 1, .str ⟨b!"a", true⟩]) hd hm ht rfl
  obtain ⟨V, h1, h2⟩ := C46_decodes_partial demo_floats rfl hd hw hz ht (C46_means_partial demo_floats rfl (ty := demoTree 4) ⟨.inr rfl, trivial, trivial⟩ hd hw hz ht ho hr)
  exact ⟨V, h1, h2⟩

end Verif.Props
