import Verif.Spec.Kinds
import Verif.Proof.Outcome
import Verif.Proof.Demo
import Verif.Proof.Unique
import Verif.Proof.Safe
import Verif.Proof.AnyTree
/-!
# C52: bools, strings and values of a wrong kind
-/
namespace Verif.Props
open Verif.Model Verif.Big Verif.Spec Verif.Proof Verif.Proof.Demo Verif.Proof.Outcome

/-- **C52**, anywhere in a document: a JSON value of a kind the type does not take is refused at its first byte, and nothing is changed. -/
theorem C52_mismatch_inside {x : Ext} {src : Bytes} {o : Option Options} {ty : Ty} (hp : ∀ e, ty ≠ .ptr e) {v : JVal} (hw : Wf src v) (h : ¬ Takes ty v) (V : Val) :
    decV x src o ty v V = .err v.index .unexpectedValue V := by
  cases v with
  | null i e => exact absurd (by cases ty <;> trivial) h
  | bool b i e =>
    cases ty with
    | scalar k => cases k with
      | bool => exact absurd ⟨b, i, e, rfl⟩ h
      | _ => rfl
    | any => exact absurd trivial h
    | jsonU => exact absurd trivial h
    | ptr e => exact absurd rfl (hp e)
    | _ => rfl
  | num b i e =>
    have hs := Doc.slice_text hw.1 hw.2.1
    cases ty with
    | scalar k => cases k with
      | int k => cases b with
        | true => exact absurd ⟨i, e, rfl⟩ h
        | false => simp only [decV, leafV, leaf, hs]; rfl
      | flt k => exact absurd ⟨b, i, e, rfl⟩ h
      | _ => cases b <;> (simp only [decV, leafV, leaf, hs]; rfl)
    | any => exact absurd trivial h
    | jsonU => exact absurd trivial h
    | number => exact absurd (.inl ⟨b, i, e, rfl⟩) h
    | ptr e => exact absurd rfl (hp e)
    | _ => cases b <;> (simp only [decV, leafV, leaf, hs]; rfl)
  | str i e =>
    have hs := Doc.slice_inner hw
    cases ty with
    | scalar k => cases k with
      | str => exact absurd ⟨i, e, rfl⟩ h
      | _ => simp only [decV, leafV, leaf, hs]; rfl
    | any => exact absurd trivial h
    | jsonU => exact absurd trivial h
    | textU => exact absurd ⟨i, e, rfl⟩ h
    | quoted => exact absurd ⟨i, e, rfl⟩ h
    | number => exact absurd (.inr ⟨i, e, rfl⟩) h
    | ptr e => exact absurd rfl (hp e)
    | _ => simp only [decV, leafV, leaf, hs]; rfl
  | arr i vs k =>
    cases ty with
    | any => exact absurd trivial h
    | jsonU => exact absurd trivial h
    | array0 => exact absurd ⟨i, vs, k, rfl⟩ h
    | array => exact absurd ⟨i, vs, k, rfl⟩ h
    | slice => exact absurd ⟨i, vs, k, rfl⟩ h
    | sliceOf => exact absurd ⟨i, vs, k, rfl⟩ h
    | sliceES => exact absurd ⟨i, vs, k, rfl⟩ h
    | ptr e => exact absurd rfl (hp e)
    | scalar k => cases k <;> rfl
    | _ => rfl
  | obj i ms k =>
    cases ty with
    | any => exact absurd trivial h
    | jsonU => exact absurd trivial h
    | mapSS => exact absurd ⟨i, ms, k, rfl⟩ h
    | map => exact absurd ⟨i, ms, k, rfl⟩ h
    | struct => exact absurd ⟨i, ms, k, rfl⟩ h
    | emptyStruct => exact absurd ⟨i, ms, k, rfl⟩ h
    | ptr e => exact absurd rfl (hp e)
    | scalar k => cases k <;> rfl
    | _ => rfl

theorem mismatch_top {x : Ext} {src : Bytes} {o : Option Options} {v : JVal} (hw : Wf src v) : ∀ (ty : Ty) (V : Val), ¬ Takes ty v → TameDoc x src o ty v →
    decTopV x src o ty v V = .err v.index .unexpectedValue (afterMismatch x ty V)
  | .ptr e, V, h, ht => by
    have hn : ∀ i j, v ≠ .null i j := by rintro i j rfl; exact h trivial
    have h' : ¬ Takes e v := by cases v <;> first | exact h | exact absurd trivial h
    have ht' : e.size x ≠ 0 ∧ TameDoc x src o e v := by cases v <;> first | exact ht | exact absurd rfl (hn _ _)
    have hk := Safe.tokOK_wf hw
    have : decTopV x src o (.ptr e) v V = (decTopV x src o e v (zeroV x e)).map .ptr := by
      cases v <;> first | exact absurd rfl (hn _ _) | simp only [decTopV, hk, ht'.1,  if_false, Bool.true_eq_false]
    rw [this, mismatch_top hw e _ h' ht'.2]; rfl
  | .emptyStruct, V, h, _ => by
    have : decTopV x src o .emptyStruct v V = decV x src o .emptyStruct v V := by
      cases v <;> first | rfl | exact absurd ⟨_, _, _, rfl⟩ h
    rw [this]; exact C52_mismatch_inside (fun _ h => by cases h) hw h V
  | .any, V, h, _ => C52_mismatch_inside (o := o) (ty := .any) (fun _ h => by cases h) hw h V
  | .number, V, h, _ => C52_mismatch_inside (o := o) (ty := .number) (fun _ h => by cases h) hw h V
  | .scalar k, V, h, _ => C52_mismatch_inside (o := o) (ty := .scalar k) (fun _ h => by cases h) hw h V
  | .quoted k, V, h, _ => C52_mismatch_inside (o := o) (ty := .quoted k) (fun _ h => by cases h) hw h V
  | .jsonU a b c, V, h, _ => C52_mismatch_inside (o := o) (ty := .jsonU a b c) (fun _ h => by cases h) hw h V
  | .textU a b c, V, h, _ => C52_mismatch_inside (o := o) (ty := .textU a b c) (fun _ h => by cases h) hw h V
  | .array0, V, h, _ => C52_mismatch_inside (o := o) (ty := .array0) (fun _ h => by cases h) hw h V
  | .array n e, V, h, _ => C52_mismatch_inside (o := o) (ty := .array n e) (fun _ h => by cases h) hw h V
  | .slice e, V, h, _ => C52_mismatch_inside (o := o) (ty := .slice e) (fun _ h => by cases h) hw h V
  | .sliceOf k, V, h, _ => C52_mismatch_inside (o := o) (ty := .sliceOf k) (fun _ h => by cases h) hw h V
  | .sliceES, V, h, _ => C52_mismatch_inside (o := o) (ty := .sliceES) (fun _ h => by cases h) hw h V
  | .mapSS, V, h, _ => C52_mismatch_inside (o := o) (ty := .mapSS) (fun _ h => by cases h) hw h V
  | .map k e, V, h, _ => C52_mismatch_inside (o := o) (ty := .map k e) (fun _ h => by cases h) hw h V
  | .struct n fs, V, h, _ => C52_mismatch_inside (o := o) (ty := .struct n fs) (fun _ h => by cases h) hw h V

theorem tame_mismatch {x : Ext} {src : Bytes} {o : Option Options} {v : JVal} : ∀ (ty : Ty), ¬ Takes ty v → (∀ e, ty ≠ .ptr e) → TameDoc x src o ty v := by
  intro ty h hp
  cases ty <;> first | exact absurd rfl (hp _) | trivial | (cases v <;> first | trivial | exact absurd ⟨_, _, _, rfl⟩ h)

/-- **C52**: `Decode` of a document of a kind the destination does not take returns ErrUnexpectedValue and the index of the first byte of the value, and leaves the destination as it was (a pointer
points to a new zero value). The condition excludes only pointers to types of size zero. -/
theorem C52_mismatch {x : Ext} {ty : Ty} {d : Decoder} (hd : DecoderFor x ty d) {src : Bytes} {v : JVal} (hw : Wf src v) {mem : Block} {V : Val} (hm : Dest x ty mem V) {o : Option Options}
    (h : ¬ Takes ty v) (ht : ∀ e, ty = .ptr e → TameDoc x src o ty v) :
    Returns x ty (decode x d src (.ok v) (some mem) o) v.index (some .unexpectedValue) (afterMismatch x ty V) := by
  have ht : TameDoc x src o ty v := by
    by_cases hp : ∃ e, ty = .ptr e
    · exact ht _ hp.choose_spec
    · exact tame_mismatch ty h fun e he => hp ⟨e, he⟩
  exact returns_err hd hm ht (mismatch_top hw ty V h ht)

/-- **C52**: a bool destination takes `true`, `false` and `null`, nothing else. -/
theorem C52_bool {x : Ext} {d : Decoder} (hd : DecoderFor x (.scalar .bool) d) {src : Bytes} {v : JVal} (hw : Wf src v) {mem : Block} {V : Val} (hm : Dest x (.scalar .bool) mem V) (o : Option Options) :
    (∀ b i e, v = .bool b i e → Returns x (.scalar .bool) (decode x d src (.ok v) (some mem) o) (-1) none (.bool b)) ∧
    (∀ i e, v = .null i e → Returns x (.scalar .bool) (decode x d src (.ok v) (some mem) o) (-1) none (.bool false)) ∧
    ((∀ b i e, v ≠ .bool b i e) → (∀ i e, v ≠ .null i e) → Returns x (.scalar .bool) (decode x d src (.ok v) (some mem) o) v.index (some .unexpectedValue) V) := by
  refine ⟨?_, ?_, ?_⟩
  · rintro b i e rfl; exact returns_ok hd hm trivial rfl
  · rintro i e rfl; exact returns_ok hd hm trivial rfl
  · intro h1 h2
    refine C52_mismatch hd hw hm ?_ (fun _ h => by cases h)
    cases v with
    | null i e => exact absurd rfl (h2 i e)
    | _ => rintro ⟨b, i, e, h⟩; exact h1 b i e h

/-- **C52**: a string destination takes JSON strings, of which it gets the unescaped contents, and `null`, nothing else. -/
theorem C52_string {x : Ext} {d : Decoder} (hd : DecoderFor x (.scalar .str) d) {src : Bytes} {v : JVal} (hw : Wf src v) {mem : Block} {V : Val} (hm : Dest x (.scalar .str) mem V) (o : Option Options) :
    (∀ i e out, v = .str i e → Denotes (inner src i e) out →
      ∃ s : Str, s.bytes = out ∧ Returns x (.scalar .str) (decode x d src (.ok v) (some mem) o) (-1) none (.str s)) ∧
    (∀ i e, v = .null i e → Returns x (.scalar .str) (decode x d src (.ok v) (some mem) o) (-1) none (.str ⟨[], false⟩)) ∧
    ((∀ i e, v ≠ .str i e) → (∀ i e, v ≠ .null i e) → Returns x (.scalar .str) (decode x d src (.ok v) (some mem) o) v.index (some .unexpectedValue) V) := by
  refine ⟨?_, ?_, ?_⟩
  · rintro i e out rfl hden
    obtain ⟨s, h1⟩ := Safe.unescStr_some x hden
    refine ⟨s, AnyTree.unesc_bytes hden h1, returns_ok hd hm trivial ?_⟩
    simp only [decTopV, decV, leafV, leaf, Ty.etype, Doc.slice_inner hw, onString, h1, actV, cellV]
  · rintro i e rfl; exact returns_ok hd hm trivial rfl
  · intro h1 h2
    refine C52_mismatch hd hw hm ?_ (fun _ h => by cases h)
    cases v with
    | null i e => exact absurd rfl (h2 i e)
    | _ => rintro ⟨i, e, h⟩; exact h1 i e h

/-- `[true]` into a nil `**struct{X int; Y string}`. -/
example : Returns demoX (demoTree 37) (decode demoX (demoDec 37) b!"[true]" (.ok (demoDoc b!"[true]")) (some (zeros 8)) (some defaultOptions)) 0 (some .unexpectedValue)
    (.ptr (.ptr (.struct [.int 0, .str ⟨[], false⟩]))) := by
  obtain ⟨hd, hm, -, hw, ht⟩ := demo_case (t := 37) (src := b!"[true]") (o := defaultOptions) (by decide) (by decide) (by decide)
  exact C52_mismatch (ty := demoTree 37) hd hw hm (by rintro ⟨i, ms, k, h⟩; cases h) (fun _ _ => ht)

/-- `"a\n"` and `true` into a `string`. -/
example : (∃ s : Str, s.bytes = [97, 10] ∧
      Returns demoX (demoTree 2) (decode demoX (demoDec 2) b!"\"a\\n\"" (.ok (demoDoc b!"\"a\\n\"")) (some (zeros 16)) (some defaultOptions)) (-1) none (.str s)) ∧
    Returns demoX (demoTree 2) (decode demoX (demoDec 2) b!" true" (.ok (demoDoc b!" true")) (some (zeros 16)) (some defaultOptions)) 1 (some .unexpectedValue) (.str ⟨[], false⟩) := by
  obtain ⟨hd, hm, -, hw, -⟩ := demo_case (t := 2) (src := b!"\"a\\n\"") (o := defaultOptions) (by decide) (by decide) (by decide)
  obtain ⟨-, -, -, hw', -⟩ := demo_case (t := 2) (src := b!" true") (o := defaultOptions) (by decide) (by decide) (by decide)
  exact ⟨(C52_string hd hw hm _).1 _ _ _ rfl (.plain (by decide) (.esc (by decide) .nil)), (C52_string hd hw' hm _).2.2 (fun _ _ h => by cases h) (fun _ _ h => by cases h)⟩

end Verif.Props
