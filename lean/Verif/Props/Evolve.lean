import Verif.Proof.Evolve
import Verif.Props.Right
import Verif.Proof.Unique
/-!
# C68: a type may get new fields

`ETy` (`Spec/Evolve.lean`) is a type before and after struct types inside it, at any depth, got new fields, before, between or behind the old ones, which may move.
-/
namespace Verif.Props
open Verif.Model Verif.Spec Verif.Big Verif.Proof Verif.Proof.Reads Verif.Proof.Demo Verif.Proof.Outcome Verif.Proof.Unique

/-- The full statement of C68: if the document does not mention new fields, decoding it into the new type gives the same error at the same index, if any, and the same values in the old fields as decoding it into the old type; and it
panics only if that panics. -/
def Evolves (x : Ext) (e : ETy) (P : Bytes → Options → JVal → Prop) : Prop :=
  ∀ d d', DecoderFor x e.old d → DecoderFor x e.new d' → ∀ src v (o : Options), Wf src v → Unaware x src o e v → P src o v → ∀ mem mem' V W, Dest x e.old mem V → Dest x e.new mem' W → Sees e V W →
    (∀ i er V', Returns x e.old (decode x d src (.ok v) (some mem) (some o)) i er V' → ∃ W', Returns x e.new (decode x d' src (.ok v) (some mem') (some o)) i er W' ∧ Sees e V' W') ∧
    (∀ i er W', Returns x e.new (decode x d' src (.ok v) (some mem') (some o)) i er W' → ∃ V', Returns x e.old (decode x d src (.ok v) (some mem) (some o)) i er V' ∧ Sees e V' W') ∧
    (decode x d src (.ok v) (some mem) (some o) = none ↔ decode x d' src (.ok v) (some mem') (some o) = none)

/-- Two results, one for each type. -/
private theorem both {x : Ext} {e : ETy} {a b : Option DecodeRes} {i : Int} {er : Option Err} {V W : Val} (r : Returns x e.old a i er V) (r' : Returns x e.new b i er W) (hp : Sees e V W) :
    (∀ i er V', Returns x e.old a i er V' → ∃ W', Returns x e.new b i er W' ∧ Sees e V' W') ∧ (∀ i er W', Returns x e.new b i er W' → ∃ V', Returns x e.old a i er V' ∧ Sees e V' W') ∧ (a = none ↔ b = none) :=
  ⟨fun i er V' h => by obtain ⟨rfl, rfl, rfl⟩ := returns_unique r h; exact ⟨_, r', hp⟩, fun i er W' h => by obtain ⟨rfl, rfl, rfl⟩ := returns_unique r' h; exact ⟨_, r, hp⟩, by
    obtain ⟨_, _, h1, -⟩ := r
    obtain ⟨_, _, h2, -⟩ := r'
    rw [h1, h2]; simp⟩

/-- **C68**, for all types with a tree and all changes of them, and all old values, pointers included. Missing: documents outside `RightDoc` of the old type. Nothing is assumed about the spots reached with the new type. -/
theorem C68_new_fields_partial (x : Ext) (e : ETy) (hg : e.Grows) : Evolves x e (fun src o v => RightDoc x src (some o) e.old v) := by
  intro d d' hd hd' src v o hw hu ht mem mem' V W hm hm' hs
  have r := C35_reading_partial hd hw hm ht
  have r' := C35_reading_partial hd' hw hm' (Evolve.right_ev e .final v hg hw hu ht)
  have hr := Evolve.dec_ev e v V W hw hu hs
  revert r r'
  revert hr
  generalize decPV x src (some o) e.old v V = a
  generalize decPV x src (some o) e.new v W = b
  intro hr r r'
  cases hr with
  | ok hp => exact both r r' hp
  | err hp => exact both r r' hp
  | crash =>
    refine ⟨fun i er V' h => ?_, fun i er W' h => ?_, ⟨fun _ => r', fun _ => r⟩⟩
    · obtain ⟨_, _, h1, -⟩ := h; rw [r] at h1; cases h1
    · obtain ⟨_, _, h1, -⟩ := h; rw [r'] at h1; cases h1
  | unsup => exact r.elim

mutual
/-- Checker for `Unaware`. -/
def unawareB (x : Ext) (src : Bytes) (o : Options) : ETy → JVal → Bool
  | .same _ => fun _ => true
  | .array n e => fun v => match v with | .arr _ vs _ => (vs.take n).all (unawareB x src o e) | _ => true
  | .slice e => fun v => match v with | .arr _ vs _ => vs.all (unawareB x src o e) | _ => true
  | .map _ e => fun v => match v with | .obj _ ms _ => ms.all fun m => unawareB x src o e m.2 | _ => true
  | .ptr e => fun v => unawareB x src o e v
  | .struct _ _ fs => fun v => match v with
    | .obj _ ms _ => ms.all fun m =>
        match (Model.slice src (m.1.1 + 1) (m.1.2 - 1)).bind (keyName o) with
        | none => true
        | some name => match findField x o ((fs.map (·.1)).zipIdx) name with
          | some j => match (unawareFB x src o fs)[j]? with
            | some T => T m.2
            | none => true
          | none => true
    | _ => true
/-- The fields of a struct. -/
def unawareFB (x : Ext) (src : Bytes) (o : Options) : List (Bytes × Nat × Nat × Bool × ETy) → List (JVal → Bool)
  | [] => []
  | (_, _, _, isNew, e) :: fs => (fun v => !isNew && unawareB x src o e v) :: unawareFB x src o fs
end

mutual
theorem unawareB_sound {x : Ext} {src : Bytes} {o : Options} : ∀ (e : ETy) {v : JVal}, Wf src v → unawareB x src o e v = true → Unaware x src o e v
  | .same _, _, _, _ => trivial
  | .array n e, v, hw, h => by
    cases v <;> simp only [Unaware, unawareB] at h ⊢
    rw [List.all_eq_true] at h
    exact fun w hm => unawareB_sound e (Safe.wfL_mem hw.2.2.2.2 w (List.mem_of_mem_take hm)) (h w hm)
  | .slice e, v, hw, h => by
    cases v <;> simp only [Unaware, unawareB] at h ⊢
    rw [List.all_eq_true] at h
    exact fun w hm => unawareB_sound e (Safe.wfL_mem hw.2.2.2.2 w hm) (h w hm)
  | .map k e, v, hw, h => by
    cases v <;> simp only [Unaware, unawareB] at h ⊢
    rw [List.all_eq_true] at h
    exact fun w hm => unawareB_sound e (Safe.wfM_mem hw.2.2.2.2 w hm).2 (h w hm)
  | .ptr e, v, hw, h => by
    simp only [Unaware, unawareB] at h ⊢
    exact unawareB_sound e hw h
  | .struct n n' fs, v, hw, h => by
    cases v <;> simp only [Unaware, unawareB] at h ⊢
    rw [List.all_eq_true] at h
    intro m hm j P hs hP
    have hwm := Safe.wfM_mem hw.2.2.2.2 m hm
    have := h m hm
    obtain ⟨name, h1, h2⟩ := key_selects hwm.1 hs
    simp only [h1, h2] at this
    obtain ⟨T, hT, himp⟩ := unawareFB_sound fs hP
    simp only [hT] at this
    exact himp _ hwm.2 this
theorem unawareFB_sound {x : Ext} {src : Bytes} {o : Options} : ∀ (fs : List (Bytes × Nat × Nat × Bool × ETy)) {j : Nat} {P : JVal → Prop}, (UnawareF x src o fs)[j]? = some P →
    ∃ T, (unawareFB x src o fs)[j]? = some T ∧ ∀ v, Wf src v → T v = true → P v
  | [], j, P, h => by simp [UnawareF] at h
  | (_, _, _, isNew, e) :: fs, 0, P, h => by
    simp only [UnawareF, List.getElem?_cons_zero, Option.some.injEq] at h
    subst h
    refine ⟨fun v => !isNew && unawareB x src o e v, by simp only [unawareFB, List.getElem?_cons_zero], fun v hw hv => ?_⟩
    simp only [Bool.and_eq_true, Bool.not_eq_true'] at hv
    exact ⟨hv.1, unawareB_sound e hw hv.2⟩
  | (_, _, _, isNew, e) :: fs, j + 1, P, h => by
    simp only [UnawareF, List.getElem?_cons_succ] at h
    obtain ⟨T, hT, hi⟩ := unawareFB_sound fs h
    exact ⟨T, by simpa only [unawareFB, List.getElem?_cons_succ] using hT, hi⟩
end

/-- `struct{In struct{Foo int}; B int}` becomes `struct{N string; In struct{Foo int; Y string}; B int}`. -/
def grown : ETy :=
  .struct 16 48 [(b!"N", 0, 0, true, .same (.scalar .str)), (b!"In", 0, 16, false, .struct 8 24 [(b!"Foo", 0, 0, false, .same (.scalar (.int .int))), (b!"Y", 8, 8, true, .same (.scalar .str))]),
    (b!"B", 8, 40, false, .same (.scalar (.int .int)))]

/-- `{"b":3,"In":{"Foo":5}}` into zero values of both types. -/
example : ∃ W', Returns demoX grown.new (decode demoX (demoDec 97) b!"{\"b\":3,\"In\":{\"Foo\":5}}" (.ok (demoDoc b!"{\"b\":3,\"In\":{\"Foo\":5}}")) (some (zeros 48)) (some defaultOptions)) (-1) none W' ∧
    Sees grown (.struct [.struct [.int 5], .int 3]) W' := by
  obtain ⟨hd, hm, -, hw, ht⟩ := demo_case (t := 35) (src := b!"{\"b\":3,\"In\":{\"Foo\":5}}") (o := defaultOptions) (by decide) (by decide) (by decide)
  have hd' : DecoderFor demoX grown.new (demoDec 97) := demo_for' (t := 97) (by decide)
  have r : Returns demoX grown.old _ (-1) none (.struct [.struct [.int 5], .int 3]) := returns_ok hd hm ht rfl
  refine (C68_new_fields_partial demoX grown ⟨by decide, trivial, ⟨by decide, trivial, trivial, trivial⟩, trivial, trivial⟩ _ _ hd hd' _ _ _ hw ?_ (C35_contains ht) _ _ _ _ hm (zero_dest hd') (Evolve.zero_sees grown)).1 _ _ _ r
  exact unawareB_sound grown hw (by decide +kernel)

/-- **C68 is false of the code** without a condition on the document: an unknown key with an object as its value ends the enclosing struct early (C31), so that the keys behind it select fields of the outer struct. The document
`{"In":{"u":{},"N":5}}` mentions no new field (`N` is a key of the inner object, whose type has no such field), the old type accepts it, and the new one rejects `5` for its own new field `N`. -/
theorem C68_refuted : ¬ ∀ e : ETy, e.Grows → Evolves demoX e (fun _ _ _ => True) := by
  intro h
  have hd : DecoderFor demoX grown.old (demoDec 35) := demo_for' (t := 35) (by decide)
  have hd' : DecoderFor demoX grown.new (demoDec 97) := demo_for' (t := 97) (by decide)
  obtain ⟨-, hw⟩ := demo_doc (src := b!"{\"In\":{\"u\":{},\"N\":5}}") (by decide)
  have h1 := (h grown ⟨by decide, trivial, ⟨by decide, trivial, trivial, trivial⟩, trivial, trivial⟩ _ _ hd hd' _ _ defaultOptions hw (unawareB_sound grown hw (by decide +kernel)) trivial _ _ _ _ (zero_dest hd) (zero_dest hd')
    (Evolve.zero_sees grown)).1
  have ho : ∃ r, decode demoX (demoDec 35) b!"{\"In\":{\"u\":{},\"N\":5}}" (.ok (demoDoc b!"{\"In\":{\"u\":{},\"N\":5}}")) (some (zeros 16)) (some defaultOptions) = some r ∧ r.errIndex = -1 ∧ r.err = none ∧
      r.mem = some (zeros 16) := ⟨_, rfl, rfl, rfl, rfl⟩
  have hr : (decode demoX (demoDec 97) b!"{\"In\":{\"u\":{},\"N\":5}}" (.ok (demoDoc b!"{\"In\":{\"u\":{},\"N\":5}}")) (some (zeros 48)) (some defaultOptions)).map (fun r => r.errIndex) = some 18 := by
    decide +kernel
  obtain ⟨r, h2, h3, h4, h5⟩ := ho
  obtain ⟨W', ⟨r', mem, h6, h7, -⟩, -⟩ := h1 (-1) none _ ⟨r, _, h2, h3, h4, h5, zero_dest hd⟩
  have h8 : (some r').map (fun r => r.errIndex) = some 18 := by rw [← h6]; exact hr
  simp [h7] at h8

end Verif.Props
