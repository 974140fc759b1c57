import Verif.Props.InsideParts
import Verif.Props.RecMore
import Verif.Props.Unknown
/-!
# C32 for types with recursive struct types inside
-/
namespace Verif.Props
open Verif.Model Verif.Spec Verif.Big Verif.Proof Verif.Proof.Reads Verif.Proof.Demo Verif.Proof.Means

mutual
theorem tameX_to_strict {x : Ext} {src : Bytes} {o : Options} {n : Nat} : ∀ (ty : RTy) {b : Bool} {v : JVal}, TameX x src (some (lenient o)) n ty b v → TameX x src (some (strict o)) n ty b v
  | .plain t, b, v, h => by
    simp only [TameX] at h ⊢
    exact Unknown.tame_to_strict t h
  | .self _ fs, b, v, h => by
    simp only [TameX] at h ⊢
    exact RecIdeal.tameR_to_strict n b b v h
  | .array m e, b, v, h => by
    cases v <;> simp only [TameX] at h ⊢
    exact ⟨h.1, fun w hw => tameX_to_strict e (h.2 w hw)⟩
  | .slice e, b, v, h => by
    cases v <;> simp only [TameX] at h ⊢
    exact ⟨h.1, fun w hw => tameX_to_strict e (h.2 w hw)⟩
  | .map k e, b, v, h => by
    cases v <;> simp only [TameX] at h ⊢
    exact ⟨h.1, fun w hw => tameX_to_strict e (h.2 w hw)⟩
  | .struct n' fs, b, v, h => by
    cases v <;> simp only [TameX] at h ⊢
    intro m hm o' ho raw name hraw hname
    cases ho
    replace h := h m hm (lenient o) rfl raw name hraw hname
    have hff : findField x (strict o) ((fs.map (·.1)).zipIdx) name = findField x (lenient o) ((fs.map (·.1)).zipIdx) name := rfl
    rw [hff]
    split
    · rename_i j hj
      rw [hj] at h
      intro T hT
      rw [Inside.tameXF_get] at hT
      cases hf : fs[j]? with
      | none => rw [hf] at hT; cases hT
      | some f =>
        rw [hf] at hT; cases hT
        exact tameX_to_strictF fs hf (h _ (by rw [Inside.tameXF_get, hf]; rfl))
    · exact .inl rfl
theorem tameX_to_strictF {x : Ext} {src : Bytes} {o : Options} {n : Nat} : ∀ (fs : List (Bytes × Nat × RTy)) {j : Nat} {f : Bytes × Nat × RTy}, fs[j]? = some f → ∀ {b : Bool} {v : JVal},
    TameX x src (some (lenient o)) n f.2.2 b v → TameX x src (some (strict o)) n f.2.2 b v
  | [], j, f, hf, b, v, h => by simp at hf
  | (_, _, t) :: fs, 0, f, hf, b, v, h => by
    simp only [List.getElem?_cons_zero, Option.some.injEq] at hf
    subst hf
    exact tameX_to_strict t h
  | _ :: fs, j + 1, f, hf, b, v, h => by
    simp only [List.getElem?_cons_succ] at hf
    exact tameX_to_strictF fs hf h
end

theorem tameDocX_to_strict {x : Ext} {src : Bytes} {o : Options} {n : Nat} (ty : RTy) {v : JVal} (h : TameDocX x src (some (lenient o)) n ty v) : TameDocX x src (some (strict o)) n ty v := by
  cases ty with
  | slice e =>
    cases e with
    | self size fs =>
      cases v <;> simp only [TameDocX] at h ⊢
      exact fun j w hw => RecIdeal.tameR_to_strict n _ _ w (h j w hw)
    | _ => exact tameX_to_strict _ h
  | _ => exact tameX_to_strict _ h

/-- **C32** for types with recursive struct types inside, some unknown key: `Decode` returns ErrUnknownField at the first of them, unless it fails (with another error) or panics before that, exactly as without DisallowUnknownFields. -/
theorem C32_inside_partial {x : Ext} {ty : RTy} {d d' : Decoder} (hd : InsideDecoder x ty d) (hd' : InsideDecoder x ty d') {src : Bytes} {v : JVal} (hw : Wf src v) {mem : Block} {V : Val}
    {n : Nat} (hm : Dest x (ty.ty n) mem V) {o : Options} {k : Nat} {L : List Nat} (hL : UnknownKeys x src o (ty.ty n) v (k :: L)) (ht : TameDocX x src (some (lenient o)) n ty v) :
    (∃ V', Returns x (ty.ty n) (decode x d src (.ok v) (some mem) (some (strict o))) k (some .unknownField) V') ∨
    (∃ (i : Int) (e : Err), e ≠ .unknownField ∧ (∃ V', Returns x (ty.ty n) (decode x d src (.ok v) (some mem) (some (strict o))) i (some e) V') ∧
      ∃ V', Returns x (ty.ty n) (decode x d' src (.ok v) (some mem) (some (lenient o))) i (some e) V') ∨
    (decode x d src (.ok v) (some mem) (some (strict o)) = none ∧ decode x d' src (.ok v) (some mem) (some (lenient o)) = none) := by
  have ht' := tameDocX_to_strict ty ht
  have h : Unknown.Lax (k :: L) _ _ := Unknown.dec_lax _ (Safe.holds_typed _ hm.2) hw hL
  have h1 := Inside.outcome hd hm ht'
  have h2 := Inside.outcome hd' hm ht
  rcases h with ⟨V', h⟩ | ⟨h, hn⟩
  · rw [h] at h1; exact .inl h1
  · have hu := Unknown.decV_nu (x := x) (src := src) (o := lenient o) rfl (ty.ty n) (v := v) (V := V)
    rw [h] at h1
    cases hr : decV x src (some (lenient o)) (ty.ty n) v V with
    | ok a => exact (hn a hr).elim
    | err i e a =>
      rw [hr] at h1 h2 hu
      exact .inr (.inl ⟨i, e, hu, h1, h2⟩)
    | crash => rw [hr] at h1 h2; exact .inr (.inr ⟨h1, h2⟩)
    | unsup => rw [hr] at h1; exact h1.elim

/-- **C32** for types with recursive struct types inside, no unknown key: success, the value, the error and its index, and panics are the same with and without DisallowUnknownFields. -/
theorem C32_inside_known_partial {x : Ext} {ty : RTy} {d d' : Decoder} (hd : InsideDecoder x ty d) (hd' : InsideDecoder x ty d') {src : Bytes} {v : JVal} (hw : Wf src v) {mem : Block}
    {V : Val} {n : Nat} (hm : Dest x (ty.ty n) mem V) {o : Options} (hL : UnknownKeys x src o (ty.ty n) v []) (ht : TameDocX x src (some (lenient o)) n ty v) :
    (∀ V', Returns x (ty.ty n) (decode x d src (.ok v) (some mem) (some (strict o))) (-1) none V' ↔
      Returns x (ty.ty n) (decode x d' src (.ok v) (some mem) (some (lenient o))) (-1) none V') ∧
    (∀ i e, (∃ V', Returns x (ty.ty n) (decode x d src (.ok v) (some mem) (some (strict o))) i (some e) V') ↔
      ∃ V', Returns x (ty.ty n) (decode x d' src (.ok v) (some mem) (some (lenient o))) i (some e) V') ∧
    (decode x d src (.ok v) (some mem) (some (strict o)) = none ↔ decode x d' src (.ok v) (some mem) (some (lenient o)) = none) := by
  have ht' := tameDocX_to_strict ty ht
  have h : decV x src (some (strict o)) (ty.ty n) v V = decV x src (some (lenient o)) (ty.ty n) v V := Unknown.dec_lax _ (Safe.holds_typed _ hm.2) hw hL
  have h1 := Inside.outcome hd hm ht'
  have h2 := Inside.outcome hd' hm ht
  rw [h] at h1
  have hno : ∀ {r : Option DecodeRes} {i e V'}, Returns x (ty.ty n) r i e V' → r ≠ none := by
    rintro r i e V' ⟨r', m, h, -⟩ h'; rw [h] at h'; cases h'
  cases hr : decV x src (some (lenient o)) (ty.ty n) v V with
  | ok a =>
    rw [hr] at h1 h2
    refine ⟨fun V' => ⟨fun g => ?_, fun g => ?_⟩, fun i e => ⟨?_, ?_⟩, iff_of_false (hno h1) (hno h2)⟩
    · obtain ⟨-, -, rfl⟩ := Unique.returns_unique g h1; exact h2
    · obtain ⟨-, -, rfl⟩ := Unique.returns_unique g h2; exact h1
    · rintro ⟨V', g⟩; cases (Unique.returns_unique g h1).2.1
    · rintro ⟨V', g⟩; cases (Unique.returns_unique g h2).2.1
  | err i e a =>
    rw [hr] at h1 h2
    obtain ⟨V1, h1⟩ := h1
    obtain ⟨V2, h2⟩ := h2
    refine ⟨fun V' => ⟨fun g => ?_, fun g => ?_⟩, fun i' e' => ⟨?_, ?_⟩, iff_of_false (hno h1) (hno h2)⟩
    · cases (Unique.returns_unique g h1).2.1
    · cases (Unique.returns_unique g h2).2.1
    · rintro ⟨V', g⟩
      obtain ⟨rfl, g2, -⟩ := Unique.returns_unique g h1
      cases g2; exact ⟨V2, h2⟩
    · rintro ⟨V', g⟩
      obtain ⟨rfl, g2, -⟩ := Unique.returns_unique g h2
      cases g2; exact ⟨V1, h1⟩
  | crash =>
    rw [hr] at h1 h2
    simp only [] at h1 h2
    refine ⟨fun V' => ⟨fun g => (hno g h1).elim, fun g => (hno g h2).elim⟩, fun i e => ⟨fun ⟨V', g⟩ => (hno g h1).elim, fun ⟨V', g⟩ => (hno g h2).elim⟩, by simp [h1, h2]⟩
  | unsup => rw [hr] at h1; exact h1.elim

/-! ## Examples -/

set_option maxRecDepth 20000 in
/-- `{"X":5,"R":{"Zed":1}}` into a `struct{R T; X int}` with a recursive `T`: the unknown key of the member R, at 12. -/
example : UnknownKeys demoX b!"{\"X\":5,\"R\":{\"Zed\":1}}" defaultOptions ((demoRTy 90).ty 2) (demoDoc b!"{\"X\":5,\"R\":{\"Zed\":1}}") [12] ∧
    ∃ V, Returns demoX ((demoRTy 90).ty 2) (decode demoX (demoDec 90) b!"{\"X\":5,\"R\":{\"Zed\":1}}" (.ok (demoDoc b!"{\"X\":5,\"R\":{\"Zed\":1}}")) (some (zeros 48)) (some (strict defaultOptions))) 12 (some .unknownField) V := by
  have hd : InsideDecoder demoX (demoRTy 90) (demoDec 90) := (demo_inside (t := 90) (by decide +kernel)).2
  have hb : tameDocXB demoX b!"{\"X\":5,\"R\":{\"Zed\":1}}" (lenient defaultOptions) 2 (demoRTy 90) (demoDoc b!"{\"X\":5,\"R\":{\"Zed\":1}}") = true := by decide +kernel
  have ht : TameDocX demoX b!"{\"X\":5,\"R\":{\"Zed\":1}}" (some (lenient defaultOptions)) 2 (demoRTy 90) (demoDoc b!"{\"X\":5,\"R\":{\"Zed\":1}}") := tameDocXB_sound (demoRTy 90) hb
  have hw := (demo_doc (src := b!"{\"X\":5,\"R\":{\"Zed\":1}}") (by decide)).2
  have hL : UnknownKeys demoX b!"{\"X\":5,\"R\":{\"Zed\":1}}" defaultOptions ((demoRTy 90).ty 2) (demoDoc b!"{\"X\":5,\"R\":{\"Zed\":1}}") [12] := by
    obtain ⟨h1, -, h2, h3, -⟩ := hw.2.2.2.2
    obtain ⟨h4, -⟩ := h3.2.2.2.2
    exact ⟨[], [12], rfl, .inr ⟨1, _, selects_of (k := (1, 4)) (name := b!"X") h1 rfl rfl, rfl, rfl⟩, [12], [], rfl, .inr ⟨0, _, selects_of (k := (7, 10)) (name := b!"R") h2 rfl rfl, rfl,
      [12], [], rfl, .inl ⟨unknown_of (k := (12, 17)) (name := b!"Zed") h4 rfl rfl, rfl⟩, rfl⟩, rfl⟩
  refine ⟨hL, ?_⟩
  have hr := Inside.returns_ok (V' := .struct [.struct [.nil, .str ⟨[], false⟩], .int 5]) hd (inside_zero hd 2) ht rfl
  rcases C32_inside_partial hd hd hw (inside_zero hd 2) hL ht with h | ⟨i, e, -, -, V', h⟩ | ⟨-, h⟩
  · exact h
  · cases (Unique.returns_unique h hr).2.1
  · obtain ⟨r, m, g, -⟩ := hr
    rw [h] at g; cases g

set_option maxRecDepth 20000 in
/-- `{"R":{"Name":"r"},"X":5}` has no unknown key: the same with DisallowUnknownFields. -/
example : Returns demoX ((demoRTy 90).ty 2) (decode demoX (demoDec 90) b!"{\"R\":{\"Name\":\"r\"},\"X\":5}" (.ok (demoDoc b!"{\"R\":{\"Name\":\"r\"},\"X\":5}")) (some (zeros 48)) (some (strict defaultOptions))) (-1) none
    (.struct [.struct [.nil, .str ⟨b!"r", true⟩], .int 5]) := by
  have hd : InsideDecoder demoX (demoRTy 90) (demoDec 90) := (demo_inside (t := 90) (by decide +kernel)).2
  have hb : tameDocXB demoX b!"{\"R\":{\"Name\":\"r\"},\"X\":5}" (lenient defaultOptions) 2 (demoRTy 90) (demoDoc b!"{\"R\":{\"Name\":\"r\"},\"X\":5}") = true := by decide +kernel
  have ht : TameDocX demoX b!"{\"R\":{\"Name\":\"r\"},\"X\":5}" (some (lenient defaultOptions)) 2 (demoRTy 90) (demoDoc b!"{\"R\":{\"Name\":\"r\"},\"X\":5}") := tameDocXB_sound (demoRTy 90) hb
  have hw := (demo_doc (src := b!"{\"R\":{\"Name\":\"r\"},\"X\":5}") (by decide)).2
  have hL : UnknownKeys demoX b!"{\"R\":{\"Name\":\"r\"},\"X\":5}" defaultOptions ((demoRTy 90).ty 2) (demoDoc b!"{\"R\":{\"Name\":\"r\"},\"X\":5}") [] := by
    obtain ⟨h1, h3, h2, -⟩ := hw.2.2.2.2
    obtain ⟨h4, -⟩ := h3.2.2.2.2
    exact ⟨[], [], rfl, .inr ⟨0, _, selects_of (k := (1, 4)) (name := b!"R") h1 rfl rfl, rfl,
      [], [], rfl, .inr ⟨1, _, selects_of (k := (6, 12)) (name := b!"Name") h4 rfl rfl, rfl, rfl⟩, rfl⟩, [], [], rfl, .inr ⟨1, _, selects_of (k := (18, 21)) (name := b!"X") h2 rfl rfl, rfl, rfl⟩, rfl⟩
  exact ((C32_inside_known_partial hd hd hw (inside_zero hd 2) hL ht).1 _).2 (Inside.returns_ok hd (inside_zero hd 2) ht rfl)

end Verif.Props
