import Verif.Props.InsidePiece
import Verif.Props.RecDrop
/-!
# C31 for types with recursive struct types inside: unknown members have no effect
-/
namespace Verif.Props
open Verif.Model Verif.Spec Verif.Big Verif.Proof Verif.Proof.Reads Verif.Proof.Demo Verif.Proof.Means Verif.Proof.Drop Verif.Proof.Outcome Verif.Proof.Safe Verif.Proof.Unknown

mutual
theorem without_tameX {x : Ext} {src : Bytes} {o : Options} {n : Nat} : ∀ (ty : RTy) {b : Bool} {v w : JVal}, Wf src v → TameX x src (some o) n ty b v → Without x src o (ty.ty n) v w → TameX x src (some o) n ty b w
  | .plain t, b, v, w, hw, ht, h => by
    simp only [TameX, RTy.ty] at ht h ⊢
    exact without_tame t hw ht h
  | .self size fs, b, v, w, hw, ht, h => by
    simp only [TameX, RTy.ty] at ht h ⊢
    exact without_tameR n b b v w hw ht h
  | .array m e, b, v, w, hw, ht, h => by
    simp only [RTy.ty] at h
    rcases h with rfl | ⟨i, vs, ws, k, rfl, rfl, h⟩
    · exact ht
    · simp only [TameX] at ht ⊢
      refine ⟨fun he => (pairs_nil h).1 (ht.1 he), fun w hwm => ?_⟩
      obtain ⟨v, h1, h2⟩ := pairs_mem (pairs_take m h) w hwm
      exact without_tameX e (wfL_mem hw.2.2.2.2 v (List.mem_of_mem_take h1)) (ht.2 v h1) h2
  | .slice e, b, v, w, hw, ht, h => by
    simp only [RTy.ty] at h
    rcases h with rfl | ⟨i, vs, ws, k, rfl, rfl, h⟩
    · exact ht
    · simp only [TameX] at ht ⊢
      refine ⟨fun he => (pairs_nil h).1 (ht.1 he), fun w hwm => ?_⟩
      obtain ⟨v, h1, h2⟩ := pairs_mem h w hwm
      exact without_tameX e (wfL_mem hw.2.2.2.2 v h1) (ht.2 v h1) h2
  | .map kt e, b, v, w, hw, ht, h => by
    simp only [RTy.ty] at h
    rcases h with rfl | ⟨i, ms, ms', k, rfl, rfl, h⟩
    · exact ht
    · simp only [TameX] at ht ⊢
      refine ⟨fun hk => (pairs_nil h).1 (ht.1 hk), fun m' hm' => ?_⟩
      obtain ⟨m, h1, -, h2⟩ := pairs_mem h m' hm'
      exact without_tameX e (wfM_mem hw.2.2.2.2 m h1).2 (ht.2 m h1) h2
  | .struct size fs, b, v, w, hw, ht, h => by
    simp only [RTy.ty] at h
    rcases h with rfl | ⟨i, ms, ms', k, rfl, rfl, h⟩
    · exact ht
    · simp only [TameX] at ht ⊢
      intro m' hm' o' ho' raw name hraw hname
      cases ho'
      obtain ⟨m, h1, h2, h3⟩ := drop_mem h m' hm'
      have hm := ht m h1 o rfl raw name (h2 ▸ hraw) hname
      rcases h3 with h3 | ⟨j, f, hs, hf, h3⟩
      · rw [← h3]; exact hm
      · obtain ⟨name', g1, g2⟩ := key_selects (wfM_mem hw.2.2.2.2 m h1).1 hs
        rw [h2, hraw, Option.bind_some, hname] at g1
        cases g1
        rw [Inside.tysX_names] at g2
        rw [g2] at hm ⊢
        intro T hT
        rw [Inside.tysX_get] at hf
        cases hf' : fs[j]? with
        | none => rw [hf'] at hf; cases hf
        | some f' =>
          rw [hf'] at hf
          cases hf
          rw [Inside.tameXF_get, hf'] at hT
          cases hT
          exact without_tameXF fs hf' (wfM_mem hw.2.2.2.2 m h1).2 (hm _ (by rw [Inside.tameXF_get, hf']; rfl)) h3
theorem without_tameXF {x : Ext} {src : Bytes} {o : Options} {n : Nat} : ∀ (fs : List (Bytes × Nat × RTy)) {j : Nat} {f : Bytes × Nat × RTy}, fs[j]? = some f → ∀ {b : Bool} {v w : JVal}, Wf src v →
    TameX x src (some o) n f.2.2 b v → Without x src o (f.2.2.ty n) v w → TameX x src (some o) n f.2.2 b w
  | [], j, f, hf, _, _, _, _, _, _ => by simp at hf
  | (_, _, t) :: fs, 0, f, hf, b, v, w, hw, ht, h => by
    simp only [List.getElem?_cons_zero, Option.some.injEq] at hf
    subst hf
    exact without_tameX t hw ht h
  | _ :: fs, j + 1, f, hf, b, v, w, hw, ht, h => by
    simp only [List.getElem?_cons_succ] at hf
    exact without_tameXF fs hf hw ht h
end

theorem without_tameDocX {x : Ext} {src : Bytes} {o : Options} {n : Nat} (ty : RTy) {v w : JVal} (hw : Wf src v) (ht : TameDocX x src (some o) n ty v) (h : Without x src o (ty.ty n) v w) : TameDocX x src (some o) n ty w := by
  cases ty with
  | slice e =>
    cases e with
    | self size fs =>
      rcases h with rfl | ⟨i, vs, ws, k, rfl, rfl, h⟩
      · exact ht
      · simp only [TameDocX] at ht ⊢
        intro j w' hj
        obtain ⟨v', h1, h2⟩ := pairs_at h j w' hj
        exact without_tameR n _ _ v' w' (wfL_mem hw.2.2.2.2 v' (List.mem_of_getElem? h1)) (ht j v' h1) h2
    | _ => exact without_tameX _ hw ht h
  | _ => exact without_tameX _ hw ht h

/-- **C31** for types with recursive struct types inside: `w` is the document `v` without some unknown members at any depth, and `src'` is a text of `w`. Without DisallowUnknownFields `Decode` gives the same result for both
texts. Missing: that an error leaves the same value. Nothing is assumed about the spots the document `w` reaches. -/
theorem C31_inside_partial {x : Ext} {ty : RTy} {d : Decoder} (hd : InsideDecoder x ty d) {src src' : Bytes} {v w v' : JVal} {n : Nat} {o : Options} (hw : Wf src v) (hw' : Wf src' v')
    (ho : o.disallowUnknownFields = false) (ht : TameDocX x src (some o) n ty v) (h : Without x src o (ty.ty n) v w) (hs : SameDoc src src' w v')
    (hj : ∀ rt, CallsJSON d rt → IgnoresSpace x src src' rt) {mem : Block} {V : Val} (hm : Dest x (ty.ty n) mem V) :
    SameResult x (ty.ty n) w v' (decode x d src (.ok v) (some mem) (some o)) (decode x d src' (.ok v') (some mem) (some o)) := by
  have ht' := without_tameDocX ty hw ht h
  have h1 := Inside.outcome hd hm ht
  have h2 := Inside.outcome hd hm ht'
  have hp := C53_position (Drop.without_wf _ hw h) hw' hs hj mem (some o)
  rcases Drop.dec_un ho _ hw h V (Safe.holds_typed _ hm.2) with he | he
  · rw [he] at h1; exact h1.elim
  rw [he] at h1
  cases hr : decV x src (some o) (ty.ty n) w V with
  | crash =>
    rw [hr] at h1 h2
    simp only [] at h1 h2
    rw [h2] at hp
    refine .inl ⟨h1, ?_⟩
    cases hq : decode x d src' (.ok v') (some mem) (some o) with
    | none => rfl
    | some r => rw [hq] at hp; exact hp.elim
  | unsup => rw [hr] at h1; exact h1.elim
  | ok V' =>
    rw [hr] at h1 h2
    obtain ⟨r, m, g1, g2, g3, g4, g5⟩ := h2
    rw [g1] at hp
    cases hq : decode x d src' (.ok v') (some mem) (some o) with
    | none => rw [hq] at hp; exact hp.elim
    | some r' =>
      rw [hq] at hp
      obtain ⟨p1, p2, -, p3⟩ := hp
      refine .inr (.inl ⟨V', h1, ⟨r', m, rfl, ?_, p1 ▸ g3, p2 ▸ g4, g5⟩⟩)
      rcases p3 with ⟨-, p3⟩ | p3
      · exact p3
      · obtain ⟨k, a, a', -, -, q1, -⟩ := p3
        rw [g2] at q1; omega
  | err i e V' =>
    rw [hr] at h1 h2
    obtain ⟨V1, h1⟩ := h1
    obtain ⟨V2, r, m, g1, g2, g3, g4, g5⟩ := h2
    rw [g1] at hp
    cases hq : decode x d src' (.ok v') (some mem) (some o) with
    | none => rw [hq] at hp; exact hp.elim
    | some r' =>
      rw [hq] at hp
      obtain ⟨p1, p2, -, p3⟩ := hp
      exact .inr (.inr ⟨i, r'.errIndex, e, V1, V2, h1, ⟨r', m, rfl, rfl, p1 ▸ g3, p2 ▸ g4, g5⟩, g2 ▸ p3⟩)

/-! ## Examples -/

set_option maxRecDepth 20000 in
/-- `{"q":1,"R":{"y":[0],"Name":"r"},"X":5}` and `{"R":{"Name":"r"},"X":5}` into a `struct{R T; X int}` with a recursive `T`. -/
example : SameResult demoX ((demoRTy 90).ty 2) (.obj 0 [((7, 10), .obj 11 [((20, 26), .str 27 30)] 30), ((32, 35), .num true 36 37)] 37) (demoDoc b!"{\"R\":{\"Name\":\"r\"},\"X\":5}")
    (decode demoX (demoDec 90) b!"{\"q\":1,\"R\":{\"y\":[0],\"Name\":\"r\"},\"X\":5}" (.ok (demoDoc b!"{\"q\":1,\"R\":{\"y\":[0],\"Name\":\"r\"},\"X\":5}")) (some (zeros 48)) (some defaultOptions)) (decode demoX (demoDec 90) b!"{\"R\":{\"Name\":\"r\"},\"X\":5}" (.ok (demoDoc b!"{\"R\":{\"Name\":\"r\"},\"X\":5}")) (some (zeros 48)) (some defaultOptions)) := by
  have hd : InsideDecoder demoX (demoRTy 90) (demoDec 90) := (demo_inside (t := 90) (by decide +kernel)).2
  have h1 := demo_doc (src := b!"{\"q\":1,\"R\":{\"y\":[0],\"Name\":\"r\"},\"X\":5}") (by decide)
  have h2 := demo_doc (src := b!"{\"R\":{\"Name\":\"r\"},\"X\":5}") (by decide)
  have hb : tameDocXB demoX b!"{\"q\":1,\"R\":{\"y\":[0],\"Name\":\"r\"},\"X\":5}" defaultOptions 2 (demoRTy 90) (demoDoc b!"{\"q\":1,\"R\":{\"y\":[0],\"Name\":\"r\"},\"X\":5}") = true := by decide +kernel
  have ht : TameDocX demoX b!"{\"q\":1,\"R\":{\"y\":[0],\"Name\":\"r\"},\"X\":5}" (some defaultOptions) 2 (demoRTy 90) (demoDoc b!"{\"q\":1,\"R\":{\"y\":[0],\"Name\":\"r\"},\"X\":5}") := tameDocXB_sound (demoRTy 90) hb
  obtain ⟨w0, -, w1, ⟨-, -, -, -, w2, -, w3, -⟩, w4, -⟩ := h1.2.2.2.2.2
  refine C31_inside_partial (w := (.obj 0 [((7, 10), .obj 11 [((20, 26), .str 27 30)] 30), ((32, 35), .num true 36 37)] 37)) hd h1.2 h2.2 rfl ht ?_ ?_ ?_ (inside_zero hd 2)
  · refine .inr ⟨0, _, _, 37, rfl, rfl, .inl ⟨unknown_of (k := (1, 4)) (name := b!"q") w0 rfl rfl, .inr ⟨_, _, rfl, .inr ⟨0, _, selects_of (k := (7, 10)) (name := b!"R") w1 rfl rfl, rfl, ?_⟩,
      .inr ⟨_, _, rfl, .inl rfl, rfl⟩⟩⟩⟩
    exact .inr ⟨11, _, _, 30, rfl, rfl, .inl ⟨unknown_of (k := (12, 15)) (name := b!"y") w2 rfl rfl, .inr ⟨_, _, rfl, .inl rfl, rfl⟩⟩⟩
  · change SameDoc _ _ (.obj _ [(_, .obj _ [(_, .str _ _)] _), (_, .num _ _ _)] _) (.obj _ [(_, .obj _ [(_, .str _ _)] _), (_, .num _ _ _)] _)
    simp only [SameDoc, SameDocL, SameDocM]
    decide
  · rintro rt ⟨f, hf, h, -⟩
    have : ∀ f ∈ (demoDec 90).frames, ¬ f.type = .jsonUnmarshaler := by decide
    exact absurd h (this f hf)

end Verif.Props
