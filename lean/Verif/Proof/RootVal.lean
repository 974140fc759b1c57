import Verif.Spec.Root
import Verif.Proof.RootSim
import Verif.Proof.Outcome
import Verif.Proof.Drop
import Verif.Spec.Means
/-!
# Objects decoded into a struct that is the destination itself
-/
namespace Verif.Proof.RootVal
open Verif.Model Verif.Big Verif.Spec Verif.Proof Verif.Proof.Val Verif.Proof.Sim Verif.Proof.Reads Verif.Proof.Outcome Verif.Proof.Safe Verif.Proof.Typed

theorem member_rel {x : Ext} {src : Bytes} {o : Options} {last : Bool} {t : Ty} (h : OK x t) : Corr (t.size x) (Holds x t) (memberB x src o last t) (memberV x src o last t) := by
  unfold memberB memberV
  split
  · exact decTop_rel t h
  · exact dec_rel t h

theorem okF_ok {x : Ext} {size : Nat} : ∀ {fs : List (Bytes × Nat × Ty)}, OKF x size fs → ∀ {j : Nat} {f : Bytes × Nat × Ty}, fs[j]? = some f → OK x f.2.2
  | [], _, j, f, h => by simp at h
  | (n, fo, t) :: fs, hok, j, f, h => by
    simp only [OKF] at hok
    cases j with
    | zero => simp at h; subst h; exact hok.2.1
    | succ j => exact okF_ok hok.2.2.2 (by simpa using h)

/-- Memory and values. -/
theorem root_rel {x : Ext} {src : Bytes} {o : Options} {size : Nat} {fields : List (Bytes × Nat × Ty)} (hok : OKF x size fields) :
    ∀ (ms : List ((Nat × Nat) × JVal)) (b : Block) (off : Nat) (Ws : List Val), off + size ≤ b.length → HoldsF x fields b off Ws →
      Rel (fun b' Ws' => off + size ≤ b'.length ∧ HoldsF x fields b' off Ws') b off size (rootB x src o fields ms b off) (rootV x src o fields ms Ws)
  | [], b, off, Ws, hl, h => ⟨⟨hl, h⟩, Frm.refl _ _ _⟩
  | ((i, e), v) :: ms, b, off, Ws, hl, h => by
    unfold rootB rootV
    cases hn : (Model.slice src (i + 1) (e - 1)).bind (keyName o) with
    | none => trivial
    | some name =>
      simp only []
      cases hj : findField x o ((fields.map (·.1)).zipIdx) name with
      | none =>
        simp only []
        by_cases h1 : o.disallowUnknownFields = true
        · rw [if_pos h1, if_pos h1]
          exact ⟨rfl, rfl, ⟨hl, h⟩, Frm.refl _ _ _⟩
        · rw [if_neg h1, if_neg h1]
          by_cases h3 : isObj v = true
          · rw [if_pos h3, if_pos h3]
            exact root_rel hok ms b off Ws hl h
          rw [if_neg h3, if_neg h3]
          by_cases h2 : hasObj v = true
          · rw [if_pos h2, if_pos h2]; trivial
          · rw [if_neg h2, if_neg h2]
            exact root_rel hok ms b off Ws hl h
      | some j =>
        have hlt := Sim.findField_lt hj
        rw [List.length_map] at hlt
        obtain ⟨f, hf⟩ : ∃ f, fields[j]? = some f := ⟨_, List.getElem?_eq_getElem hlt⟩
        obtain ⟨W, hW, hh⟩ := holdsF_get h hf
        simp only [hf, hW]
        have hr := member_rel (src := src) (o := o) (last := ms.isEmpty) (okF_ok hok hf) v b (off + f.2.1) W hh
        obtain ⟨q1, q2⟩ := okF_get hok hf
        cases hB : memberB x src o ms.isEmpty f.2.2 v b (off + f.2.1) with
        | ok b1 =>
          cases hV : memberV x src o ms.isEmpty f.2.2 v W with
          | ok W1 =>
            rw [hB, hV] at hr
            have ih := root_rel (src := src) (o := o) hok ms b1 off (Ws.set j W1) (by have := hr.2.1; omega) (holdsF_set hok hf h hr.2 hr.1)
            have hfr : Frm b b1 off size := hr.2.mono (by omega) (by omega)
            simp only []
            generalize rootB x src o fields ms b1 off = rb at ih
            generalize rootV x src o fields ms (Ws.set j W1) = rv at ih
            cases rb <;> cases rv <;> first | exact ih.elim | skip
            · exact ⟨ih.1, hfr.trans ih.2⟩
            · exact ⟨ih.1, ih.2.1, ih.2.2.1, hfr.trans ih.2.2.2⟩
            all_goals trivial
          | err i e W1 => rw [hB, hV] at hr; exact hr.elim
          | crash => rw [hB, hV] at hr; exact hr.elim
          | unsup => rw [hB, hV] at hr; exact hr.elim
        | err i1 e1 b1 =>
          cases hV : memberV x src o ms.isEmpty f.2.2 v W with
          | err i2 e2 W1 =>
            rw [hB, hV] at hr
            obtain ⟨r1, r2, r3, r4⟩ := hr
            exact ⟨r1, r2, ⟨by have := r4.1; omega, holdsF_set hok hf h r4 r3⟩, r4.mono (by omega) (by omega)⟩
          | ok W1 => rw [hB, hV] at hr; exact hr.elim
          | crash => rw [hB, hV] at hr; exact hr.elim
          | unsup => rw [hB, hV] at hr; exact hr.elim
        | crash =>
          cases hV : memberV x src o ms.isEmpty f.2.2 v W <;> rw [hB, hV] at hr <;> first | exact hr.elim | trivial
        | unsup =>
          cases hV : memberV x src o ms.isEmpty f.2.2 v W <;> rw [hB, hV] at hr <;> first | exact hr.elim | trivial

/-- What `Decode` does with an object and a struct, on memory. -/
theorem decode_root {x : Ext} {n : Nat} {fs : List (Bytes × Nat × Ty)} {d : Decoder} (h : Ready x (.struct n fs) d) {src : Bytes} {a z : Nat} {ms : List ((Nat × Nat) × JVal)} {mem : Block} {o : Options} {Ws : List Val}
    (hl : mem.length = n) (hV : Holds x (.struct n fs) mem 0 (.struct Ws)) (hne : rootB x src o fs ms mem 0 ≠ .unsup) :
    Reads x (.struct n fs) mem (decode x d src (.ok (.obj a ms z)) (some mem) (some o)) ((rootV x src o fs ms Ws).map .struct) := by
  obtain ⟨f, hf, hp, ho⟩ := h.root
  obtain ⟨fr, hfr⟩ : ∃ fr, d.frames = f :: fr := by
    cases hd : d.frames with
    | nil => rw [hd] at hf; cases hf
    | cons g fs => rw [hd] at hf; cases hf; exact ⟨fs, rfl⟩
  obtain ⟨f', hf', -, hsz⟩ := h.rep.frame
  rw [hf] at hf'; cases hf'
  have hpre : Pre { x := x, src := src, toks := flatten 0 (.obj a ms z), frames := d.frames, options := some o, epoch := d.calls } (initSt d.dyn mem) 0 [] 0 mem (.obj a ms z) [] := by
    refine ⟨rfl, rfl, ?_, by simp [initSt], rfl, init_dynOK h.dyn mem⟩
    have := h.dyn.root 0 f hf (fun hc => absurd (h.table.nr hf hc) (by decide)) hp
    simp [initSt, upd, Ptr.add, this, ho]
  have hsim := root_sim (pr := { x := x, src := src, toks := flatten 0 (.obj a ms z), frames := d.frames, options := some o, epoch := d.calls }) h.rep
    (fun g hg => by rw [hf] at hg; cases hg; exact hp) rfl rfl hpre
  obtain ⟨hl0, Ws', hWs, hH⟩ := hV
  cases hWs
  have hrel := root_rel (src := src) (o := o) (by simpa only [OK] using h.ok) ms mem 0 Ws hl0 hH
  have hstop := Term.run_stops (pr := { x := x, src := src, toks := flatten 0 (.obj a ms z), frames := d.frames, options := some o, epoch := d.calls }) (Term.tokOK_flatten (.obj a ms z)) d.dyn mem
  simp only [] at hsim
  cases hb : rootB x src o fs ms mem 0 with
  | ok b' =>
    rw [hb] at hsim hrel
    obtain ⟨s', k1, k2, k3, k4⟩ := hsim
    cases hv : rootV x src o fs ms Ws with
    | ok Ws' =>
      rw [hv] at hrel
      have hlen' : b'.length = mem.length := hrel.2.1
      have hrun := k1.unique hstop
      simp only [putBlock, Option.some.injEq] at k2
      have hdest : (s'.dyn 0).dest = .at ⟨[], 0⟩ := by rw [k3]; simp [initSt, upd]
      have hrd : (readSeg s'.mem (s'.dyn 0).dest f.size).bind (fun b => blit s'.mem 0 b) = some s'.mem := by
        rw [hdest, hsz]
        have hlen : s'.mem.length = (Ty.struct n fs).size x := by rw [← k2, hlen', hl]; rfl
        simp only [readSeg, getBlock, Option.bind_some, Nat.zero_add, hlen, Nat.le_refl, if_pos, List.drop_zero]
        rw [List.take_of_length_le (by omega)]
        exact blit_self _
      refine ⟨_, b', by simp only [decode, hfr]; rw [← hfr, hrun]; simp only [hrd]; rw [← k2], rfl, rfl, rfl, hlen', ?_⟩
      exact ⟨hrel.1.1, Ws', rfl, hrel.1.2⟩
    | err _ _ _ | crash | unsup => rw [hv] at hrel; exact hrel.elim
  | err i e b' =>
    rw [hb] at hsim hrel
    obtain ⟨s', k1, k2, k3⟩ := hsim
    have hrun := k1.unique hstop
    simp only [putBlock, Option.some.injEq] at k2
    cases hv : rootV x src o fs ms Ws with
    | err i' e' Ws' =>
      rw [hv] at hrel
      obtain ⟨rfl, rfl, r1, r2⟩ := hrel
      refine ⟨_, b', by simp only [decode, hfr]; rw [← hfr, hrun], rfl, rfl, congrArg some k2.symm, r2.1, ?_⟩
      exact ⟨r1.1, Ws', rfl, r1.2⟩
    | ok _ | crash | unsup => rw [hv] at hrel; exact hrel.elim
  | crash =>
    rw [hb] at hsim hrel
    have hrun := Halts.unique hsim hstop
    cases hv : rootV x src o fs ms Ws with
    | crash =>
      show decode x d src (.ok (.obj a ms z)) (some mem) (some o) = none
      simp only [decode, hfr]; rw [← hfr, hrun]
    | ok _ | err _ _ _ | unsup => rw [hv] at hrel; exact hrel.elim
  | unsup => exact absurd hb hne

/-- Tame members are inside the fragment. -/
theorem root_ne {x : Ext} {src : Bytes} {o : Options} {fs : List (Bytes × Nat × Ty)} : ∀ (ms : List ((Nat × Nat) × JVal)) (b : Block) (off : Nat), WfM src ms → RootTame x src o fs ms →
    rootB x src o fs ms b off ≠ .unsup
  | [], b, off, _, _ => by simp [rootB]
  | ((i, e), v) :: ms, b, off, hw, ⟨h1, h2, h3⟩ => by
    have ih := fun b off => root_ne (fs := fs) ms b off hw.2.2 h3
    rw [rootB]
    rcases (key_cases (x := x) (o := o) (names := fs.map (·.1)) (k := (i, e)) hw.1).symm with hk | ⟨j, hs⟩
    · obtain ⟨name, g1, g2⟩ := key_unknown (o := o) (k := (i, e)) hw.1 hk
      simp only [] at g1
      simp only [g1, g2]
      by_cases hd : o.disallowUnknownFields = true
      · rw [if_pos hd]; simp
      · rw [if_neg hd]
        rcases h1 hk with h | h | h
        · exact absurd h hd
        · simp only [] at h; rw [if_pos h]; exact ih _ _
        · simp only [] at h
          split
          · exact ih _ _
          · rw [h]; exact ih _ _
    · obtain ⟨name, g1, g2⟩ := key_selects (o := o) (k := (i, e)) hw.1 hs
      simp only [] at g1
      simp only [g1, g2]
      cases hfj : fs[j]? with
      | none => simp
      | some f =>
        obtain ⟨n, fo, t⟩ := f
        have := h2 j _ hs hfj
        simp only [] at this
        have hne : memberB x src o ms.isEmpty t v b (off + fo) ≠ .unsup := by
          unfold memberB
          split
          · refine Fragment.decTop_ne t v b _ ?_
            rcases this with h | h
            · exact tameDoc_of h
            · exact h.2
          · rename_i hc
            rcases this with h | ⟨h | h, -⟩
            · exact Fragment.dec_ne t v b _ h
            · subst h; exact absurd rfl hc
            · subst h; exact absurd (by simp [Ty.isES]) hc
        simp only []
        split
        · exact ih _ _
        · exact hne

theorem rootV_ne {x : Ext} {src : Bytes} {o : Options} {n : Nat} {fs : List (Bytes × Nat × Ty)} (hok : OK x (.struct n fs)) {ms : List ((Nat × Nat) × JVal)} (hw : WfM src ms) (ht : RootTame x src o fs ms)
    {mem : Block} {Ws : List Val} (hV : Holds x (.struct n fs) mem 0 (.struct Ws)) : rootV x src o fs ms Ws ≠ .unsup := by
  intro hc
  obtain ⟨hl0, Ws', hWs, hH⟩ := hV
  cases hWs
  have hrel := root_rel (src := src) (o := o) (by simpa only [OK] using hok) ms mem 0 Ws hl0 hH
  rw [hc] at hrel
  cases hb : rootB x src o fs ms mem 0 with
  | unsup => exact root_ne ms mem 0 hw ht hb
  | _ => rw [hb] at hrel; exact hrel.elim

/-! ## No panics -/

theorem member_safe {x : Ext} {src : Bytes} {o : Options} {last : Bool} {t : Ty} {v : JVal} {V : Val} (hV : HasTy t V) (hw : Wf src v) (hc : t.callable = true) (hq : t.noQuotedNum = true ∨ noEmptyStr v = true) :
    Safe (HasTy t) (memberV x src o last t v V) := by
  unfold memberV
  split
  · exact decTopV_safe t hV hw hc hq
  · exact decV_safe t hV hw hc hq

theorem rootV_safe {x : Ext} {src : Bytes} {o : Options} {fs : List (Bytes × Nat × Ty)} (hc : callableF fs = true) : ∀ (ms : List ((Nat × Nat) × JVal)) (Ws : List Val), WfM src ms →
    (noQuotedNumF fs = true ∨ noEmptyStrM ms = true) → HasTyF fs Ws → Safe (HasTyF fs) (rootV x src o fs ms Ws)
  | [], Ws, _, _, h => h
  | ((i, e), v) :: ms, Ws, hw, hq, h => by
    have hq1 : noQuotedNumF fs = true ∨ noEmptyStr v = true := by
      rcases hq with h | h
      · exact .inl h
      · simp only [noEmptyStrM, Bool.and_eq_true] at h; exact .inr h.1.2
    have hq2 : noQuotedNumF fs = true ∨ noEmptyStrM ms = true := by
      rcases hq with h | h
      · exact .inl h
      · simp only [noEmptyStrM, Bool.and_eq_true] at h; exact .inr h.2
    have ih := fun Ws => rootV_safe (x := x) (o := o) hc ms Ws hw.2.2 hq2
    obtain ⟨n, hn⟩ := keyName_some (o := o) hw.1
    have hn' : (Model.slice src (i + 1) (e - 1)).bind (keyName o) = some n := hn
    simp only [rootV, hn']
    cases hj : findField x o ((fs.map (·.1)).zipIdx) n with
    | none =>
      simp only []
      split
      · exact h
      · split
        · exact ih _ h
        · split
          · trivial
          · exact ih _ h
    | some j =>
      have hlt := Sim.findField_lt hj
      simp only [List.length_map] at hlt
      have hfj : fs[j]? = some fs[j] := List.getElem?_eq_getElem hlt
      obtain ⟨W, hW, hT⟩ := hasTyF_get h hfj
      have h1 := member_safe (x := x) (o := o) (last := ms.isEmpty) hT hw.2.1 (callableF_get hc hfj) (by
        rcases hq1 with h | h
        · exact .inl (noQuotedF_get h hfj)
        · exact .inr h)
      simp only [hfj, hW]
      split <;> rename_i hr <;> rw [hr] at h1
      · exact ih _ (hasTyF_set h hfj h1)
      · exact hasTyF_set h hfj h1
      · exact h1
      · trivial

/-! ## Removing unknown members -/

theorem member_eq_dec {x : Ext} {src : Bytes} {o : Options} {last : Bool} {t : Ty} {v : JVal} {V : Val} (ht : Tame x src (some o) t v) : memberV x src o last t v V = decV x src (some o) t v V := by
  unfold memberV
  split
  · exact top_eq V ht
  · rfl

/-- The reading of the value does not depend on `last` unless it has to. -/
theorem member_last {x : Ext} {src : Bytes} {o : Options} {l l' : Bool} {t : Ty} {v : JVal} {V : Val} (h : l = false → t ≠ .emptyStruct → Tame x src (some o) t v) (h' : l' = false → t ≠ .emptyStruct → Tame x src (some o) t v) :
    memberV x src o l t v V = memberV x src o l' t v V := by
  by_cases hes : t = .emptyStruct
  · subst hes; simp [memberV, Ty.isES]
  · have e : t.isES = false := by cases t <;> first | rfl | exact absurd rfl hes
    cases l <;> cases l' <;> first | rfl | skip
    · rw [member_eq_dec (h rfl hes), member_eq_dec (h rfl hes)]
    · rw [member_eq_dec (h' rfl hes), member_eq_dec (h' rfl hes)]

theorem without_es {x : Ext} {src : Bytes} {o : Options} {v w : JVal} (h : Without x src o .emptyStruct v w) : v = w := h

theorem member_drop {x : Ext} {src : Bytes} {o : Options} (ho : o.disallowUnknownFields = false) {t : Ty} {last : Bool} {v w : JVal} (hw : Wf src v)
    (ht : Tame x src (some o) t v ∨ (last = true ∨ t = .emptyStruct) ∧ TameDoc x src (some o) t v) (h : Without x src o t v w) :
    (Tame x src (some o) t w ∨ (last = true ∨ t = .emptyStruct) ∧ TameDoc x src (some o) t w) ∧ ∀ V, HasTy t V → memberV x src o last t v V = memberV x src o last t w V := by
  rcases ht with ht | ⟨hc, ht⟩
  · have h1 := Drop.without_tame t hw ht h
    exact ⟨.inl h1, fun V hV => by rw [member_eq_dec ht, member_eq_dec h1]; exact Drop.dec_eq ho t hw ht h V hV⟩
  · obtain ⟨h1, h2⟩ := Drop.top_drop ho t hw ht h
    refine ⟨.inr ⟨hc, h1⟩, fun V hV => ?_⟩
    have : (last || t.isES) = true := by rcases hc with rfl | rfl <;> simp [Ty.isES]
    simp only [memberV, this, if_true]
    exact h2 V hV

theorem keeps_ok {ty : Ty} {r : R Val} {W : Val} (h : Keeps (HasTy ty) r) (e : r = .ok W) : HasTy ty W := by
  subst e; exact h

theorem drop_nil {x : Ext} {src : Bytes} {o : Options} {fs : List (Bytes × Nat × Ty)} {ms ms' : List ((Nat × Nat) × JVal)} (h : DropMembers x src o (fs.map (·.1)) (WithoutF x src o fs) ms ms') (hn : ms = []) : ms' = [] := by
  subst hn; exact h

theorem member_keeps {x : Ext} {src : Bytes} {o : Options} {last : Bool} {t : Ty} {v : JVal} {W : Val} (hT : HasTy t W) (h : Tame x src (some o) t v ∨ t = .emptyStruct) : Keeps (HasTy t) (memberV x src o last t v W) := by
  rcases h with h | rfl
  · rw [member_eq_dec h]; exact decV_keeps t hT
  · simp only [memberV, Ty.isES, Bool.or_true, if_true]
    cases v with
    | obj _ _ _ => exact hT
    | null i k | bool _ i k | num _ i k | str i k | arr i _ k =>
      simp only [decTopV]
      exact decV_keeps _ hT

theorem root_drop {x : Ext} {src : Bytes} {o : Options} (ho : o.disallowUnknownFields = false) {fs : List (Bytes × Nat × Ty)} :
    ∀ (ms ms' : List ((Nat × Nat) × JVal)), WfM src ms → DropMembers x src o (fs.map (·.1)) (WithoutF x src o fs) ms ms' → RootTame x src o fs ms →
      RootTame x src o fs ms' ∧ ∀ Ws, HasTyF fs Ws → rootV x src o fs ms Ws = rootV x src o fs ms' Ws
  | [], _, _, h, _ => by cases (h : _ = _); exact ⟨trivial, fun _ _ => rfl⟩
  | ((i, e), v) :: ms, ms', hw, h, ⟨h1, h2, h3⟩ => by
    have ih := fun ms'' h => root_drop ho ms ms'' hw.2.2 h h3
    rcases h with ⟨hk, h⟩ | ⟨w, ms'', rfl, hv, h⟩
    · obtain ⟨name, g1, g2⟩ := key_unknown (o := o) (k := (i, e)) hw.1 hk
      simp only [] at g1
      obtain ⟨i1, i2⟩ := ih _ h
      refine ⟨i1, fun Ws hT => ?_⟩
      rw [← i2 Ws hT]
      simp only [rootV, g1, g2, ho, Bool.false_eq_true, if_false]
      rcases h1 hk with h | h | h
      · rw [ho] at h; cases h
      · simp only [] at h; rw [if_pos h]
      · simp only [] at h
        simp only [h, Bool.false_eq_true, if_false]
        split <;> rfl
    · obtain ⟨i1, i2⟩ := ih _ h
      rcases (key_cases (x := x) (o := o) (names := fs.map (·.1)) (k := (i, e)) hw.1).symm with hk | ⟨j, hs⟩
      · have hvw : v = w := by
          rcases hv with hv | ⟨j, Q, hs, -⟩
          · exact hv
          · obtain ⟨n1, a1, a2⟩ := hk
            obtain ⟨n2, b1, b2⟩ := hs
            cases keyIs_unique a1 b1
            exact absurd b2 (a2 j)
        subst hvw
        obtain ⟨name, g1, g2⟩ := key_unknown (o := o) (k := (i, e)) hw.1 hk
        simp only [] at g1
        refine ⟨⟨h1, fun j f hs hf => ?_, i1⟩, fun Ws hT => ?_⟩
        · obtain ⟨n1, a1, a2⟩ := hk
          obtain ⟨n2, b1, b2⟩ := hs
          cases keyIs_unique a1 b1
          exact absurd b2 (a2 j)
        · simp only [rootV, g1, g2, ho, Bool.false_eq_true, if_false]
          split
          · exact i2 Ws hT
          · split
            · rfl
            · exact i2 Ws hT
      · obtain ⟨name, g1, g2⟩ := key_selects (o := o) (k := (i, e)) hw.1 hs
        simp only [] at g1
        have uniq : ∀ j', KeySelects x src o (fs.map (·.1)) (i, e) j' → j' = j := by
          intro j' hs'
          obtain ⟨name', g1', g2'⟩ := key_selects (o := o) (k := (i, e)) hw.1 hs'
          simp only [g1, Option.some.injEq] at g1'
          subst g1'
          rw [g2] at g2'
          cases g2'; rfl
        have hwo : ∀ f, fs[j]? = some f → Without x src o f.2.2 v w := by
          intro f hf
          rcases hv with hv | ⟨j', Q, hs', hQ, hq⟩
          · simp only [] at hv; subst hv; exact Drop.without_refl _
          · cases uniq j' hs'
            rw [Drop.withoutF_get, hf] at hQ
            simp only [Option.map_some, Option.some.injEq] at hQ
            subst hQ
            exact hq
        -- the value of the member
        have hval : ∀ f, fs[j]? = some f → (Tame x src (some o) f.2.2 w ∨ (ms'' = [] ∨ f.2.2 = .emptyStruct) ∧ TameDoc x src (some o) f.2.2 w) ∧
            ∀ V, HasTy f.2.2 V → memberV x src o ms.isEmpty f.2.2 v V = memberV x src o ms''.isEmpty f.2.2 w V := by
          intro f hf
          have hm := h2 j f hs hf
          simp only [] at hm
          obtain ⟨d1, d2⟩ := member_drop ho (last := ms.isEmpty) hw.2.1 (by simpa only [List.isEmpty_iff] using hm) (hwo f hf)
          simp only [List.isEmpty_iff] at d1
          constructor
          · rcases d1 with d1 | ⟨hc | hc, d1⟩
            · exact .inl d1
            · exact .inr ⟨.inl (drop_nil h hc), d1⟩
            · exact .inr ⟨.inr hc, d1⟩
          · intro V hV
            rw [d2 V hV]
            refine member_last (fun hl hes => ?_) (fun hl hes => ?_)
            · rcases d1 with d1 | ⟨hc | hc, -⟩
              · exact d1
              · subst hc; cases hl
              · exact absurd hc hes
            · rcases d1 with d1 | ⟨hc | hc, -⟩
              · exact d1
              · have := drop_nil h hc; subst this; cases hl
              · exact absurd hc hes
        refine ⟨⟨fun hk => ?_, fun j' f hs' hf => ?_, i1⟩, fun Ws hT => ?_⟩
        · obtain ⟨n1, a1, a2⟩ := hk
          obtain ⟨n2, b1, b2⟩ := hs
          cases keyIs_unique a1 b1
          exact absurd b2 (a2 j)
        · cases uniq j' hs'
          exact (hval f hf).1
        · simp only [rootV, g1, g2]
          cases hfj : fs[j]? with
          | none => rfl
          | some f =>
            obtain ⟨W, hW, hWT⟩ := hasTyF_get hT hfj
            simp only [hW, ← (hval f hfj).2 W hWT]
            by_cases hc : ms = [] ∨ f.2.2 = .emptyStruct
            · rcases hc with hc | hc
              · have := drop_nil h hc
                subst hc; subst this
                rfl
              · cases hr : memberV x src o ms.isEmpty f.2.2 v W with
                | ok W' =>
                  have : HasTy f.2.2 W' := by
                    have hr' := hr
                    rw [hc] at hWT ⊢
                    simp only [memberV, hc, Ty.isES, Bool.or_true, if_true] at hr'
                    cases v with
                    | obj _ _ _ => simp only [decTopV] at hr'; cases hr'; exact hWT
                    | null i k | bool _ i k | num _ i k | str i k | arr i _ k =>
                      have := fun v => decV_keeps (x := x) (src := src) (o := some o) .emptyStruct (v := v) hWT
                      exact keeps_ok (this _) (by simpa only [decTopV] using hr')
                  exact i2 _ (hasTyF_set hT hfj this)
                | _ => rfl
            · have hm := h2 j f hs hfj
              have hm : Tame x src (some o) f.2.2 v := hm.resolve_right fun h => hc h.1
              rw [member_eq_dec hm]
              have hkeep := decV_keeps (x := x) (src := src) (o := some o) f.2.2 (v := v) hWT
              cases hr : decV x src (some o) f.2.2 v W with
              | ok W' =>
                rw [hr] at hkeep
                exact i2 _ (hasTyF_set hT hfj hkeep)
              | _ => rfl

/-! ## Objects with one more member -/

theorem wfM_append {src : Bytes} : ∀ {ms ms' : List ((Nat × Nat) × JVal)}, WfM src (ms ++ ms') → WfM src ms ∧ WfM src ms'
  | [], _, h => ⟨trivial, h⟩
  | _ :: ms, ms', h => by
    obtain ⟨h1, h2, h3⟩ := h
    exact ⟨⟨h1, h2, (wfM_append h3).1⟩, (wfM_append h3).2⟩

theorem wfM_join {src : Bytes} : ∀ {ms ms' : List ((Nat × Nat) × JVal)}, WfM src ms → WfM src ms' → WfM src (ms ++ ms')
  | [], _, _, h => h
  | _ :: _, _, ⟨h1, h2, h3⟩, h => ⟨h1, h2, wfM_join h3 h⟩

theorem rootTame_left {x : Ext} {src : Bytes} {o : Options} {fs : List (Bytes × Nat × Ty)} {ms' : List ((Nat × Nat) × JVal)} : ∀ {ms : List ((Nat × Nat) × JVal)}, RootTame x src o fs (ms ++ ms') → RootTame x src o fs ms
  | [], _ => trivial
  | m :: ms, h => by
    obtain ⟨h1, h2, h3⟩ := h
    refine ⟨h1, fun j f hs hf => ?_, rootTame_left h3⟩
    rcases h2 j f hs hf with h | ⟨h | h, h'⟩
    · exact .inl h
    · exact .inr ⟨.inl (List.append_eq_nil_iff.1 h).1, h'⟩
    · exact .inr ⟨.inr h, h'⟩

theorem rootTame_right {x : Ext} {src : Bytes} {o : Options} {fs : List (Bytes × Nat × Ty)} {ms' : List ((Nat × Nat) × JVal)} : ∀ {ms : List ((Nat × Nat) × JVal)}, RootTame x src o fs (ms ++ ms') → RootTame x src o fs ms'
  | [], h => h
  | _ :: ms, h => rootTame_right (ms := ms) h.2.2

/-- The members before others are read as without them. -/
theorem rootV_append {x : Ext} {src : Bytes} {o : Options} {fs : List (Bytes × Nat × Ty)} {ms' : List ((Nat × Nat) × JVal)} (hne : ms' ≠ []) : ∀ {ms : List ((Nat × Nat) × JVal)} {Ws : List Val}, WfM src ms → RootTame x src o fs (ms ++ ms') →
    rootV x src o fs (ms ++ ms') Ws = match rootV x src o fs ms Ws with
      | .ok Ws1 => rootV x src o fs ms' Ws1
      | r => r
  | [], _, _, _ => rfl
  | ((i, e), v) :: ms, Ws, hw, ⟨h1, h2, h3⟩ => by
    have ih := fun Ws => rootV_append hne (ms := ms) (Ws := Ws) hw.2.2 h3
    simp only [List.cons_append, rootV]
    cases hn : (Model.slice src (i + 1) (e - 1)).bind (keyName o) with
    | none => rfl
    | some name =>
      simp only []
      cases hj : findField x o ((fs.map (·.1)).zipIdx) name with
      | none =>
        simp only []
        split
        · rfl
        · split
          · exact ih _
          · split
            · rfl
            · exact ih _
      | some j =>
        simp only []
        have hs : KeySelects x src o (fs.map (·.1)) (i, e) j := by
          rcases (key_cases (x := x) (o := o) (names := fs.map (·.1)) (k := (i, e)) hw.1).symm with hk | ⟨j', hs⟩
          · obtain ⟨name', g1, g2⟩ := key_unknown (o := o) (k := (i, e)) hw.1 hk
            simp only [hn, Option.some.injEq] at g1; subst g1
            rw [hj] at g2; cases g2
          · obtain ⟨name', g1, g2⟩ := key_selects (o := o) (k := (i, e)) hw.1 hs
            simp only [hn, Option.some.injEq] at g1; subst g1
            rw [hj] at g2; cases g2; exact hs
        cases hfj : fs[j]? with
        | none => rfl
        | some f =>
          cases hW : Ws[j]? with
          | none => rfl
          | some W =>
            simp only []
            have hnn : ms ++ ms' ≠ [] := fun h => hne (List.append_eq_nil_iff.1 h).2
            have hT := h2 j f hs hfj
            simp only [] at hT
            have : memberV x src o (ms ++ ms').isEmpty f.2.2 v W = memberV x src o ms.isEmpty f.2.2 v W := by
              refine member_last (fun _ hes => ?_) (fun _ hes => ?_)
              all_goals
                rcases hT with h | ⟨h | h, -⟩
                · exact h
                · exact absurd h hnn
                · exact absurd h hes
            rw [this]
            cases memberV x src o ms.isEmpty f.2.2 v W with
            | ok W' => exact ih _
            | _ => rfl

/-- An object for a `struct{}` field has no effect. -/
theorem root_cut {x : Ext} {src : Bytes} {o : Options} {fs : List (Bytes × Nat × Ty)} {k : Nat × Nat} {v : JVal} {ms' : List ((Nat × Nat) × JVal)} {j : Nat} {name : Bytes} {off : Nat}
    (hs : KeySelects x src o (fs.map (·.1)) k j) (hf : fs[j]? = some (name, off, .emptyStruct)) (hv : isObj v = true ∨ IsNull v) :
    ∀ {ms : List ((Nat × Nat) × JVal)}, WfM src (ms ++ (k, v) :: ms') → RootTame x src o fs (ms ++ (k, v) :: ms') →
      RootTame x src o fs (ms ++ ms') ∧ ∀ Ws, HasTyF fs Ws → rootV x src o fs (ms ++ (k, v) :: ms') Ws = rootV x src o fs (ms ++ ms') Ws
  | [], hw, ht => by
    refine ⟨ht.2.2, fun Ws hT => ?_⟩
    obtain ⟨nm, g1, g2⟩ := key_selects (o := o) (k := k) hw.1 hs
    obtain ⟨W, hW, -⟩ := hasTyF_get hT hf
    obtain ⟨k1, k2⟩ := k
    simp only [] at g1
    have hset : Ws.set j W = Ws := by
      apply List.ext_getElem?
      intro i
      rw [List.getElem?_set]
      split
      · rename_i h; subst h
        rw [hW]
        split
        · rfl
        · rename_i hlt; rw [List.getElem?_eq_none (by omega)] at hW; cases hW
      · rfl
    have hmem : memberV x src o ms'.isEmpty .emptyStruct v W = .ok W := by
      simp only [memberV, Ty.isES, Bool.or_true, if_true]
      rcases hv with h | ⟨i, q, rfl⟩
      · cases v <;> first | rfl | simp [isObj] at h
      · rfl
    simp only [List.nil_append, rootV, g1, g2, hf, hW, hmem, hset]
  | ((i, e), w) :: ms, hw, ⟨h1, h2, h3⟩ => by
    obtain ⟨i1, i2⟩ := root_cut hs hf hv (ms := ms) hw.2.2 h3
    have hnn : ms ++ (k, v) :: ms' ≠ [] := by simp
    refine ⟨⟨h1, fun j f hs hf => ?_, i1⟩, fun Ws hT => ?_⟩
    · rcases h2 j f hs hf with h | ⟨h | h, h'⟩
      · exact .inl h
      · exact absurd h hnn
      · exact .inr ⟨.inr h, h'⟩
    · simp only [List.cons_append]
      rcases (key_cases (x := x) (o := o) (names := fs.map (·.1)) (k := (i, e)) hw.1).symm with hk | ⟨j', hs'⟩
      · obtain ⟨nm, g1, g2⟩ := key_unknown (o := o) (k := (i, e)) hw.1 hk
        simp only [] at g1
        simp only [rootV, g1, g2]
        split
        · rfl
        · split
          · exact i2 Ws hT
          · split
            · rfl
            · exact i2 Ws hT
      · obtain ⟨nm, g1, g2⟩ := key_selects (o := o) (k := (i, e)) hw.1 hs'
        simp only [] at g1
        simp only [rootV, g1, g2]
        cases hfj : fs[j']? with
        | none => rfl
        | some f =>
          obtain ⟨W, hW, hWT⟩ := hasTyF_get hT hfj
          simp only [hW]
          have hT2 := h2 j' f hs' hfj
          simp only [] at hT2
          have : memberV x src o (ms ++ (k, v) :: ms').isEmpty f.2.2 w W = memberV x src o (ms ++ ms').isEmpty f.2.2 w W := by
            refine member_last (fun _ hes => ?_) (fun _ hes => ?_)
            all_goals
              rcases hT2 with h | ⟨h | h, -⟩
              · exact h
              · exact absurd h hnn
              · exact absurd h hes
          rw [this]
          have hk := member_keeps (src := src) (x := x) (o := o) (last := (ms ++ ms').isEmpty) (v := w) hWT (by
            rcases hT2 with h | ⟨h | h, -⟩
            · exact .inl h
            · exact absurd h hnn
            · exact .inr h)
          cases hr : memberV x src o (ms ++ ms').isEmpty f.2.2 w W with
          | ok W' =>
            rw [hr] at hk
            exact i2 _ (hasTyF_set hT hfj hk)
          | _ => rfl

end Verif.Proof.RootVal
