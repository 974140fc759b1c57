import Verif.Proof.SimRecObj
import Verif.Spec.Inside
/-!
# The token loop follows the type-directed reading: recursive structs inside other types
-/
namespace Verif.Proof.Sim
open Verif.Model Verif.Big Verif.Spec Verif.Proof.Mem Verif.Proof.Any Verif.Proof.Fields

/-- Recursive structs are at rest: their recursion stacks are empty and their offsets, unless they are elements, are the static ones. -/
def Idle (fr : List Frame) (d : Nat → Dyn) : Prop :=
  ∀ i f, fr[i]? = some f → f.type = .structRecur → (d i).rstack = [] ∧
    (∀ p g, f.parent = some p → fr[p]? = some g → g.type = .struct ∨ g.type = .map → (d i).offset = f.offset) ∧ (f.parent = none → (d i).offset = f.offset)

theorem Idle.congr {fr : List Frame} {d d' : Nat → Dyn} (h : Idle fr d)
    (hd : ∀ i f, fr[i]? = some f → f.type = .structRecur → (d' i).rstack = (d i).rstack ∧ (d' i).offset = (d i).offset) : Idle fr d' := by
  intro i f hf hty
  obtain ⟨h1, h2⟩ := hd i f hf hty
  rw [h1, h2]
  exact h i f hf hty

/-- Changes to frames of other types. -/
theorem Idle.upd_other {fr : List Frame} {d : Nat → Dyn} (h : Idle fr d) {i : Nat} {c : Frame} (hc : fr[i]? = some c) (hne : c.type ≠ .structRecur) (g : Dyn → Dyn) :
    Idle fr (upd d i g) :=
  h.congr fun j f hf hty => by
    have : j ≠ i := by rintro rfl; rw [hc] at hf; cases hf; exact hne hty
    simp only [upd, if_neg this, and_self]

/-- Changes of destinations. -/
theorem Idle.upd_dest {fr : List Frame} {d : Nat → Dyn} (h : Idle fr d) (i : Nat) {g : Dyn → Dyn}
    (ho : (g (d i)).offset = (d i).offset) (hr : (g (d i)).rstack = (d i).rstack) : Idle fr (upd d i g) :=
  h.congr fun j f hf hty => by
    by_cases hj : j = i
    · subst hj; simp only [upd, if_pos]; exact ⟨hr, ho⟩
    · simp only [upd, if_neg hj, and_self]

theorem Idle.setFields {fr : List Frame} {d : Nat → Dyn} (h : Idle fr d) (p : Ptr) (fs : List (Bytes × Nat)) : Idle fr (setFieldDests p fs d) :=
  h.congr fun j f hf hty => by
    rw [setFieldDests_eq]
    split <;> exact ⟨rfl, rfl⟩

/-- No frame in the range is a recursive struct. -/
def NoRec (fr : List Frame) (lo hi : Nat) : Prop := ∀ j, lo ≤ j → j < hi → ∀ f, fr[j]? = some f → f.type ≠ .structRecur

theorem NoRec.one {fr : List Frame} {b : Nat} {f : Frame} (hf : fr[b]? = some f) (hne : f.type ≠ .structRecur) : NoRec fr b (b + 1) := by
  intro j h1 h2 g hg
  have : j = b := by omega
  subst this; rw [hf] at hg; cases hg; exact hne

theorem NoRec.app {fr : List Frame} {lo mid hi : Nat} (h1 : NoRec fr lo mid) (h2 : NoRec fr mid hi) : NoRec fr lo hi := by
  intro j a b f hf
  rcases Nat.lt_or_ge j mid with h | h
  · exact h1 j a h f hf
  · exact h2 j h b f hf

theorem keyRep_norec {k : KeyTy} {f : Frame} (h : k.Rep f) : f.type ≠ .structRecur := by
  cases k <;> simp only [KeyTy.Rep] at h
  case str => rw [h]; simp
  case int => rw [h]; simp
  case text => rw [h.1]; simp
  case other => intro hc; rw [hc] at h; simp [plainType] at h

mutual
theorem rep_norec {x : Ext} {fr : List Frame} : ∀ {ty : Ty} {b : Nat}, Rep x fr ty b → NoRec fr b (b + ty.width)
  | .array n e, b, h => by
    obtain ⟨⟨f, hf, hty, -⟩, -, -, hre⟩ := h
    simp only [Ty.width]
    rw [← Nat.add_assoc]
    exact (NoRec.one hf (by rw [hty]; simp)).app (rep_norec (ty := e) hre)
  | .slice e, b, h => by
    obtain ⟨⟨f, hf, hty, -⟩, -, hre⟩ := h
    simp only [Ty.width]
    rw [← Nat.add_assoc]
    exact (NoRec.one hf (by rw [hty]; simp)).app (rep_norec (ty := e) hre)
  | .ptr e, b, h => by
    obtain ⟨⟨f, hf, hty, -⟩, -, hre⟩ := h
    simp only [Ty.width]
    rw [← Nat.add_assoc]
    exact (NoRec.one hf (by rw [hty]; simp)).app (rep_norec (ty := e) hre)
  | .map k e, b, h => by
    obtain ⟨⟨f, hf, hty, -⟩, ⟨fk, hfk, -, hk⟩, -, hre⟩ := h
    simp only [Ty.width]
    rw [← Nat.add_assoc]
    exact ((NoRec.one hf (by rw [hty]; simp)).app (NoRec.one hfk (keyRep_norec hk))).app (rep_norec (ty := e) hre)
  | .struct size fs, b, h => by
    obtain ⟨f, hf, hty, -, hre⟩ := h
    simp only [Ty.width]
    rw [← Nat.add_assoc]
    exact (NoRec.one hf (by rw [hty]; simp)).app (repF_norec (fs := fs) hre)
  | .any, b, h => by obtain ⟨f, hf, hty, -⟩ := h.frame; exact NoRec.one hf (by rw [hty]; exact etype_ne _)
  | .number, b, h => by obtain ⟨f, hf, hty, -⟩ := h.frame; exact NoRec.one hf (by rw [hty]; exact etype_ne _)
  | .scalar _, b, h => by obtain ⟨f, hf, hty, -⟩ := h.frame; exact NoRec.one hf (by rw [hty]; exact etype_ne _)
  | .quoted _, b, h => by obtain ⟨f, hf, hty, -⟩ := h.frame; exact NoRec.one hf (by rw [hty]; exact etype_ne _)
  | .jsonU _ _ _, b, h => by obtain ⟨f, hf, hty, -⟩ := h.frame; exact NoRec.one hf (by rw [hty]; exact etype_ne _)
  | .textU _ _ _, b, h => by obtain ⟨f, hf, hty, -⟩ := h.frame; exact NoRec.one hf (by rw [hty]; exact etype_ne _)
  | .array0, b, h => by obtain ⟨f, hf, hty, -⟩ := h.frame; exact NoRec.one hf (by rw [hty]; exact etype_ne _)
  | .sliceOf _, b, h => by obtain ⟨f, hf, hty, -⟩ := h.frame; exact NoRec.one hf (by rw [hty]; exact etype_ne _)
  | .sliceES, b, h => by obtain ⟨f, hf, hty, -⟩ := h.frame; exact NoRec.one hf (by rw [hty]; exact etype_ne _)
  | .mapSS, b, h => by obtain ⟨f, hf, hty, -⟩ := h.frame; exact NoRec.one hf (by rw [hty]; exact etype_ne _)
  | .emptyStruct, b, h => by obtain ⟨f, hf, hty, -⟩ := h.frame; exact NoRec.one hf (by rw [hty]; exact etype_ne _)
theorem repF_norec {x : Ext} {fr : List Frame} : ∀ {fs : List (Bytes × Nat × Ty)} {b pos : Nat} {tbl : List (Bytes × Nat)},
    RepFields x fr b fs pos tbl → NoRec fr pos (pos + widthF fs)
  | [], b, pos, tbl, h => by intro j h1 h2; simp only [widthF] at h2; omega
  | (n, o, t) :: fs, b, pos, tbl, h => by
    simp only [RepFields] at h
    obtain ⟨tbl', -, -, hr, h'⟩ := h
    simp only [widthF]
    rw [← Nat.add_assoc]
    exact (rep_norec (ty := t) hr).app (repF_norec (fs := fs) h')
end

theorem rfield_norec {x : Ext} {fr : List Frame} {r size p : Nat} : ∀ {t : RField}, t.Rep x fr r size p → NoRec fr p (p + t.width)
  | .plain t, h => rep_norec (ty := t) h
  | .ptr, h => by obtain ⟨f, hf, hty, -⟩ := h; exact NoRec.one hf (by rw [hty]; simp)
  | .slice, h => by obtain ⟨f, hf, hty, -⟩ := h; exact NoRec.one hf (by rw [hty]; simp)
  | .map k, h => by
    obtain ⟨⟨f, hf, hty, -⟩, ⟨fk, hfk, -, hk⟩⟩ := h
    exact (NoRec.one hf (by rw [hty]; simp)).app (NoRec.one hfk (keyRep_norec hk))

theorem repR_norec {x : Ext} {fr : List Frame} {r size : Nat} : ∀ {fs : RFields} {pos : Nat} {tbl : List (Bytes × Nat)},
    RepR x fr r size fs pos tbl → NoRec fr pos (pos + widthR fs)
  | [], pos, tbl, h => by intro j h1 h2; simp only [widthR] at h2; omega
  | (n, o, t) :: fs, pos, tbl, h => by
    simp only [RepR] at h
    obtain ⟨tbl', -, -, hr, h'⟩ := h
    simp only [widthR]
    rw [← Nat.add_assoc]
    exact (rfield_norec hr).app (repR_norec h')

/-- What the machine does with a value; the recursive structs are at rest afterwards. -/
def PostX (pr : Prog) (s : St) (b w : Nat) (path : List Step) (n : Nat) (r : Res) : Prop :=
  PostQ pr s .valEnd b (fun j => ¬ (b < j ∧ j < b + w)) (fun s' => Idle pr.frames s'.dyn) path n r

/-- The simulation statement for a decoder `g` at a frame, on the documents `T`. -/
def SimX (pr : Prog) (b w : Nat) (g : JVal → Block → Nat → Res) (T : Bool → JVal → Prop) : Prop :=
  ∀ s v path off blk rest z, Pre pr s b path off blk v rest → Idle pr.frames s.dyn → (z = true → (s.dyn b).offset = 0) → T z v →
    PostX pr s b w path (flatten s.ti v).length (g v blk off)

/-- From a value that keeps the recursive structs at rest. -/
theorem postX_of {pr : Prog} {s : St} {b w : Nat} {path : List Step} {n : Nat} {r : Res} (hi : Idle pr.frames s.dyn) (hn : NoRec pr.frames (b + 1) (b + w))
    (h : Post pr s b w path n r) : PostX pr s b w path n r := by
  cases r with
  | ok blk' =>
    obtain ⟨s', h1, h2, h3, h4, h5, h6, h7⟩ := h
    refine ⟨s', h1, h2, h3, h4, h5, h6, h7, hi.congr fun j f hf hty => ?_⟩
    rw [h6 j (fun hj => hn j (by omega) hj.2 f hf hty)]
    exact ⟨rfl, rfl⟩
  | _ => exact h

theorem post_widen0 {pr : Prog} {s : St} {b w : Nat} {path : List Step} {n : Nat} {r : Res} (hi : Idle pr.frames s.dyn)
    (h : Post pr s b 0 path n r) : PostX pr s b w path n r := by
  have := postX_of hi (fun j h1 h2 => by omega) h
  cases r with
  | ok blk' =>
    obtain ⟨s', h1, h2, h3, h4, h5, h6, h7⟩ := this
    exact ⟨s', h1, h2, h3, h4, h5, fun j hj => h6 j (by omega), h7⟩
  | _ => exact this

theorem simX_plain {pr : Prog} {ty : Ty} {b : Nat} (hr : Rep pr.x pr.frames ty b) (T : Bool → JVal → Prop) :
    SimX pr b ty.width (dec pr.x pr.src pr.options ty) T := by
  intro s v path off blk rest z h hi hz ht
  refine postX_of hi (fun j h1 h2 => rep_norec hr j (by omega) h2) (sim hr s v path off blk rest h)

theorem add_zero {p : Ptr} {a : Addr} (h : p.add 0 = .at a) : p = .at a := by
  cases p with
  | «at» a => simpa [Ptr.add] using h
  | nil => simp [Ptr.add] at h
  | stale => simp [Ptr.add] at h

theorem simX_self {pr : Prog} {size : Nat} {fs : RFields} {r : Nat} (hr : RepRec pr.x pr.frames size fs r) (n : Nat) :
    SimX pr r (1 + widthR fs) (decR pr.x pr.src pr.options size fs n) (fun z v => TameR pr.x pr.src pr.options fs n z z v) := by
  obtain ⟨f, hf, hty, hsz, hrf⟩ := hr
  have hr : RecAt pr size fs r f := ⟨hf, hty, hsz, hrf⟩
  intro s v path off blk rest z h hi hz ht
  by_cases hn : IsNull v
  · obtain ⟨i, e, rfl⟩ := hn
    cases n with
    | zero => exact absurd ht id
    | succ n =>
    simp only [decR]
    have := sim_leaf (w := 0) (rt := none) (size := 0) (impl := false) h hr.hf rfl (by rw [hr.hty]; simp)
    rw [hr.hty, leaf_structRecur] at this
    exact post_widen0 hi this
  · have hv := val_of_obj hr (obj_sim hr n) s v path off blk rest z z h
      (fun h1 => by have := h.p; rw [hz h1] at this; exact add_zero this) hz hn ht
    refine PostQ.then hv ?_
    intro s1 h1 h2 h3 h4 h6 h7 _
    have hdr : s1.dyn r = s.dyn r := h6 r (K₀_iff.2 (.inl rfl))
    have hst : step pr s1 = onRecurObjEnd pr s1 f := by simp [step, h2, h3, hr.hf]
    simp only [onRecurObjEnd, h3, hdr, (hi r f hf hty).1] at hst
    refine ⟨_, Reach.one hst, rfl, rfl, h4, rfl, ?_, h7, ?_⟩
    · intro j hj
      exact h6 j (by unfold K₀; omega)
    · refine hi.congr fun j g hg hgt => ?_
      have : K₀ r fs j := by
        intro hj
        exact repR_norec hrf j (by omega) hj.2 g hg hgt
      simp only []
      rw [h6 j this]
      exact ⟨rfl, rfl⟩

end Verif.Proof.Sim
