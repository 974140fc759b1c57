import Verif.Spec.Covered
import Verif.Proof.FiniteTypes
import Verif.Proof.Types
import Verif.Proof.Val
/-!
# Names of fields, and ignored fields
-/
namespace Verif.Proof.Ignored
open Verif.Model Verif.Spec Verif.Big Verif.Proof Verif.Proof.TypeGraph Verif.Proof.Types

theorem withString_fieldTy {allow str : Bool} {ty ty' : Ty} (h : withString allow str ty = some ty') : ty' = fieldTy str ty := by
  cases str with
  | false => simp only [withString, Option.some.injEq] at h; subst h; cases ty <;> rfl
  | true => cases ty <;> simp [withString, fieldTy] at h ⊢ <;> first | exact h.symm | exact h.2.symm

theorem fieldTy_size {x : Ext} {str : Bool} {ty : Ty} : (fieldTy str ty).size x = ty.size x := by
  cases str <;> cases ty <;> rfl

theorem fieldTy_cov {x : Ext} {str : Bool} {ty : Ty} {off j : Nat} : Covered x (fieldTy str ty) off j ↔ Covered x ty off j := by
  cases str <;> cases ty <;> simp [fieldTy, Covered, Ty.size]

theorem fieldTrees_of {tree : List TypeId → TypeId → Option (Ty × List TypeId)} {allow : Bool} : ∀ (fs : List FieldInfo) (seen : List TypeId) {l : List (Bytes × Nat × Ty)} {seen' : List TypeId},
    fieldTrees tree allow seen fs = some (l, seen') → FieldsOf (fun t ty => ∃ a b, tree a t = some (ty, b)) fs l
  | [], seen, l, seen', h => by simp only [fieldTrees, Option.some.injEq, Prod.mk.injEq] at h; rw [← h.1]; exact .nil
  | f :: fs, seen, l, seen', h => by
    simp only [fieldTrees] at h
    split at h
    · rename_i ht; exact .ignored (tag_iff.2 ht) (fieldTrees_of fs _ h)
    · rename_i name str ht
      split at h
      · cases h
      · rename_i ty s1 hty
        split at h
        · cases h
        · rename_i ty' hw
          rw [Option.map_eq_some_iff] at h
          obtain ⟨⟨l', s2⟩, h1, h2⟩ := h
          cases h2
          rw [withString_fieldTy hw]
          exact .field (tag_iff.2 ht) ⟨_, _, hty⟩ (fieldTrees_of fs _ h1)

theorem FieldsOf.mono {P Q : TypeId → Ty → Prop} {fs : List FieldInfo} {l : List (Bytes × Nat × Ty)} (hPQ : ∀ f ∈ fs, ∀ ty, P f.type ty → Q f.type ty) (h : FieldsOf P fs l) : FieldsOf Q fs l := by
  induction h with
  | nil => exact .nil
  | ignored ht _ ih => exact .ignored ht (ih fun f hf => hPQ f (List.mem_cons_of_mem _ hf))
  | field ht hty _ ih => exact .field ht (hPQ _ List.mem_cons_self _ hty) (ih fun f hf => hPQ f (List.mem_cons_of_mem _ hf))

mutual
theorem cov_range {x : Ext} : ∀ (ty : Ty) {off j : Nat}, OK x ty → Covered x ty off j → off ≤ j ∧ j < off + ty.size x
  | .struct size fs, off, j, hok, h => by simp only [Ty.size]; exact cov_rangeF fs hok h
  | .array n e, off, j, hok, h => by
    simp only [Covered] at h
    obtain ⟨i, hi, h⟩ := h
    have := cov_range e (by simpa only [OK] using hok) h
    have h2 : (i + 1) * e.size x ≤ n * e.size x := Nat.mul_le_mul_right _ hi
    rw [Nat.add_mul] at h2
    simp only [Ty.size]
    omega
  | .any, off, j, hok, h => h
  | .number, off, j, hok, h => h
  | .scalar k, off, j, hok, h => h
  | .quoted k, off, j, hok, h => h
  | .jsonU a c d, off, j, hok, h => h
  | .textU a c d, off, j, hok, h => h
  | .array0, off, j, hok, h => h
  | .emptyStruct, off, j, hok, h => h
  | .sliceOf k, off, j, hok, h => h
  | .sliceES, off, j, hok, h => h
  | .mapSS, off, j, hok, h => h
  | .slice e, off, j, hok, h => h
  | .map k e, off, j, hok, h => h
  | .ptr e, off, j, hok, h => h
theorem cov_rangeF {x : Ext} : ∀ (fs : List (Bytes × Nat × Ty)) {size off j : Nat}, OKF x size fs → CoveredF x fs off j → off ≤ j ∧ j < off + size
  | [], size, off, j, hok, h => h.elim
  | (n, fo, t) :: fs, size, off, j, hok, h => by
    simp only [OKF] at hok
    rcases h with h | h
    · have := cov_range t hok.2.1 h; omega
    · exact cov_rangeF fs hok.2.2.2 h
end

/-- A covered byte of a struct belongs to one of the fields that are not ignored. -/
theorem covF_field {x : Ext} {P : TypeId → Ty → Prop} {fs : List FieldInfo} {l : List (Bytes × Nat × Ty)} (h : FieldsOf P fs l) {off j : Nat} (hc : CoveredF x l off j) :
    ∃ f ∈ fs, ∃ r ty, TagMeans f.name f.tag (some r) ∧ P f.type ty ∧ Covered x ty (off + f.offset) j := by
  induction h with
  | nil => exact hc.elim
  | ignored ht _ ih =>
    obtain ⟨f, hf, r, ty, h⟩ := ih hc
    exact ⟨f, List.mem_cons_of_mem _ hf, r, ty, h⟩
  | @field f fs l name str ty ht hty _ ih =>
    rcases hc with hc | hc
    · exact ⟨f, List.mem_cons_self, _, ty, ht, hty, fieldTy_cov.1 hc⟩
    · obtain ⟨f, hf, r, ty, h⟩ := ih hc
      exact ⟨f, List.mem_cons_of_mem _ hf, r, ty, h⟩

/-- Fields do not overlap. -/
theorem fieldsIn_disj {env : TypeEnv} {size : Nat} : ∀ {fs : List FieldInfo}, Layout.FieldsIn env size fs → ∀ f ∈ fs, ∀ g ∈ fs, f = g ∨ f.offset + (env f.type).size ≤ g.offset ∨ g.offset + (env g.type).size ≤ f.offset
  | a :: fs, ⟨_, h2, h3⟩, f, hf, g, hg => by
    rcases List.mem_cons.1 hf with hf | hf <;> rcases List.mem_cons.1 hg with hg | hg
    · exact .inl (hf.trans hg.symm)
    · exact .inr (hf ▸ h2 g hg)
    · exact .inr (hg ▸ h2 f hf).symm
    · exact fieldsIn_disj h3 f hf g hg

theorem tree_range {env : TypeEnv} {x : Ext} (hL : Layout env x) {allow : Bool} {d : Nat} {seen seen' : List TypeId} {t : TypeId} {ty : Ty} (h : typeTree env allow d seen t = some (ty, seen')) :
    ty.size x = (env t).size ∧ OK x ty := by
  obtain ⟨root, tl, hb⟩ := tree_built hL (opts := some ⟨false⟩) (fun _ => ⟨_, rfl, rfl⟩) d seen t ty seen' [] h (by intro f hf; cases hf)
  exact ⟨hb.size, hb.ok⟩

theorem fieldsIn_mem {env : TypeEnv} {size : Nat} : ∀ {fs : List FieldInfo}, Layout.FieldsIn env size fs → ∀ f ∈ fs, f.offset + (env f.type).size ≤ size
  | a :: fs, ⟨h1, _, h3⟩, f, hf => by
    rcases List.mem_cons.1 hf with rfl | hf
    · exact h1
    · exact fieldsIn_mem h3 f hf

theorem ignored_range {env : TypeEnv} {x : Ext} (hL : Layout env x) {t : TypeId} {off j : Nat} (h : Ignored env t off j) : off ≤ j ∧ j < off + (env t).size := by
  induction h with
  | @here t f off j hu hk hf ht h1 h2 =>
    have hl := hL t
    rw [hk] at hl
    have := fieldsIn_mem hl.2 f hf
    omega
  | @field t f r off j hu hk hf ht hi ih =>
    have hl := hL t
    rw [hk] at hl
    have := fieldsIn_mem hl.2 f hf
    omega
  | @elem t i off j hu hk hlt hi ih =>
    have hl := hL t
    rw [hk] at hl
    simp only [] at hl
    have h2 : (i + 1) * (env (env t).elem).size ≤ (env t).len * (env (env t).elem).size := Nat.mul_le_mul_right _ hlt
    rw [Nat.add_mul] at h2
    omega

theorem ignored_not_cov {env : TypeEnv} {x : Ext} (hL : Layout env x) {allow : Bool} : ∀ (depth : Nat) (seen : List TypeId) (t : TypeId) (ty : Ty) (seen' : List TypeId) (off j : Nat),
    typeTree env allow depth seen t = some (ty, seen') → Ignored env t off j → ¬ Covered x ty off j := by
  intro depth
  induction depth with
  | zero => intro seen t ty seen' off j h; cases h
  | succ d ih =>
    have range : ∀ (seen : List TypeId) (t : TypeId) (ty : Ty) (seen' : List TypeId) (off j : Nat), typeTree env allow d seen t = some (ty, seen') → Covered x ty off j → off ≤ j ∧ j < off + (env t).size := by
      intro seen t ty seen' off j h hc
      obtain ⟨h1, h2⟩ := tree_range hL h
      rw [← h1]
      exact cov_range ty h2 hc
    intro seen t ty seen' off j h hi hc
    have struct : TypeInfo.unmarshaler (env t) = false → (env t).kind = .struct → (env t).fields ≠ [] →
        ∃ f ∈ (env t).fields, ∃ r ty', TagMeans f.name f.tag (some r) ∧ (∃ a b, typeTree env allow d a f.type = some (ty', b)) ∧ Covered x ty' (off + f.offset) j := by
      intro hu hk hne
      have hu : (env t).implJSON = false ∧ (env t).implText = false := by simpa [TypeInfo.unmarshaler] using hu
      simp only [typeTree, hu.1, hu.2, hk, hne, if_false, Bool.false_eq_true] at h
      rw [Option.map_eq_some_iff] at h
      obtain ⟨⟨l, s⟩, h1, h2⟩ := h
      cases h2
      exact covF_field (fieldTrees_of _ _ h1) hc
    have hlay := hL t
    cases hi with
    | @here _ f _ _ hu hk hf ht h1 h2 =>
      obtain ⟨g, hg, r, ty', htg, ⟨a, b, htr⟩, hcov⟩ := struct hu hk (fun hc => by rw [hc] at hf; cases hf)
      have hr := range _ _ _ _ _ _ htr hcov
      rw [hk] at hlay
      rcases fieldsIn_disj hlay.2 f hf g hg with rfl | h | h
      · cases tag_unique ht htg
      · omega
      · omega
    | @field _ f r' _ _ hu hk hf ht hi =>
      obtain ⟨g, hg, r, ty', htg, ⟨a, b, htr⟩, hcov⟩ := struct hu hk (fun hc => by rw [hc] at hf; cases hf)
      have hr := range _ _ _ _ _ _ htr hcov
      rw [hk] at hlay
      rcases fieldsIn_disj hlay.2 f hf g hg with rfl | h | h
      · exact ih _ _ _ _ _ _ htr hi hcov
      all_goals
        have hr' := ignored_range hL hi
        omega
    | @elem _ i _ _ hu hk hlt hi =>
      have hu : (env t).implJSON = false ∧ (env t).implText = false := by simpa [TypeInfo.unmarshaler] using hu
      have hl0 : (env t).len ≠ 0 := by omega
      simp only [typeTree, hu.1, hu.2, hk, hl0, if_false, Bool.false_eq_true] at h
      rw [Option.map_eq_some_iff] at h
      obtain ⟨⟨e, s⟩, h1, h2⟩ := h
      cases h2
      simp only [Covered] at hc
      obtain ⟨i', hi', hc⟩ := hc
      have hr := range _ _ _ _ _ _ h1 hc
      rw [(tree_range hL h1).1] at hc hr
      have hr' := ignored_range hL hi
      have : i = i' := by
        rcases Nat.lt_trichotomy i i' with h | h | h
        · have h2 : (i + 1) * (env (env t).elem).size ≤ i' * (env (env t).elem).size := Nat.mul_le_mul_right _ h
          rw [Nat.add_mul] at h2
          omega
        · exact h
        · have h2 : (i' + 1) * (env (env t).elem).size ≤ i * (env (env t).elem).size := Nat.mul_le_mul_right _ h
          rw [Nat.add_mul] at h2
          omega
      subst this
      exact ih _ _ _ _ _ _ h1 hi hc

end Verif.Proof.Ignored
