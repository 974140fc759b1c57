import Verif.Model.Mem
/-!
# Laws of addresses: reading, writing and composing paths
-/
namespace Verif.Proof.Mem
open Verif.Model

theorem seg_length (n : Nat) (c : Cell) : (seg n c).length = n := by
  cases n <;> simp [seg]

theorem zeros_length (n : Nat) : (zeros n).length = n := by simp [zeros]

theorem seg_head (n : Nat) (c : Cell) (h : 0 < n) : (seg n c)[0]? = some c := by
  cases n with
  | zero => omega
  | succ n => rfl

theorem blit_isSome {b : Block} {off : Nat} {s : Block} : (∃ b', blit b off s = some b') ↔ off + s.length ≤ b.length := by
  unfold blit
  split
  · simp_all
  · simp_all

theorem blit_length {b b' : Block} {off : Nat} {s : Block} (h : blit b off s = some b') : b'.length = b.length := by
  unfold blit at h
  split at h
  · cases h; simp; omega
  · cases h

theorem blit_get_lt {b b' : Block} {off : Nat} {s : Block} (h : blit b off s = some b') {i : Nat} (hi : i < off) : b'[i]? = b[i]? := by
  unfold blit at h
  split at h
  · cases h
    rw [List.append_assoc, List.getElem?_append_left (by simp; omega), List.getElem?_take_of_lt hi]
  · cases h

theorem blit_get_in {b b' : Block} {off : Nat} {s : Block} (h : blit b off s = some b') {i : Nat} (h1 : off ≤ i) (h2 : i < off + s.length) :
    b'[i]? = s[i - off]? := by
  unfold blit at h
  split at h
  · rename_i hle
    cases h
    have e : (b.take off).length = off := by simp; omega
    rw [List.append_assoc, List.getElem?_append_right (by omega), e, List.getElem?_append_left (by omega)]
  · cases h

theorem blit_get_ge {b b' : Block} {off : Nat} {s : Block} (h : blit b off s = some b') {i : Nat} (h1 : off + s.length ≤ i) :
    b'[i]? = b[i]? := by
  unfold blit at h
  split at h
  · rename_i hle
    cases h
    have e : (b.take off).length = off := by simp; omega
    rw [List.append_assoc, List.getElem?_append_right (by omega), e, List.getElem?_append_right (by omega), List.getElem?_drop]
    congr 1; omega
  · cases h

/-- Go's map keys that are `same` are interchangeable for look-ups. -/
theorem same_refl (k : Key) : k.same k = true := by cases k <;> simp [Key.same]

theorem lookup_put_self (k : Key) (b : Block) : ∀ es, lookupKey k es ≠ none → lookupKey k (putKey k b es) = some b := by
  intro es
  induction es with
  | nil => simp [lookupKey]
  | cons e es ih =>
    intro h
    by_cases hk : e.1.same k = true
    · simp [lookupKey, putKey, hk]
    · simp [lookupKey, putKey, hk] at h ⊢
      exact ih h

theorem put_put_self (k : Key) (b b' : Block) : ∀ es, putKey k b' (putKey k b es) = putKey k b' es := by
  intro es
  induction es with
  | nil => rfl
  | cons e es ih =>
    by_cases hk : e.1.same k = true
    · simp [putKey, hk]
    · simp [putKey, hk, ih]

theorem put_lookup (k : Key) (b : Block) : ∀ es, lookupKey k es = some b → putKey k b es = es := by
  intro es
  induction es with
  | nil => simp [putKey]
  | cons e es ih =>
    intro h
    by_cases hk : e.1.same k = true
    · simp [lookupKey, hk] at h
      simp [putKey, hk, ← h]
    · simp [lookupKey, hk] at h
      simp [putKey, hk, ih h]

theorem owned_set (c : Cell) (s : Sel) (b b' : Block) (h : ownedBlock c s = some b') : ownedBlock (setOwned c s b) s = some b := by
  cases c <;> cases s <;> simp [ownedBlock] at h <;> simp [ownedBlock, setOwned]
  rename_i es k
  exact lookup_put_self k b es (by rw [h]; simp)

theorem set_set (c : Cell) (s : Sel) (b b' : Block) : setOwned (setOwned c s b) s b' = setOwned c s b' := by
  cases c <;> cases s <;> simp [setOwned]
  exact put_put_self _ _ _ _

theorem set_owned (c : Cell) (s : Sel) (b : Block) (h : ownedBlock c s = some b) : setOwned c s b = c := by
  cases c <;> cases s <;> simp [ownedBlock] at h <;> simp [setOwned, h]
  exact put_lookup _ _ _ h

theorem getBlock_append (m : Block) (p q : List Step) : getBlock m (p ++ q) = (getBlock m p).bind fun b => getBlock b q := by
  induction p generalizing m with
  | nil => rfl
  | cons s p ih =>
    simp only [List.cons_append, getBlock]
    cases hc : m[s.off]? with
    | none => rfl
    | some c =>
      simp only []
      cases ho : ownedBlock c s.sel with
      | none => rfl
      | some b => simp only []; rw [ih]

/-- Replacing is possible wherever reading is. -/
theorem putBlock_total {m : Block} {p : List Step} {b : Block} (n : Block) (h : getBlock m p = some b) : ∃ m', putBlock m p n = some m' := by
  induction p generalizing m with
  | nil => exact ⟨n, rfl⟩
  | cons s p ih =>
    simp only [getBlock] at h
    simp only [putBlock]
    cases hc : m[s.off]? with
    | none => rw [hc] at h; cases h
    | some c =>
      rw [hc] at h
      simp only [] at h ⊢
      cases ho : ownedBlock c s.sel with
      | none => rw [ho] at h; cases h
      | some b =>
        rw [ho] at h
        obtain ⟨m', hm⟩ := ih h
        simp only []
        rw [hm]
        exact ⟨_, rfl⟩

/-- Get after put. -/
theorem get_put {m m' : Block} {p : List Step} {n : Block} (h : putBlock m p n = some m') : getBlock m' p = some n := by
  induction p generalizing m m' with
  | nil => simp [putBlock] at h; subst h; rfl
  | cons s p ih =>
    simp only [putBlock] at h
    cases hc : m[s.off]? with
    | none => rw [hc] at h; cases h
    | some c =>
      rw [hc] at h
      simp only [] at h
      cases ho : ownedBlock c s.sel with
      | none => rw [ho] at h; cases h
      | some b =>
        rw [ho] at h
        simp only [] at h
        cases hp : putBlock b p n with
        | none => rw [hp] at h; cases h
        | some b' =>
          rw [hp] at h
          simp only [] at h
          cases h
          have hlt : s.off < m.length := by
            rcases Nat.lt_or_ge s.off m.length with h | h
            · exact h
            · rw [List.getElem?_eq_none h] at hc; cases hc
          simp only [getBlock, List.getElem?_set_self hlt]
          rw [owned_set _ _ _ _ ho]
          exact ih hp

/-- Put after put. -/
theorem put_put {m m' : Block} {p : List Step} {n n' : Block} (h : putBlock m p n = some m') : putBlock m' p n' = putBlock m p n' := by
  induction p generalizing m m' with
  | nil => rfl
  | cons s p ih =>
    simp only [putBlock] at h
    cases hc : m[s.off]? with
    | none => rw [hc] at h; cases h
    | some c =>
      rw [hc] at h
      simp only [] at h
      cases ho : ownedBlock c s.sel with
      | none => rw [ho] at h; cases h
      | some b =>
        rw [ho] at h
        simp only [] at h
        cases hp : putBlock b p n with
        | none => rw [hp] at h; cases h
        | some b' =>
          rw [hp] at h
          simp only [] at h
          cases h
          have hlt : s.off < m.length := by
            rcases Nat.lt_or_ge s.off m.length with h | h
            · exact h
            · rw [List.getElem?_eq_none h] at hc; cases hc
          simp only [putBlock, List.getElem?_set_self hlt, hc, ho]
          rw [owned_set _ _ _ _ ho]
          simp only []
          rw [ih hp]
          cases putBlock b p n' with
          | none => rfl
          | some b'' => simp [set_set]

/-- Put what is there. -/
theorem put_get {m : Block} {p : List Step} {n : Block} (h : getBlock m p = some n) : putBlock m p n = some m := by
  induction p generalizing m with
  | nil => simp [getBlock] at h; subst h; rfl
  | cons s p ih =>
    simp only [getBlock] at h
    cases hc : m[s.off]? with
    | none => rw [hc] at h; cases h
    | some c =>
      rw [hc] at h
      simp only [] at h
      cases ho : ownedBlock c s.sel with
      | none => rw [ho] at h; cases h
      | some b =>
        rw [ho] at h
        simp only [] at h
        simp only [putBlock, hc, ho, ih h]
        rw [set_owned _ _ _ ho]
        congr 1
        have hlt : s.off < m.length := by
          rcases Nat.lt_or_ge s.off m.length with h | h
          · exact h
          · rw [List.getElem?_eq_none h] at hc; cases hc
        rw [List.getElem?_eq_getElem hlt] at hc
        cases hc
        exact List.set_getElem_self hlt

/-- Put at a composed path. -/
theorem putBlock_append {m b : Block} {p : List Step} (hb : getBlock m p = some b) (q : List Step) (n : Block) :
    putBlock m (p ++ q) n = (putBlock b q n).bind fun b' => putBlock m p b' := by
  induction p generalizing m with
  | nil => simp [getBlock] at hb; subst hb; cases h : putBlock m q n <;> simp [putBlock, h]
  | cons s p ih =>
    simp only [getBlock] at hb
    cases hc : m[s.off]? with
    | none => rw [hc] at hb; cases hb
    | some c =>
      rw [hc] at hb
      simp only [] at hb
      cases ho : ownedBlock c s.sel with
      | none => rw [ho] at hb; cases hb
      | some b0 =>
        rw [ho] at hb
        simp only [List.cons_append, putBlock, hc, ho]
        rw [ih hb]
        cases putBlock b q n <;> rfl

theorem putBlock_length {m m' : Block} {s : Step} {p : List Step} {n : Block} (h : putBlock m (s :: p) n = some m') : m'.length = m.length := by
  simp only [putBlock] at h
  split at h
  · cases h
  · split at h
    · cases h
    · split at h
      · cases h
      · cases h; simp

/-- A write at a pointer, relative to the block it points into. -/
theorem writeSeg_at {m b : Block} {p : List Step} (hb : getBlock m p = some b) (off : Nat) (s : Block) :
    writeSeg m (.at ⟨p, off⟩) s = (blit b off s).bind fun b' => putBlock m p b' := by
  simp [writeSeg, hb]

theorem readCell_at {m b : Block} {p : List Step} (hb : getBlock m p = some b) (off : Nat) :
    readCell m (.at ⟨p, off⟩) = b[off]? := by
  simp [readCell, hb]

theorem readSeg_at {m b : Block} {p : List Step} (hb : getBlock m p = some b) (off n : Nat) :
    readSeg m (.at ⟨p, off⟩) n = if off + n ≤ b.length then some ((b.drop off).take n) else none := by
  simp [readSeg, hb]

end Verif.Proof.Mem
