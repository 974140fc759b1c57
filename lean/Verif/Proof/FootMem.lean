import Verif.Spec.Footprint
import Verif.Proof.Mem
/-!
# Footprints of memory operations
-/
namespace Verif.Proof.Foot
open Verif.Model Verif.Spec

theorem foot_append : ∀ (a b : List Cell), footprint (a ++ b) = footprint a + footprint b
  | [], b => by simp [footprint]
  | c :: a, b => by simp [footprint, foot_append a b, Nat.add_assoc]

theorem foot_rep (n : Nat) {c : Cell} (h : cellBytes c = 0) : footprint (List.replicate n c) = 0 := by
  induction n with
  | zero => simp [footprint]
  | succ n ih => simp [List.replicate_succ, footprint, ih, h]

theorem foot_zeros (n : Nat) : footprint (zeros n) = 0 := foot_rep n (by simp [cellBytes])

theorem foot_seg (n : Nat) (c : Cell) : footprint (seg n c) ≤ cellBytes c := by
  cases n with
  | zero => simp [seg, footprint]
  | succ n => simp [seg, footprint, foot_rep n (c := .pad) (by simp [cellBytes])]

theorem foot_take_drop (b : List Cell) (n : Nat) : footprint (b.take n) + footprint (b.drop n) = footprint b := by
  rw [← foot_append, List.take_append_drop]

theorem foot_take (b : List Cell) (n : Nat) : footprint (b.take n) ≤ footprint b := by
  have := foot_take_drop b n; omega

theorem foot_fit (n : Nat) (b : Block) : footprint (fit n b) ≤ footprint b := by
  have := foot_take (b ++ zeros n) n
  rw [foot_append, foot_zeros] at this
  exact this

theorem foot_get {b : List Cell} {i : Nat} {c : Cell} (h : b[i]? = some c) : cellBytes c ≤ footprint b := by
  induction b generalizing i with
  | nil => simp at h
  | cons a b ih =>
    cases i with
    | zero => simp at h; subst h; simp [footprint]
    | succ i => simp at h; have := ih h; simp only [footprint]; omega

theorem foot_set {b : List Cell} {i : Nat} {c : Cell} (c' : Cell) (h : b[i]? = some c) : footprint (b.set i c') + cellBytes c = footprint b + cellBytes c' := by
  induction b generalizing i with
  | nil => simp at h
  | cons a b ih =>
    cases i with
    | zero => simp at h; subst h; simp only [List.set_cons_zero, footprint]; omega
    | succ i => simp at h; have := ih h; simp only [List.set_cons_succ, footprint]; omega

theorem foot_blit {b b' : Block} {off : Nat} {s : Block} (h : blit b off s = some b') :
    footprint b' + footprint ((b.drop off).take s.length) = footprint b + footprint s := by
  unfold blit at h
  split at h <;> cases h
  have h1 := foot_take_drop b off
  have h2 := foot_take_drop (b.drop off) s.length
  rw [List.drop_drop] at h2
  simp only [foot_append]
  omega

theorem entry_append : ∀ (a b : List (Key × List Cell)), entryBytes (a ++ b) = entryBytes a + entryBytes b
  | [], b => by simp [entryBytes]
  | (k, c) :: a, b => by simp only [List.cons_append, entryBytes, entry_append a b]; omega

theorem entry_put {k : Key} {b b' : Block} : ∀ {es : List (Key × Block)}, lookupKey k es = some b → b'.length = b.length →
    entryBytes (putKey k b' es) + footprint b = entryBytes es + footprint b'
  | [], h, _ => by simp [lookupKey] at h
  | e :: es, h, hl => by
    simp only [lookupKey, putKey] at *
    split at h
    · rename_i hs
      cases h
      rw [if_pos hs]
      simp only [entryBytes]; omega
    · rename_i hs
      rw [if_neg hs]
      have := entry_put h hl
      simp only [entryBytes]; omega

theorem owned_foot {c : Cell} {s : Sel} {b b' : Block} (h : ownedBlock c s = some b) (hl : b'.length = b.length) :
    cellBytes (setOwned c s b') + footprint b = cellBytes c + footprint b' := by
  unfold ownedBlock at h
  split at h
  · cases h; simp only [setOwned, cellBytes]; omega
  · cases h; simp only [setOwned, cellBytes]; omega
  · simp only [setOwned, cellBytes]; exact entry_put h hl
  · cases h

theorem owned_le {c : Cell} {s : Sel} {b : Block} (h : ownedBlock c s = some b) : footprint b ≤ cellBytes c := by
  have := owned_foot (b' := zeros b.length) h (by simp [zeros])
  rw [foot_zeros] at this
  omega

theorem get_foot {m b : Block} {p : List Step} (h : getBlock m p = some b) : footprint b ≤ footprint m := by
  induction p generalizing m with
  | nil => simp [getBlock] at h; subst h; exact Nat.le_refl _
  | cons s p ih =>
    simp only [getBlock] at h
    split at h
    · cases h
    · rename_i c hc
      split at h
      · cases h
      · rename_i b1 hb
        exact Nat.le_trans (ih h) (Nat.le_trans (owned_le hb) (foot_get hc))

theorem put_foot {m m' b n : Block} {p : List Step} (hg : getBlock m p = some b) (hl : n.length = b.length) (h : putBlock m p n = some m') :
    footprint m' + footprint b = footprint m + footprint n ∧ m'.length = m.length := by
  induction p generalizing m m' with
  | nil => simp [getBlock, putBlock] at hg h; subst hg h; exact ⟨by omega, hl⟩
  | cons s p ih =>
    simp only [getBlock, putBlock] at hg h
    cases hc : m[s.off]? with
    | none => rw [hc] at h; cases h
    | some c =>
      rw [hc] at h hg
      simp only at h hg
      cases hb : ownedBlock c s.sel with
      | none => rw [hb] at h; cases h
      | some b1 =>
        rw [hb] at h hg
        simp only at h hg
        cases hp : putBlock b1 p n with
        | none => rw [hp] at h; cases h
        | some b2 =>
          rw [hp] at h
          cases h
          obtain ⟨h1, h2⟩ := ih hg hp
          have h3 := owned_foot hb h2
          have h4 := foot_set (setOwned c s.sel b2) hc
          exact ⟨by omega, by simp⟩

/-- Writing replaces what was there. -/
theorem write_foot {m m' : Block} {p : Ptr} {s : Block} (h : writeSeg m p s = some m') :
    ∃ old, readSeg m p s.length = some old ∧ footprint m' + footprint old = footprint m + footprint s ∧ m'.length = m.length := by
  unfold writeSeg at h
  split at h
  · rename_i a
    cases hg : getBlock m a.path with
    | none => rw [hg] at h; cases h
    | some b =>
      rw [hg] at h
      simp only [Option.bind_some] at h
      cases hb : blit b a.off s with
      | none => rw [hb] at h; cases h
      | some b' =>
        rw [hb] at h
        simp only [Option.bind_some] at h
        have h1 := foot_blit hb
        obtain ⟨h2, h3⟩ := put_foot hg (Mem.blit_length hb) h
        refine ⟨(b.drop a.off).take s.length, ?_, by omega, h3⟩
        have hle : a.off + s.length ≤ b.length := Mem.blit_isSome.1 ⟨_, hb⟩
        simp [readSeg, hg, hle]
  · cases h

theorem write_le {m m' : Block} {p : Ptr} {s : Block} (h : writeSeg m p s = some m') : footprint m' ≤ footprint m + footprint s := by
  obtain ⟨old, -, h, -⟩ := write_foot h
  omega

/-- Writing a value where the cell `c` was. -/
theorem write_cell {m m' : Block} {p : Ptr} {s : Block} {c : Cell} (h : writeSeg m p s = some m') (hc : readCell m p = some c) (hs : s ≠ []) :
    footprint m' + cellBytes c ≤ footprint m + footprint s := by
  obtain ⟨old, h1, h2, -⟩ := write_foot h
  have : cellBytes c ≤ footprint old := by
    unfold readCell at hc
    unfold readSeg at h1
    split at hc
    · rename_i a
      simp only at h1
      cases hg : getBlock m a.path with
      | none => rw [hg] at hc; cases hc
      | some b =>
        rw [hg] at hc h1
        simp only [Option.bind_some] at hc h1
        split at h1 <;> cases h1
        refine foot_get (i := 0) ?_
        have : 0 < s.length := by cases s with
          | nil => exact absurd rfl hs
          | cons => simp
        rw [List.getElem?_take, if_pos this, List.getElem?_drop]
        exact hc
    · cases hc
  omega

theorem read_foot {m b : Block} {p : Ptr} {n : Nat} (h : readSeg m p n = some b) : footprint b ≤ footprint m := by
  unfold readSeg at h
  split at h
  · rename_i a
    cases hg : getBlock m a.path with
    | none => rw [hg] at h; cases h
    | some b1 =>
      rw [hg] at h
      simp only [Option.bind_some] at h
      split at h <;> cases h
      have h1 := foot_take (b1.drop a.off) n
      have h2 := foot_take_drop b1 a.off
      have h3 := get_foot hg
      omega
  · cases h

theorem readSeg_len {m b : Block} {p : Ptr} {n : Nat} (h : readSeg m p n = some b) : b.length = n := by
  unfold readSeg at h
  split at h
  · rename_i a
    cases hg : getBlock m a.path with
    | none => rw [hg] at h; cases h
    | some b1 =>
      rw [hg] at h
      simp only [Option.bind_some] at h
      split at h <;> cases h
      simp only [List.length_take, List.length_drop]; omega
  · cases h

end Verif.Proof.Foot
