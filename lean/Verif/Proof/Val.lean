import Verif.Spec.Value
import Verif.Proof.SimComp
/-!
# The reading on memory blocks agrees with the reading on values: memory lemmas
-/
namespace Verif.Proof.Val
open Verif.Model Verif.Big Verif.Spec Verif.Proof.Mem

/-- Two blocks agree on a range of bytes. -/
def Agree (b b' : Block) (off n : Nat) : Prop := ∀ j, off ≤ j → j < off + n → b'[j]? = b[j]?

/-- `b'` has the length of `b` and differs from it at most in the given range. -/
def Frm (b b' : Block) (off n : Nat) : Prop := b'.length = b.length ∧ ∀ j, (j < off ∨ off + n ≤ j) → b'[j]? = b[j]?

theorem Frm.refl (b : Block) (off n : Nat) : Frm b b off n := ⟨rfl, fun _ _ => rfl⟩

theorem Frm.trans {a b c : Block} {off n : Nat} (h : Frm a b off n) (h' : Frm b c off n) : Frm a c off n :=
  ⟨h'.1.trans h.1, fun j hj => (h'.2 j hj).trans (h.2 j hj)⟩

theorem Frm.mono {a b : Block} {off n off' n' : Nat} (h : Frm a b off n) (h1 : off' ≤ off) (h2 : off + n ≤ off' + n') : Frm a b off' n' :=
  ⟨h.1, fun j hj => h.2 j (by omega)⟩

theorem Frm.agree {a b : Block} {off n off' n' : Nat} (h : Frm a b off n) (hd : off + n ≤ off' ∨ off' + n' ≤ off) : Agree a b off' n' :=
  fun j h1 h2 => h.2 j (by omega)

theorem frm_blit {b b' s : Block} {off : Nat} (h : blit b off s = some b') : Frm b b' off s.length :=
  ⟨blit_length h, fun _ hj => hj.elim (fun h1 => blit_get_lt h h1) (fun h1 => blit_get_ge h h1)⟩

theorem bytes_pos (x : Ext) (k : SKind) : 0 < k.bytes x := by
  have := Sim.W_pos x
  cases k with
  | bool => simp [SKind.bytes]
  | str => simp [SKind.bytes]; exact this
  | int k => simp only [SKind.bytes, IKind.bits]; cases k <;> simp <;> split <;> omega
  | flt k => cases k <;> simp [SKind.bytes]

theorem HoldsSlice.imp {esz : Nat} {P Q : Block → Nat → Val → Prop} {c : Option Cell} {V : Val} (h : HoldsSlice esz P c V) (hq : ∀ b o W, P b o W → Q b o W) :
    HoldsSlice esz Q c V := by
  rcases h with h | ⟨a, es, sp, h1, h2, h3, h4⟩
  · exact .inl h
  · exact .inr ⟨a, es, sp, h1, h2, h3, fun i W hi => hq _ _ _ (h4 i W hi)⟩

theorem holds_len {x : Ext} {ty : Ty} {b : Block} {off : Nat} {V : Val} (h : Holds x ty b off V) : off + ty.size x ≤ b.length := by
  cases ty <;> simp only [Holds] at h <;> simp only [Ty.size]
  all_goals first | exact h.1 | (simpa using h.1)

mutual
/-- A value only depends on the bytes it occupies. -/
theorem holds_agree {x : Ext} : ∀ (ty : Ty) {b b' : Block} {off : Nat} {V : Val}, OK x ty → Holds x ty b off V → Agree b b' off (ty.size x) →
    off + ty.size x ≤ b'.length → Holds x ty b' off V
  | .any, b, b', off, V, _, h, ha, hl => by
    simp only [Holds, Ty.size] at *
    refine ⟨hl, ?_⟩
    rw [ha off (by omega) (by have := Sim.W_pos x; omega)]; exact h.2
  | .number, b, b', off, V, _, h, ha, hl => by
    simp only [Holds, Ty.size] at *
    refine ⟨hl, ?_⟩
    rw [ha off (by omega) (by have := Sim.W_pos x; omega)]; exact h.2
  | .scalar k, b, b', off, V, _, h, ha, hl => by
    simp only [Holds, Ty.size] at *
    refine ⟨hl, ?_⟩
    rw [ha off (by omega) (by have := bytes_pos x k; omega)]; exact h.2
  | .quoted k, b, b', off, V, _, h, ha, hl => by
    simp only [Holds, Ty.size] at *
    refine ⟨hl, ?_⟩
    rw [ha off (by omega) (by have := bytes_pos x k; omega)]; exact h.2
  | .jsonU _ n _, b, b', off, V, _, h, ha, hl => by
    simp only [Holds, Ty.size] at *
    refine ⟨hl, ?_⟩
    rw [h.2]; congr 1
    apply List.ext_getElem?
    intro j
    simp only [List.getElem?_take, List.getElem?_drop]
    split
    · exact (ha _ (by omega) (by omega)).symm
    · rfl
  | .textU _ n _, b, b', off, V, _, h, ha, hl => by
    simp only [Holds, Ty.size] at *
    refine ⟨hl, ?_⟩
    rw [h.2]; congr 1
    apply List.ext_getElem?
    intro j
    simp only [List.getElem?_take, List.getElem?_drop]
    split
    · exact (ha _ (by omega) (by omega)).symm
    · rfl
  | .array0, b, b', off, V, _, h, ha, hl => by
    simp only [Holds, Ty.size] at *
    exact ⟨by omega, h.2⟩
  | .emptyStruct, b, b', off, V, _, h, ha, hl => by
    simp only [Holds, Ty.size] at *
    exact ⟨by omega, h.2⟩
  | .array n e, b, b', off, V, ho, h, ha, hl => by
    simp only [Holds, Ty.size, OK] at *
    obtain ⟨h0, es, h1, h2, h3⟩ := h
    refine ⟨hl, es, h1, h2, fun i W hi => ?_⟩
    have hlt : i < n := by
      rw [← h2]; exact (List.getElem?_eq_some_iff.1 hi).1
    have hb : i * e.size x + e.size x ≤ n * e.size x := by
      have := Nat.mul_le_mul_right (e.size x) (Nat.succ_le_of_lt hlt)
      rw [Nat.succ_mul] at this; exact this
    exact holds_agree e ho (h3 i W hi) (fun j h1 h2 => ha j (by omega) (by omega)) (by omega)
  | .slice e, b, b', off, V, ho, h, ha, hl => by
    simp only [Holds, Ty.size, OK] at *
    refine ⟨hl, ?_⟩
    rw [ha off (by omega) (by have := Sim.W_pos x; omega)]; exact h.2
  | .sliceOf k, b, b', off, V, ho, h, ha, hl => by
    simp only [Holds, Ty.size, OK] at *
    refine ⟨hl, ?_⟩
    rw [ha off (by omega) (by have := Sim.W_pos x; omega)]; exact h.2
  | .sliceES, b, b', off, V, ho, h, ha, hl => by
    simp only [Holds, Ty.size, OK] at *
    refine ⟨hl, ?_⟩
    rw [ha off (by omega) (by have := Sim.W_pos x; omega)]; exact h.2
  | .mapSS, b, b', off, V, ho, h, ha, hl => by
    simp only [Holds, Ty.size, OK] at *
    refine ⟨hl, ?_⟩
    rw [ha off (by omega) (by have := Sim.W_pos x; omega)]; exact h.2
  | .map k e, b, b', off, V, ho, h, ha, hl => by
    simp only [Holds, Ty.size, OK] at *
    refine ⟨hl, ?_⟩
    rw [ha off (by omega) (by have := Sim.W_pos x; omega)]; exact h.2
  | .ptr e, b, b', off, V, ho, h, ha, hl => by
    simp only [Holds, Ty.size, OK] at *
    refine ⟨hl, ?_⟩
    rw [ha off (by omega) (by have := Sim.W_pos x; omega)]; exact h.2
  | .struct size fs, b, b', off, V, ho, h, ha, hl => by
    simp only [Holds, Ty.size, OK] at *
    obtain ⟨h0, Ws, h1, h2⟩ := h
    exact ⟨hl, Ws, h1, holdsF_agree fs ho h2 ha hl⟩
theorem holdsF_agree {x : Ext} : ∀ (fs : List (Bytes × Nat × Ty)) {size : Nat} {b b' : Block} {off : Nat} {Ws : List Val}, OKF x size fs → HoldsF x fs b off Ws →
    Agree b b' off size → off + size ≤ b'.length → HoldsF x fs b' off Ws
  | [], _, b, b', off, Ws, _, h, _, _ => by simpa only [HoldsF] using h
  | (n, o, t) :: fs, size, b, b', off, Ws, ho, h, ha, hl => by
    simp only [HoldsF, OKF] at *
    obtain ⟨W, Ws', h1, h2, h3⟩ := h
    exact ⟨W, Ws', h1, holds_agree t ho.2.1 h2 (fun j h1 h2 => ha j (by omega) (by omega)) (by omega), holdsF_agree fs ho.2.2.2 h3 ha hl⟩
end

theorem zeros_get {n j : Nat} (h : j < n) : (zeros n)[j]? = some .zero := by simp [zeros, h]

mutual
/-- Zeroed memory holds the zero value. -/
theorem holds_zeros {x : Ext} : ∀ (ty : Ty) {n off : Nat}, OK x ty → off + ty.size x ≤ n → Holds x ty (zeros n) off (zeroV x ty)
  | .any, n, off, _, h => by
    simp only [Holds, Ty.size, zeroV, zeros_length] at *
    have := Sim.W_pos x
    exact ⟨h, .inl ⟨zeros_get (by omega), trivial⟩⟩
  | .number, n, off, _, h => by
    simp only [Holds, Ty.size, zeroV, zeros_length] at *
    have := Sim.W_pos x
    exact ⟨h, .inl ⟨zeros_get (by omega), rfl⟩⟩
  | .scalar k, n, off, _, h => by
    simp only [Holds, Ty.size, zeroV, zeros_length] at *
    have := bytes_pos x k
    exact ⟨h, .inl ⟨zeros_get (by omega), rfl⟩⟩
  | .quoted k, n, off, _, h => by
    simp only [Holds, Ty.size, zeroV, zeros_length] at *
    have := bytes_pos x k
    exact ⟨h, .inl ⟨zeros_get (by omega), rfl⟩⟩
  | .jsonU _ m _, n, off, _, h => by
    simp only [Holds, Ty.size, zeroV, zeros_length] at *
    exact ⟨h, by simp only [zeros, List.drop_replicate, List.take_replicate]; congr 2; omega⟩
  | .textU _ m _, n, off, _, h => by
    simp only [Holds, Ty.size, zeroV, zeros_length] at *
    exact ⟨h, by simp only [zeros, List.drop_replicate, List.take_replicate]; congr 2; omega⟩
  | .array0, n, off, _, h => by
    simp only [Holds, Ty.size, zeroV, zeros_length] at *
    exact ⟨h, trivial⟩
  | .emptyStruct, n, off, _, h => by
    simp only [Holds, Ty.size, zeroV, zeros_length] at *
    exact ⟨h, trivial⟩
  | .array m e, n, off, ho, h => by
    simp only [Holds, Ty.size, zeroV, zeros_length, OK] at *
    refine ⟨h, _, rfl, by simp, fun i W hi => ?_⟩
    have hlt : i < m := by have := (List.getElem?_eq_some_iff.1 hi).1; simpa using this
    have hW : W = zeroV x e := by simpa [hlt] using hi.symm
    have hb : i * e.size x + e.size x ≤ m * e.size x := by
      have := Nat.mul_le_mul_right (e.size x) (Nat.succ_le_of_lt hlt)
      rw [Nat.succ_mul] at this; exact this
    rw [hW]
    exact holds_zeros e ho (by omega)
  | .slice _, n, off, _, h => by
    simp only [Holds, Ty.size, zeroV, zeros_length] at *
    have := Sim.W_pos x
    exact ⟨h, .inl ⟨zeros_get (by omega), rfl⟩⟩
  | .sliceOf _, n, off, _, h => by
    simp only [Holds, Ty.size, zeroV, zeros_length] at *
    have := Sim.W_pos x
    exact ⟨h, .inl ⟨zeros_get (by omega), rfl⟩⟩
  | .sliceES, n, off, _, h => by
    simp only [Holds, Ty.size, zeroV, zeros_length] at *
    have := Sim.W_pos x
    exact ⟨h, .inl ⟨zeros_get (by omega), rfl⟩⟩
  | .mapSS, n, off, _, h => by
    simp only [Holds, Ty.size, zeroV, zeros_length] at *
    have := Sim.W_pos x
    exact ⟨h, .inl ⟨zeros_get (by omega), rfl⟩⟩
  | .map _ _, n, off, _, h => by
    simp only [Holds, Ty.size, zeroV, zeros_length] at *
    have := Sim.W_pos x
    exact ⟨h, .inl ⟨zeros_get (by omega), rfl⟩⟩
  | .ptr _, n, off, _, h => by
    simp only [Holds, Ty.size, zeroV, zeros_length] at *
    have := Sim.W_pos x
    exact ⟨h, .inl ⟨zeros_get (by omega), trivial⟩⟩
  | .struct size fs, n, off, ho, h => by
    simp only [Holds, Ty.size, zeroV, zeros_length, OK] at *
    exact ⟨h, _, rfl, holdsF_zeros fs ho h⟩
theorem holdsF_zeros {x : Ext} : ∀ (fs : List (Bytes × Nat × Ty)) {size n off : Nat}, OKF x size fs → off + size ≤ n → HoldsF x fs (zeros n) off (zeroF x fs)
  | [], _, n, off, _, _ => by simp only [HoldsF, zeroF]
  | (m, o, t) :: fs, size, n, off, ho, h => by
    simp only [HoldsF, OKF, zeroF] at *
    exact ⟨_, _, rfl, holds_zeros t ho.2.1 (by omega), holdsF_zeros fs ho.2.2.2 h⟩
end

/-- Memory that agrees with zeroed memory. -/
theorem holds_zeros_at {x : Ext} {ty : Ty} {b : Block} {off : Nat} (ho : OK x ty) (hl : off + ty.size x ≤ b.length)
    (h : ∀ j, off ≤ j → j < off + ty.size x → b[j]? = some .zero) : Holds x ty b off (zeroV x ty) :=
  holds_agree ty ho (holds_zeros ty (n := off + ty.size x) ho (Nat.le_refl _))
    (fun j h1 h2 => by rw [h j h1 h2, zeros_get h2]) hl

end Verif.Proof.Val
