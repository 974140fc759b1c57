import Verif.Model.Decode
/-!
# Multi-step execution
-/
namespace Verif.Proof
open Verif.Model

/-- `s` gets to `s'` in a fixed number of steps. -/
def Reach (pr : Prog) (s s' : St) : Prop := ∃ n, ∀ k, run pr (n + k) s = run pr k s'

/-- From `s` the machine stops with outcome `o`. -/
def Halts (pr : Prog) (s : St) (o : Out) : Prop := ∃ n, ∀ k, run pr (n + k) s = o

theorem Reach.refl (pr : Prog) (s : St) : Reach pr s s := ⟨0, fun k => by rw [Nat.zero_add]⟩

theorem Reach.trans {pr : Prog} {a b c : St} (h : Reach pr a b) (h' : Reach pr b c) : Reach pr a c := by
  obtain ⟨n, hn⟩ := h
  obtain ⟨m, hm⟩ := h'
  exact ⟨n + m, fun k => by rw [Nat.add_assoc, hn, hm]⟩

theorem Reach.halts {pr : Prog} {a b : St} {o : Out} (h : Reach pr a b) (h' : Halts pr b o) : Halts pr a o := by
  obtain ⟨n, hn⟩ := h
  obtain ⟨m, hm⟩ := h'
  exact ⟨n + m, fun k => by rw [Nat.add_assoc, hn, hm]⟩

theorem Reach.one {pr : Prog} {s s' : St} (h : step pr s = .run s') : Reach pr s s' :=
  ⟨1, fun k => by rw [Nat.add_comm, run, h]⟩

theorem Halts.one {pr : Prog} {s : St} {o : Out} (h : step pr s = o) (ho : ∀ s', o ≠ .run s') : Halts pr s o :=
  ⟨1, fun k => by
    rw [Nat.add_comm, run, h]
    cases o with
    | run s' => exact absurd rfl (ho s')
    | _ => rfl⟩

theorem Reach.head {pr : Prog} {a b c : St} (h : step pr a = .run b) (h' : Reach pr b c) : Reach pr a c := (Reach.one h).trans h'

/-- A stopped run gives the same outcome with more fuel. -/
theorem run_mono {pr : Prog} : ∀ (n : Nat) (s : St) (o : Out), run pr n s = o → (∀ s', o ≠ .run s') → ∀ k, run pr (n + k) s = o := by
  intro n
  induction n with
  | zero => intro s o h ho; exact absurd h.symm (ho s)
  | succ n ih =>
    intro s o h ho k
    rw [Nat.add_right_comm, run]
    rw [run] at h
    cases hs : step pr s with
    | run s' => rw [hs] at h; exact ih s' o h ho k
    | done s' => rw [hs] at h; exact h
    | err i e s' => rw [hs] at h; exact h
    | crash => rw [hs] at h; exact h

/-- Outcomes are unique. -/
theorem Halts.unique {pr : Prog} {s : St} {o : Out} (h : Halts pr s o) {n : Nat} (hn : ∀ s', run pr n s ≠ .run s') : run pr n s = o := by
  obtain ⟨m, hm⟩ := h
  have h1 := run_mono n s _ rfl hn m
  rw [Nat.add_comm] at h1
  rw [← h1, hm]

end Verif.Proof
