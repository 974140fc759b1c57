import Verif.Spec.Structless
import Verif.Spec.Bounds
/-!
# Types without structs and pointers; calls that return
-/
namespace Verif.Proof.Structless
open Verif.Model Verif.Spec Verif.Big

/-- Every document is tame. -/
theorem tame {x : Ext} {src : Bytes} {o : Option Options} : ∀ (ty : Ty), ty.structless = true → ∀ v, Tame x src o ty v
  | .array n e, h, v => by
    cases v <;> simp only [Tame]
    exact fun w _ => tame e h w
  | .slice e, h, v => by
    cases v <;> simp only [Tame]
    exact fun w _ => tame e h w
  | .map k e, h, v => by
    simp only [Ty.structless, Bool.and_eq_true, bne_iff_ne, ne_eq] at h
    cases v <;> simp only [Tame]
    exact ⟨fun hk => absurd hk h.1, fun m _ => tame e h.2 m.2⟩
  | .struct n fs, h, v => by simp [Ty.structless] at h
  | .emptyStruct, h, v => by simp [Ty.structless] at h
  | .ptr e, h, v => by simp [Ty.structless] at h
  | .jsonU .., h, v => by simp [Tame]
  | .textU .., h, v => by simp [Tame]
  | .any, h, v => by simp [Tame]
  | .array0, h, v => by simp [Tame]
  | .sliceOf _, h, v => by simp [Tame]
  | .sliceES, h, v => by simp [Tame]
  | .mapSS, h, v => by simp [Tame]
  | .number, h, v => by simp [Tame]
  | .scalar _, h, v => by simp [Tame]
  | .quoted _, h, v => by simp [Tame]

theorem tameDoc {x : Ext} {src : Bytes} {o : Option Options} {ty : Ty} (h : ty.structless = true) (v : JVal) : TameDoc x src o ty v := by
  have := tame (x := x) (src := src) (o := o) ty h v
  cases ty <;> first | exact this | simp [Ty.structless] at h

theorem during_run {pr : Prog} {s₀ s : St} (h : During pr s₀ s) : ∃ n, ∀ k, run pr (n + k) s₀ = run pr k s := by
  induction h with
  | start => exact ⟨0, fun k => by rw [Nat.zero_add]⟩
  | next _ hs ih =>
    obtain ⟨n, hn⟩ := ih
    refine ⟨n + 1, fun k => ?_⟩
    rw [Nat.add_assoc, Nat.add_comm 1 k, hn, run, hs]

theorem run_prefix {pr : Prog} : ∀ (n k : Nat) {s : St}, run pr (n + k) s = .crash → run pr n s = .crash ∨ ∃ s', run pr n s = .run s' := by
  intro n k
  induction n with
  | zero => intro s _; exact .inr ⟨s, rfl⟩
  | succ n ih =>
    intro s h
    rw [Nat.add_right_comm, run] at h
    rw [run]
    cases hs : step pr s with
    | run s' => rw [hs] at h; exact ih h
    | done s' => rw [hs] at h; cases h
    | err i e s' => rw [hs] at h; cases h
    | crash => exact .inl rfl

theorem run_more {pr : Prog} : ∀ (n k : Nat) {s : St}, run pr n s = .crash → run pr (n + k) s = .crash := by
  intro n k
  induction n with
  | zero => intro s h; cases h
  | succ n ih =>
    intro s h
    rw [run] at h
    rw [Nat.add_right_comm, run]
    cases hs : step pr s with
    | run s' => rw [hs] at h; exact ih h
    | done s' => rw [hs] at h; cases h
    | err i e s' => rw [hs] at h; cases h
    | crash => rfl

/-- A call that returns fails at no moment. -/
theorem returns_sound {x : Ext} {d : Decoder} {src : Bytes} {v : JVal} {mem : Block} {o : Option Options} {r : DecodeRes} (hr : decode x d src (.ok v) (some mem) o = some r) {s : St}
    (hs : During (callOf x d src v o) (initSt d.dyn mem) s) : step (callOf x d src v o) s ≠ .crash := by
  intro hc
  obtain ⟨n, hn⟩ := during_run hs
  have h1 : run (callOf x d src v o) (n + 1) (initSt d.dyn mem) = .crash := by rw [hn, run, hc]
  have h2 : run (callOf x d src v o) (fuelFor (callOf x d src v o)) (initSt d.dyn mem) = .crash ∨ ∃ s', run (callOf x d src v o) (fuelFor (callOf x d src v o)) (initSt d.dyn mem) = .run s' := by
    rcases Nat.le_total (n + 1) (fuelFor (callOf x d src v o)) with h | h
    · obtain ⟨k, hk⟩ := Nat.exists_eq_add_of_le h
      rw [hk]; exact .inl (run_more _ _ h1)
    · obtain ⟨k, hk⟩ := Nat.exists_eq_add_of_le h
      rw [hk] at h1; exact run_prefix _ _ h1
  simp only [callOf] at h2
  simp only [decode] at hr
  split at hr
  · cases hr
  · rcases h2 with h2 | ⟨s', h2⟩
    · rw [h2] at hr; cases hr
    · rw [h2] at hr; cases hr

end Verif.Proof.Structless
