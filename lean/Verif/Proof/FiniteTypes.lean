import Verif.Proof.NewDecoder
/-!
# `NewDecoder` returns on types without recursion, and never does on types that are recursive through slices, arrays and pointers only
-/
namespace Verif.Proof.TypeGraph
open Verif.Model Verif.Spec Verif.Proof.Append

/-- The fuel suffices for the type on every stack. -/
def Enough (env : TypeEnv) (W : Nat) (opts : Option InitOptions) (n : Nat) (t : TypeId) : Prop := ∀ s m, n ≤ m → appendType env W opts m s (some t) ≠ .fuel

theorem enough_all {env : TypeEnv} {W : Nat} {opts : Option InitOptions} : ∀ (L : List TypeId) {P : TypeId → Prop}, (∀ c ∈ L, P c → ∃ n, Enough env W opts n c) → ∃ n, ∀ c ∈ L, P c → Enough env W opts n c
  | [], P, _ => ⟨0, by simp⟩
  | a :: L, P, h => by
    obtain ⟨n, hn⟩ := enough_all L (P := P) (fun c hc => h c (List.mem_cons_of_mem _ hc))
    by_cases ha : P a
    · obtain ⟨m, hm⟩ := h a List.mem_cons_self ha
      refine ⟨n + m, fun c hc hP s k hk => ?_⟩
      rcases List.mem_cons.1 hc with rfl | hc
      · exact hm s k (by omega)
      · exact hn c hc hP s k (by omega)
    · refine ⟨n, fun c hc hP s k hk => ?_⟩
      rcases List.mem_cons.1 hc with rfl | hc
      · exact (ha hP).elim
      · exact hn c hc hP s k hk

/-- The types a decoder for `t` may need directly. -/
def kids (env : TypeEnv) (t : TypeId) : List TypeId := (env t).elem :: (env t).key :: (env t).fields.map (·.type)

theorem child_mem {env : TypeEnv} {t c : TypeId} (h : Child env t c) : c ∈ kids env t := by
  unfold kids
  cases h with
  | array | slice | value | pointer => simp
  | key => simp
  | field _ _ hf _ => exact List.mem_cons_of_mem _ (List.mem_cons_of_mem _ (List.mem_map.2 ⟨_, hf, rfl⟩))

theorem enough_node {env : TypeEnv} {W : Nat} {opts : Option InitOptions} {t : TypeId} {n : Nat} (h : ∀ c, Child env t c → Enough env W opts n c) : Enough env W opts (n + 1) t := by
  intro s m hm
  obtain ⟨m, rfl⟩ : ∃ k, m = k + 1 := ⟨m - 1, by omega⟩
  have hm : n ≤ m := by omega
  have pf : ∀ {i : Nat} {g : Frame → Frame} {r : AppendRes}, r ≠ .fuel → post i g r ≠ .fuel := fun h hc => h (post_fuel hc)
  cases node env W opts t with
  | leaf f hc hk hi hb hr hs hh => rw [hh]; simp
  | bad hb hh => rw [hh]; simp
  | iface hb hh => rw [hh]; simp
  | elem f g hc hk hi hb hf hg hs hp hns hnt hh => rw [hh]; exact pf (h _ ((hc _).2 rfl) _ _ hm)
  | tied f f' g hc ht' hns hk hi hb hf hf' hg hs hs' hp hh =>
    rw [hh]
    split
    · simp
    · exact pf (h _ ((hc _).2 rfl) _ _ hm)
  | map f f' g b hc ht' hk hi hb hf hf' hg hs hs' hp hh =>
    rw [hh]
    split
    · exact pf (h _ ((hc _).2 (.inl rfl)) _ _ hm)
    · split
      · exact pf (h _ ((hc _).2 (.inr rfl)) _ _ hm)
      · exact pf (h _ ((hc _).2 (.inl rfl)) _ _ hm)
  | struct f hu hk hf hs hp hh =>
    rw [hh]
    refine fields_ends (b := s ++ [f]) (fun a b c h => append_ext _ _ _ _ _ _ _ h) (fun a b c h => head_frame h) _ _ (by simp) (fun _ h => h) ?_
    intro f' hf' r hr s' hs'
    exact h _ (.field hu hk hf' hr) _ _ hm

/-- Types without recursion. -/
theorem append_finite {env : TypeEnv} {W : Nat} {opts : Option InitOptions} {t : TypeId} (h : Acc (fun c t => Child env t c) t) : ∃ n, Enough env W opts n t := by
  induction h with
  | intro t _ ih =>
    obtain ⟨n, hn⟩ := enough_all (env := env) (W := W) (opts := opts) (kids env t) (P := Child env t) (fun c _ hc => ih c hc)
    exact ⟨n + 1, enough_node fun c hc => hn c (child_mem hc) hc⟩

/-- The only thing needed for the type is its element type, and the decoder does not look for recursion there. -/
def Wraps (env : TypeEnv) (t : TypeId) : Prop := Child env t (env t).elem ∧ ((env t).kind = .array ∨ (env t).kind = .slice ∨ (env t).kind = .pointer) ∧ ¬ Tied env t (env t).elem

theorem append_diverges {env : TypeEnv} {W : Nat} {opts : Option InitOptions} {U : TypeId → Prop} (hU : ∀ t, U t → Wraps env t ∧ U (env t).elem) :
    ∀ (n : Nat) (s : List Frame) (t : TypeId), U t → appendType env W opts n s (some t) = .fuel := by
  intro n
  induction n with
  | zero => intro s t _; rfl
  | succ n ih =>
    intro s t ht
    obtain ⟨⟨h1, h2, h3⟩, h4⟩ := hU t ht
    have hi := ih
    cases node env W opts t with
    | leaf f hc hk hi hb hr hs hh => exact (hc _ h1).elim
    | bad hb hh => rcases h2 with h | h | h <;> rw [hb.2] at h <;> cases h
    | iface hb hh => rcases h2 with h | h | h <;> rw [hb.2.1] at h <;> cases h
    | elem f g hc hk hi' hb hf hg hs hp hns hnt hh => rw [hh, hi _ _ h4]; rfl
    | tied f f' g hc ht' hns hk hi hb hf hf' hg hs hs' hp hh => exact (h3 ht').elim
    | map f f' g b hc ht' hk hi hb hf hf' hg hs hs' hp hh => rcases h2 with h | h | h <;> rw [ht'.1] at h <;> cases h
    | struct f hu hk hf hs hp hh => rcases h2 with h | h | h <;> rw [hk] at h <;> cases h

end Verif.Proof.TypeGraph
