import Verif.Proof.Safe
import Verif.Spec.AnyTree
import Verif.Props.Leaf
/-!
# The value decoded into an `any` mirrors the document
-/
namespace Verif.Proof.AnyTree
open Verif.Model Verif.Big Verif.Spec Verif.Proof

theorem unesc_bytes {x : Ext} {raw out : Bytes} (h : Denotes raw out) {s : Str} (hs : x.unescStr raw = some s) : s.bytes = out := by
  unfold Ext.unescStr at hs
  rw [Props.C09_unescape _ _ h] at hs
  cases hs; rfl

/-- What is known about the entries of a map under construction from the members seen so far. -/
def Good (pf : Bytes → Except Nat Flt) (src : Bytes) (seen : List ((Nat × Nat) × JVal)) (m : List (Str × AnyVal)) : Prop :=
  DistinctNames m ∧ (∀ k ∈ seen, ∃ e ∈ m, Denotes (inner src k.1.1 k.1.2) e.1.bytes) ∧ ∀ e ∈ m, LastMember pf src seen e.1.bytes e.2

theorem assoc_mem {k : Str} {a : AnyVal} : ∀ {m : List (Str × AnyVal)}, ∀ e ∈ assocSet k a m, (e.1.bytes = k.bytes ∧ e.2 = a) ∨ e ∈ m
  | [], e, h => by simp [assocSet] at h; subst h; exact .inl ⟨rfl, rfl⟩
  | e' :: m, e, h => by
    unfold assocSet at h
    split at h
    · rename_i hb
      rcases List.mem_cons.1 h with rfl | h
      · exact .inl ⟨by simpa using hb, rfl⟩
      · exact .inr (List.mem_cons_of_mem _ h)
    · rcases List.mem_cons.1 h with rfl | h
      · exact .inr List.mem_cons_self
      · exact (assoc_mem e h).imp_right (List.mem_cons_of_mem _)

theorem assoc_distinct {k : Str} {a : AnyVal} : ∀ {m : List (Str × AnyVal)}, DistinctNames m → DistinctNames (assocSet k a m) ∧
    ∀ e ∈ assocSet k a m, e.1.bytes = k.bytes → e.2 = a
  | [], _ => by simp [assocSet, DistinctNames]
  | e' :: m, h => by
    unfold assocSet
    split
    · rename_i hb
      have hb : e'.1.bytes = k.bytes := by simpa using hb
      refine ⟨⟨h.1, h.2⟩, ?_⟩
      intro e he hk
      rcases List.mem_cons.1 he with rfl | he
      · rfl
      · exact absurd (hk.trans hb.symm) (h.1 e he)
    · rename_i hb
      have hb : e'.1.bytes ≠ k.bytes := by simpa using hb
      obtain ⟨h1, h2⟩ := assoc_distinct (k := k) (a := a) h.2
      refine ⟨⟨?_, h1⟩, ?_⟩
      · intro e he
        rcases assoc_mem e he with ⟨hk, -⟩ | hm
        · rw [hk]; exact fun h => hb h.symm
        · exact h.1 e hm
      · intro e he hk
        rcases List.mem_cons.1 he with rfl | he
        · exact absurd hk hb
        · exact h2 e he hk

theorem assoc_has {k : Str} {a : AnyVal} : ∀ {m : List (Str × AnyVal)}, (∃ e ∈ assocSet k a m, e.1.bytes = k.bytes) ∧
    ∀ e ∈ m, ∃ e' ∈ assocSet k a m, e'.1.bytes = e.1.bytes
  | [] => ⟨⟨_, List.mem_singleton.2 rfl, rfl⟩, by simp⟩
  | e' :: m => by
    unfold assocSet
    split
    · rename_i hb
      refine ⟨⟨_, List.mem_cons_self, by simpa using hb⟩, ?_⟩
      intro e he
      rcases List.mem_cons.1 he with rfl | he
      · exact ⟨_, List.mem_cons_self, rfl⟩
      · exact ⟨e, List.mem_cons_of_mem _ he, rfl⟩
    · obtain ⟨⟨e, h1, h2⟩, h3⟩ := assoc_has (k := k) (a := a) (m := m)
      refine ⟨⟨e, List.mem_cons_of_mem _ h1, h2⟩, ?_⟩
      intro e he
      rcases List.mem_cons.1 he with rfl | he
      · exact ⟨_, List.mem_cons_self, rfl⟩
      · obtain ⟨e'', g1, g2⟩ := h3 e he
        exact ⟨e'', List.mem_cons_of_mem _ g1, g2⟩

theorem last_snoc_other {pf : Bytes → Except Nat Flt} {src : Bytes} {k : (Nat × Nat) × JVal} {key : Bytes} {A : AnyVal} (hk : ¬ Denotes (inner src k.1.1 k.1.2) key) :
    ∀ {seen : List ((Nat × Nat) × JVal)}, LastMember pf src seen key A → LastMember pf src (seen ++ [k]) key A
  | [], h => h.elim
  | k' :: seen, h => by
    simp only [List.cons_append, LastMember] at h ⊢
    rcases h with h | ⟨h1, h2, h3⟩
    · exact .inl (last_snoc_other hk h)
    · refine .inr ⟨h1, ?_, h3⟩
      intro k'' hk''
      rcases List.mem_append.1 hk'' with h | h
      · exact h2 k'' h
      · rw [List.mem_singleton.1 h]; exact hk

theorem last_snoc {pf : Bytes → Except Nat Flt} {src : Bytes} {k : (Nat × Nat) × JVal} {key : Bytes} {A : AnyVal} (hk : Denotes (inner src k.1.1 k.1.2) key)
    (hA : AnyTree pf src k.2 A) : ∀ (seen : List ((Nat × Nat) × JVal)), LastMember pf src (seen ++ [k]) key A
  | [] => .inr ⟨hk, by simp, hA⟩
  | _ :: seen => .inl (last_snoc hk hA seen)

/-- One more member. -/
theorem Good.step {pf : Bytes → Except Nat Flt} {src : Bytes} {seen : List ((Nat × Nat) × JVal)} {m : List (Str × AnyVal)} (h : Good pf src seen m)
    {k : (Nat × Nat) × JVal} {key : Str} (hk : Denotes (inner src k.1.1 k.1.2) key.bytes) {A : AnyVal} (hA : AnyTree pf src k.2 A) :
    Good pf src (seen ++ [k]) (assocSet key A m) := by
  obtain ⟨h1, h2, h3⟩ := h
  obtain ⟨d1, d2⟩ := assoc_distinct (k := key) (a := A) h1
  obtain ⟨a1, a2⟩ := assoc_has (k := key) (a := A) (m := m)
  refine ⟨d1, ?_, ?_⟩
  · intro k' hk'
    rcases List.mem_append.1 hk' with h | h
    · obtain ⟨e, he, hd⟩ := h2 k' h
      obtain ⟨e', he', hb⟩ := a2 e he
      exact ⟨e', he', by rw [hb]; exact hd⟩
    · rw [List.mem_singleton.1 h]
      obtain ⟨e, he, hb⟩ := a1
      exact ⟨e, he, by rw [hb]; exact hk⟩
  · intro e he
    by_cases hb : e.1.bytes = key.bytes
    · rw [hb, d2 e he hb]
      exact last_snoc hk hA seen
    · rcases assoc_mem e he with ⟨h, -⟩ | hm
      · exact absurd h hb
      · refine last_snoc_other ?_ (h3 e hm)
        intro hd
        exact hb (Props.C09_denotes_unique _ _ _ hd hk)

/-- Success exactly if all numbers parse, and then the tree. -/
def Reads (x : Ext) (src : Bytes) (r : Option (Except Nat AnyVal)) (v : JVal) : Prop :=
  (NumbersParse x.tokFloat64 src v → ∃ a, r = some (.ok a) ∧ AnyTree x.tokFloat64 src v a) ∧ (¬ NumbersParse x.tokFloat64 src v → ∃ n, r = some (.error n))

mutual
theorem anyOf_reads {x : Ext} {src : Bytes} : ∀ {v : JVal}, Wf src v → Reads x src (anyOf x src v) v
  | .null i e, _ => ⟨fun _ => ⟨_, rfl, rfl⟩, fun h => (h trivial).elim⟩
  | .bool b i e, _ => ⟨fun _ => ⟨_, rfl, rfl⟩, fun h => (h trivial).elim⟩
  | .str i e, hw => by
    refine ⟨fun _ => ?_, fun h => (h trivial).elim⟩
    obtain ⟨out, hd⟩ := hw.2.2
    obtain ⟨s, hs⟩ := Safe.unescStr_some x hd
    refine ⟨.str s, ?_, s, ?_, rfl⟩
    · simp only [anyOf, Doc.slice_inner hw, Option.bind_some, hs, Option.map_some]
    · rw [unesc_bytes hd hs]; exact hd
  | .num b i e, hw => by
    have hs : Model.slice src i e = some (text src i e) := Doc.slice_text hw.1 hw.2.1
    constructor
    · rintro ⟨f, hf⟩
      refine ⟨.num f, ?_, f, hf, rfl⟩
      simp only [anyOf, hs, Option.map_some, hf]; rfl
    · intro h
      cases hf : x.tokFloat64 (text src i e) with
      | ok f => exact (h ⟨f, hf⟩).elim
      | error n => exact ⟨n, by simp only [anyOf, hs, Option.map_some, hf]; rfl⟩
  | .arr i es k, hw => by
    obtain ⟨h1, h2⟩ := anyOfL_reads (x := x) hw.2.2.2.2
    constructor
    · intro h
      obtain ⟨as, ha, ht⟩ := h1 h
      exact ⟨.arr as, by simp only [anyOf, ha, Option.map_some]; rfl, as, rfl, ht⟩
    · intro h
      obtain ⟨n, hn⟩ := h2 h
      exact ⟨n, by simp only [anyOf, hn, Option.map_some]; rfl⟩
  | .obj i ms k, hw => by
    obtain ⟨h1, h2⟩ := anyOfM_reads (x := x) (seen := []) hw.2.2.2.2 (m := []) ⟨trivial, by simp, by simp⟩
    constructor
    · intro h
      obtain ⟨m, ha, ht⟩ := h1 h
      exact ⟨.obj m, by simp only [anyOf, ha, Option.map_some]; rfl, m, rfl, ht⟩
    · intro h
      obtain ⟨n, hn⟩ := h2 h
      exact ⟨n, by simp only [anyOf, hn, Option.map_some]; rfl⟩
theorem anyOfL_reads {x : Ext} {src : Bytes} : ∀ {vs : List JVal}, WfL src vs →
    (NumbersParseL x.tokFloat64 src vs → ∃ as, anyOfL x src vs = some (.ok as) ∧ AnyElems x.tokFloat64 src vs as) ∧
    (¬ NumbersParseL x.tokFloat64 src vs → ∃ n, anyOfL x src vs = some (.error n))
  | [], _ => ⟨fun _ => ⟨[], rfl, rfl⟩, fun h => (h trivial).elim⟩
  | v :: vs, hw => by
    obtain ⟨h1, h2⟩ := anyOf_reads (x := x) hw.1
    obtain ⟨g1, g2⟩ := anyOfL_reads (x := x) hw.2
    constructor
    · intro h
      obtain ⟨a, ha, ht⟩ := h1 h.1
      obtain ⟨as, has, hts⟩ := g1 h.2
      exact ⟨a :: as, by simp only [anyOfL, ha, has, Option.map_some]; rfl, a, as, rfl, ht, hts⟩
    · intro h
      by_cases hv : NumbersParse x.tokFloat64 src v
      · obtain ⟨a, ha, -⟩ := h1 hv
        obtain ⟨n, hn⟩ := g2 (fun hs => h ⟨hv, hs⟩)
        exact ⟨n, by simp only [anyOfL, ha, hn, Option.map_some]; rfl⟩
      · obtain ⟨n, hn⟩ := h2 hv
        exact ⟨n, by simp only [anyOfL, hn]⟩
theorem anyOfM_reads {x : Ext} {src : Bytes} {seen : List ((Nat × Nat) × JVal)} : ∀ {ms : List ((Nat × Nat) × JVal)}, WfM src ms → ∀ {m : List (Str × AnyVal)},
    Good x.tokFloat64 src seen m →
    (NumbersParseM x.tokFloat64 src ms → ∃ m', anyOfM x src m ms = some (.ok m') ∧ Good x.tokFloat64 src (seen ++ ms) m') ∧
    (¬ NumbersParseM x.tokFloat64 src ms → ∃ n, anyOfM x src m ms = some (.error n))
  | [], _, m, hg => ⟨fun _ => ⟨m, rfl, by simpa using hg⟩, fun h => (h trivial).elim⟩
  | ((i, e), v) :: ms, hw, m, hg => by
    obtain ⟨h1, h2⟩ := anyOf_reads (x := x) hw.2.1
    obtain ⟨out, hd⟩ := hw.1.2.2
    obtain ⟨s, hs⟩ := Safe.unescStr_some x hd
    have hi : Model.slice src (i + 1) (e - 1) = some (inner src i e) := Doc.slice_inner hw.1
    have hden : Denotes (inner src i e) s.bytes := by rw [unesc_bytes hd hs]; exact hd
    by_cases hv : NumbersParse x.tokFloat64 src v
    · obtain ⟨a, ha, ht⟩ := h1 hv
      obtain ⟨g1, g2⟩ := anyOfM_reads (seen := seen ++ [((i, e), v)]) hw.2.2 (Good.step hg (k := ((i, e), v)) hden ht)
      constructor
      · intro h
        obtain ⟨m', hm', hg'⟩ := g1 h.2
        refine ⟨m', ?_, by simpa using hg'⟩
        simp only [anyOfM, hi, ha]
        rw [hs]; exact hm'
      · intro h
        obtain ⟨n, hn⟩ := g2 (fun hs => h ⟨hv, hs⟩)
        refine ⟨n, ?_⟩
        simp only [anyOfM, hi, ha]
        rw [hs]; exact hn
    · refine ⟨fun h => (hv h.1).elim, fun _ => ?_⟩
      obtain ⟨n, hn⟩ := h2 hv
      exact ⟨n, by simp only [anyOfM, hi, hn]⟩
end

end Verif.Proof.AnyTree
