import Verif.Proof.FiniteTypes
import Verif.Proof.FrameFields
import Verif.Proof.Strip
import Verif.Proof.Ignored
import Verif.Proof.Cover
import Verif.Proof.Outcome
import Verif.Proof.Demo
/-!
# Struct tags, unsupported types, recursion in types: C18, C19, C20
-/
namespace Verif.Props
open Verif.Model Verif.Spec Verif.Big Verif.Proof Verif.Proof.Demo Verif.Proof.Outcome Verif.Proof.TypeGraph Verif.Proof.Reads Verif.Proof.Append

/-! ## C20 -/

/-- The set of types of a successful call without a stack contains everything that can be reached. -/
theorem good_reach {env : TypeEnv} {opts : Option InitOptions} {s' : List Frame} {R G : TypeId → Prop} (h : Good env opts [] s' R G) {t : TypeId} (ht : G t) {c : TypeId} (hc : Reach env t c) : G c := by
  induction hc with
  | self => exact ht
  | step _ hc ih =>
    rcases h.closed _ _ ih hc with h | ⟨i, f, h, -⟩
    · exact h
    · simp at h

/-- **C20**, outcomes: when `NewDecoder` returns a decoder, all types it needs are supported; when it returns an error, one of them has an unsupported kind (and the error names it), or
ErrStringTagOptionOnUnsupportedType was asked for; when it panics, one of them is an interface type with methods, or the options are nil and a `string` option is on an unsupported type. -/
theorem C20_outcomes {env : TypeEnv} {W : Nat} {opts : Option InitOptions} {depth : Nat} {t : TypeId} :
    match newDecoder env W opts depth (some t) with
    | .ok _ => ∀ c, Reach env t c → ¬ BadKind env c ∧ ¬ BadInterface env c ∧ (BadTag env c → ∃ o, opts = some o ∧ o.disallowStringTagOptOnUnsupportedTypes = false)
    | .err e => (∃ c, Reach env t c ∧ BadKind env c ∧ e = .unsupportedType c) ∨
        (e = .stringTag ∧ (∃ o, opts = some o ∧ o.disallowStringTagOptOnUnsupportedTypes = true) ∧ ∃ c, Reach env t c ∧ BadTag env c)
    | .panic => (∃ c, Reach env t c ∧ BadInterface env c) ∨ (opts = none ∧ ∃ c, Reach env t c ∧ BadTag env c)
    | .diverges => True := by
  obtain ⟨h1, h2⟩ := append_call (env := env) (W := W) (opts := opts) depth [] t
  simp only [newDecoder]
  cases hr : appendType env W opts depth [] (some t) with
  | ok s =>
    obtain ⟨G, g1, g2⟩ := h2 s hr
    intro c hc
    have := good_reach g2 g1 hc
    exact ⟨g2.kind c this, g2.iface c this, g2.tag c this⟩
  | err e => rw [hr] at h1; exact h1
  | panic => rw [hr] at h1; exact h1
  | fuel => trivial

/-- **C20**, only unsupported types fail: if `NewDecoder` comes to an end and all types it needs are supported, it returns a decoder. -/
theorem C20_supported {env : TypeEnv} {W : Nat} {opts : Option InitOptions} {depth : Nat} {t : TypeId} (hr : newDecoder env W opts depth (some t) ≠ .diverges)
    (hk : ∀ c, Reach env t c → ¬ BadKind env c) (hi : ∀ c, Reach env t c → ¬ BadInterface env c) (hb : ∀ c, Reach env t c → BadTag env c → ∃ o, opts = some o ∧ o.disallowStringTagOptOnUnsupportedTypes = false) :
    ∃ d, newDecoder env W opts depth (some t) = .ok d := by
  have h := C20_outcomes (env := env) (W := W) (opts := opts) (depth := depth) (t := t)
  cases hn : newDecoder env W opts depth (some t) with
  | ok d => exact ⟨d, rfl⟩
  | err e =>
    rw [hn] at h
    rcases h with ⟨c, h1, h2, -⟩ | ⟨-, ⟨o, h1, h2⟩, c, h3, h4⟩
    · exact (hk c h1 h2).elim
    · obtain ⟨o', h5, h6⟩ := hb c h3 h4
      rw [h1] at h5; cases h5; rw [h2] at h6; cases h6
  | panic =>
    rw [hn] at h
    rcases h with ⟨c, h1, h2⟩ | ⟨h1, c, h3, h4⟩
    · exact (hi c h1 h2).elim
    · obtain ⟨o', h5, h6⟩ := hb c h3 h4
      rw [h1] at h5; cases h5
  | diverges => exact (hr hn).elim

/-- **C20**, unsupported kinds: if `NewDecoder` comes to an end although a type it needs is a channel, function, … , it does not return a decoder; with init options and without interface types that have methods it returns an
error. -/
theorem C20_unsupported {env : TypeEnv} {W : Nat} {opts : Option InitOptions} {depth : Nat} {t c : TypeId} (hr : newDecoder env W opts depth (some t) ≠ .diverges) (hc : Reach env t c) (hb : BadKind env c) :
    (∀ d, newDecoder env W opts depth (some t) ≠ .ok d) ∧ ((∀ c, Reach env t c → ¬ BadInterface env c) → opts ≠ none → ∃ e, newDecoder env W opts depth (some t) = .err e) := by
  have h := C20_outcomes (env := env) (W := W) (opts := opts) (depth := depth) (t := t)
  constructor
  · intro d hd
    rw [hd] at h
    exact (h c hc).1 hb
  · intro hi ho
    cases hn : newDecoder env W opts depth (some t) with
    | ok d => rw [hn] at h; exact ((h c hc).1 hb).elim
    | err e => exact ⟨e, rfl⟩
    | panic =>
      rw [hn] at h
      rcases h with ⟨c, h1, h2⟩ | ⟨h1, -⟩
      · exact (hi c h1 h2).elim
      · exact (ho h1).elim
    | diverges => exact (hr hn).elim

/-- **C20**, types of finite depth: `NewDecoder` comes to an end, and a larger bound on the recursion does not change its result. -/
theorem C20_finite {env : TypeEnv} {W : Nat} {opts : Option InitOptions} {t : TypeId} (h : Acc (fun c t => Child env t c) t) :
    ∃ depth r, r ≠ .diverges ∧ ∀ m, depth ≤ m → newDecoder env W opts m (some t) = r := by
  obtain ⟨n, hn⟩ := append_finite (W := W) (opts := opts) h
  refine ⟨n, newDecoder env W opts n (some t), ?_, fun m hm => ?_⟩
  · have := hn [] n (Nat.le_refl _)
    simp only [newDecoder]
    cases hr : appendType env W opts n [] (some t) <;> simp
    exact this hr
  · simp only [newDecoder, append_fuel (hn [] n (Nat.le_refl _)) m hm]

/-- **C20**, recursive types: `NewDecoder` comes to an end if all cycles of the type graph pass through a pointer, slice or map of a non-empty struct (not counting map keys): the rank of a type is that of the
types it needs plus at least one, except along such steps. -/
theorem C20_recursive {env : TypeEnv} {W : Nat} {opts : Option InitOptions} {t : TypeId} (S : List TypeId) (ht : t ∈ S) (hS : ∀ t ∈ S, ∀ c, Child env t c → c ∈ S) (rank : TypeId → Nat)
    (hrank : ∀ t ∈ S, ∀ c, Child env t c → Tied env t c ∨ rank c < rank t) :
    ∃ depth r, r ≠ .diverges ∧ ∀ m, depth ≤ m → newDecoder env W opts m (some t) = r := by
  have hR : ∀ L : List TypeId, ∃ R, ∀ t ∈ L, rank t ≤ R := by
    intro L
    induction L with
    | nil => exact ⟨0, by simp⟩
    | cons a L ih =>
      obtain ⟨R, hR⟩ := ih
      refine ⟨R + rank a, fun t ht => ?_⟩
      rcases List.mem_cons.1 ht with rfl | ht
      · omega
      · have := hR t ht; omega
  obtain ⟨R, hR⟩ := hR S
  have hn := append_ends (W := W) (opts := opts) hR hS hrank _ [] t ht (Nat.le_refl _)
  refine ⟨need env S rank R [] t, newDecoder env W opts (need env S rank R [] t) (some t), ?_, fun m hm => ?_⟩
  · simp only [newDecoder]
    cases hr : appendType env W opts (need env S rank R [] t) [] (some t) <;> simp
    exact hn hr
  · simp only [newDecoder, append_fuel hn m hm]

/-- The bound on the recursion only matters if it is reached. -/
theorem C20_depth {env : TypeEnv} {W : Nat} {opts : Option InitOptions} {n : Nat} {t : Option TypeId} (h : newDecoder env W opts n t ≠ .diverges) (m : Nat) (hm : n ≤ m) :
    newDecoder env W opts m t = newDecoder env W opts n t := by
  simp only [newDecoder] at h ⊢
  rw [append_fuel (fun hc => by rw [hc] at h; exact h rfl) m hm]

/-- **C20**, refuted for recursion through slices, arrays and pointers without a struct: `NewDecoder` never returns. `Wraps`: the type is an array, slice or pointer whose element type needs a decoder, and not one of the steps `Tied`. -/
theorem C20_diverges {env : TypeEnv} {W : Nat} {opts : Option InitOptions} {U : TypeId → Prop} (hU : ∀ t, U t → Wraps env t ∧ U (env t).elem) {t : TypeId} (ht : U t) (depth : Nat) :
    newDecoder env W opts depth (some t) = .diverges := by
  simp only [newDecoder, append_diverges hU depth [] t ht]

/-- `type L []L`: `NewDecoder` never returns. -/
theorem C20_refuted {W : Nat} {opts : Option InitOptions} (depth : Nat) : newDecoder demoEnv W opts depth (some 16) = .diverges := by
  refine C20_diverges (U := fun t => t = 16) ?_ rfl depth
  rintro t rfl
  refine ⟨⟨.slice rfl rfl rfl, .inr (.inl rfl), fun h => ?_⟩, rfl⟩
  have := h.2.2.1
  cases this

/-- `type U struct{ A [][2]U }`: `NewDecoder` never returns either, although `U` is a struct. -/
theorem C20_refuted_struct {W : Nat} {opts : Option InitOptions} (depth : Nat) : newDecoder demoEnv W opts depth (some 17) = .diverges := by
  have h : ∀ n s, appendType demoEnv W opts n s (some 17) = .fuel ∧ appendType demoEnv W opts n s (some 18) = .fuel ∧ appendType demoEnv W opts n s (some 19) = .fuel := by
    intro n
    induction n with
    | zero => intro s; exact ⟨rfl, rfl, rfl⟩
    | succ n ih =>
      intro s
      refine ⟨?_, ?_, ?_⟩
      · have e : demoEnv 17 = { kind := .struct, size := 24, fields := [⟨b!"A", [], 18, 0⟩] } := rfl
        simp [appendType, e, appendFields, parseTag, (ih _).2.1]
      · show linkParent s.length (s.length + 1) (appendType demoEnv W opts n (s ++ [{ type := .slice, size := 24, typ := some 18 }]) (some 19)) = .fuel
        rw [(ih _).2.2]; rfl
      · show (match appendType demoEnv W opts n (s ++ [{ type := .array, size := 48, typ := some 19 }]) (some 17) with
          | .ok stack => AppendRes.ok (stack.modify (s.length + 1) fun f => { f with parent := some s.length, cap := 2 })
          | r => r) = .fuel
        rw [(ih _).1]
  simp only [newDecoder, (h depth []).1]

/-- **C20**, refuted for interface types with methods: `NewDecoder` panics instead of returning an error. -/
theorem C20_refuted_interface {W : Nat} {opts : Option InitOptions} (depth : Nat) : newDecoder demoEnv W opts (depth + 1) (some 20) = .panic := rfl

/-- With nil init options `NewDecoder` panics on `struct{ F []int `json:",string"` }`. -/
theorem C20_refuted_options : newDecoder demoEnv 8 none 20 (some 48) = .panic := rfl

/-- The hypotheses of `C20_recursive` are met by `type T struct{ Kids []T; Name string }`, which is recursive. -/
theorem C20_recursive_case {W : Nat} {opts : Option InitOptions} : ∃ depth d, ∀ m, depth ≤ m → newDecoder demoEnv W opts m (some 12) = .ok d := by
  have hch : ∀ t ∈ [12, 13, 2], ∀ c, Child demoEnv t c → (t = 12 ∧ (c = 13 ∨ c = 2)) ∨ (t = 13 ∧ c = 12) := by
    intro t ht c hc
    simp only [List.mem_cons, List.not_mem_nil, or_false] at ht
    rcases ht with rfl | rfl | rfl
    · cases hc with
      | array _ h _ | slice _ h _ | pointer _ h | key _ h _ | value _ h _ => cases h
      | @field f r _ _ hf _ =>
        have hf : f ∈ [(⟨b!"Kids", [], 13, 0⟩ : FieldInfo), ⟨b!"Name", [], 2, 24⟩] := hf
        simp only [List.mem_cons, List.not_mem_nil, or_false] at hf
        rcases hf with rfl | rfl
        · exact .inl ⟨rfl, .inl rfl⟩
        · exact .inl ⟨rfl, .inr rfl⟩
    · cases hc with
      | array _ h _ | pointer _ h | key _ h _ | value _ h _ => cases h
      | slice => exact .inr ⟨rfl, rfl⟩
      | field _ h => cases h
    · cases hc with
      | array _ h _ | slice _ h _ | pointer _ h | key _ h _ | value _ h _ => cases h
      | field _ h => cases h
  have hreach : ∀ c, Reach demoEnv 12 c → c ∈ [12, 13, 2] := by
    intro c hc
    induction hc with
    | self => simp
    | step _ hc ih => rcases hch _ ih _ hc with ⟨-, rfl | rfl⟩ | ⟨-, rfl⟩ <;> simp
  obtain ⟨n, r, h1, h2⟩ := C20_recursive (env := demoEnv) (W := W) (opts := opts) (t := 12) [12, 13, 2] (by simp)
    (fun t ht c hc => by rcases hch t ht c hc with ⟨-, rfl | rfl⟩ | ⟨-, rfl⟩ <;> simp)
    (fun t => if t = 12 then 2 else if t = 13 then 1 else 0)
    (fun t ht c hc => by
      rcases hch t ht c hc with ⟨rfl, rfl | rfl⟩ | ⟨rfl, rfl⟩
      · exact .inr (by decide)
      · exact .inr (by decide)
      · exact .inl ⟨.inr (.inl rfl), rfl, rfl, by decide⟩)
  have hn : newDecoder demoEnv W opts n (some 12) ≠ .diverges := by rw [h2 n (Nat.le_refl _)]; exact h1
  have hplain : ∀ c, c ∈ [12, 13, 2] → ¬ BadTag demoEnv c := by
    intro c hc hb
    simp only [List.mem_cons, List.not_mem_nil, or_false] at hc
    obtain ⟨-, hk, f, hf, name, htag, -⟩ := hb
    rcases hc with rfl | rfl | rfl
    · have hf : f ∈ [(⟨b!"Kids", [], 13, 0⟩ : FieldInfo), ⟨b!"Name", [], 2, 24⟩] := hf
      simp only [List.mem_cons, List.not_mem_nil, or_false] at hf
      rw [tag_iff] at htag
      rcases hf with rfl | rfl <;> exact absurd htag (by simp [parseTag])
    · cases hk
    · cases hk
  have hkind : ∀ c, c ∈ [12, 13, 2] → ¬ BadKind demoEnv c ∧ ¬ BadInterface demoEnv c := by
    intro c hc
    simp only [List.mem_cons, List.not_mem_nil, or_false] at hc
    rcases hc with rfl | rfl | rfl <;> exact ⟨fun h => (by have := h.2; cases this), fun h => (by have := h.2.1; cases this)⟩
  obtain ⟨d, hd⟩ := C20_supported hn (fun c hc => (hkind c (hreach c hc)).1) (fun c hc => (hkind c (hreach c hc)).2) (fun c hc hb => (hplain c (hreach c hc) hb).elim)
  refine ⟨n, d, fun m hm => ?_⟩
  rw [h2 m hm, ← h2 n (Nat.le_refl _), hd]

/-- The hypothesis of `C20_finite` is met by `[][]int`. -/
example : Acc (fun c t => Child demoEnv t c) 28 := by
  have h27 : ∀ c, ¬ Child demoEnv 27 c := by
    intro c hc
    cases hc with
    | array _ h _ | pointer _ h | key _ h _ | value _ h _ => cases h
    | slice _ _ h => cases h
    | field _ h => cases h
  refine .intro _ fun c hc => ?_
  cases hc with
  | array _ h _ | pointer _ h | key _ h _ | value _ h _ => cases h
  | slice => exact .intro _ fun c hc => (h27 c hc).elim
  | field _ h => cases h

/-! ## C19 -/

/-- **C19**, with DisallowStringTagOptOnUnsupportedTypes: if a reachable field has the `string` option on an unsupported type, and `NewDecoder` comes to an end, it returns ErrStringTagOptionOnUnsupportedType (unless another type is
unsupported, which may be reported instead). -/
theorem C19_rejected {env : TypeEnv} {W : Nat} {o : InitOptions} (ho : o.disallowStringTagOptOnUnsupportedTypes = true) {depth : Nat} {t c : TypeId} (hr : newDecoder env W (some o) depth (some t) ≠ .diverges)
    (hc : Reach env t c) (hb : BadTag env c) (hi : ∀ c, Reach env t c → ¬ BadInterface env c) :
    newDecoder env W (some o) depth (some t) = .err .stringTag ∨ ∃ c, Reach env t c ∧ BadKind env c ∧ newDecoder env W (some o) depth (some t) = .err (.unsupportedType c) := by
  have h := C20_outcomes (env := env) (W := W) (opts := some o) (depth := depth) (t := t)
  cases hn : newDecoder env W (some o) depth (some t) with
  | ok d =>
    rw [hn] at h
    obtain ⟨o', h1, h2⟩ := (h c hc).2.2 hb
    cases h1; rw [ho] at h2; cases h2
  | err e =>
    rw [hn] at h
    rcases h with ⟨c, h1, h2, rfl⟩ | ⟨rfl, -⟩
    · exact .inr ⟨c, h1, h2, rfl⟩
    · exact .inl rfl
  | panic =>
    rw [hn] at h
    rcases h with ⟨c, h1, h2⟩ | ⟨h1, -⟩
    · exact (hi c h1 h2).elim
    · cases h1
  | diverges => exact (hr hn).elim

/-- **C19**: ErrStringTagOptionOnUnsupportedType is only returned if it was asked for and there is such a field. -/
theorem C19_only {env : TypeEnv} {W : Nat} {opts : Option InitOptions} {depth : Nat} {t : TypeId} (h : newDecoder env W opts depth (some t) = .err .stringTag) :
    (∃ o, opts = some o ∧ o.disallowStringTagOptOnUnsupportedTypes = true) ∧ ∃ c, Reach env t c ∧ BadTag env c := by
  have h' := C20_outcomes (env := env) (W := W) (opts := opts) (depth := depth) (t := t)
  rw [h] at h'
  rcases h' with ⟨c, -, -, h'⟩ | ⟨-, h1, h2⟩
  · cases h'
  · exact ⟨h1, h2⟩

/-- **C19**, without the option: the tag option is ignored, that is, `NewDecoder` returns the same decoder (or error) as for the types without it. -/
theorem C19_ignored {env env' : TypeEnv} {W : Nat} {o : InitOptions} (ho : o.disallowStringTagOptOnUnsupportedTypes = false) (h : SameTypes env env') (depth : Nat) (t : Option TypeId) :
    newDecoder env W (some o) depth t = newDecoder env' W (some o) depth t := by
  simp only [newDecoder, append_strip ho h]

/-- A case: `struct{ F []int `json:",string"` }` is rejected on request, otherwise it is as good as `struct{ F []int }`. -/
example : newDecoder demoEnv 8 (some ⟨true⟩) 20 (some 48) = .err .stringTag ∧ BadTag demoEnv 48 := by
  refine ⟨rfl, rfl, rfl, ⟨b!"F", b!",string", 27, 0⟩, List.mem_cons_self, b!"F", ?_, rfl⟩
  rw [tag_iff]; decide
example : SameTypes demoEnv (fun t => if t = 48 then { demoEnv 48 with fields := [⟨b!"F", [], 27, 0⟩] } else demoEnv t) := by
  have hrefl : ∀ fs, UnstrungL demoEnv fs fs := fun fs => by
    induction fs with
    | nil => exact .nil
    | cons f fs ih => exact .cons (.inl rfl) ih
  intro t
  by_cases ht : t = 48
  · subst ht
    refine ⟨[⟨b!"F", [], 27, 0⟩], .cons (.inr ⟨rfl, rfl, rfl, rfl, b!"F", ?_, ?_⟩) .nil, rfl⟩
    · rw [tag_iff]; decide
    · rw [tag_iff]; decide
  · exact ⟨_, hrefl _, by simp [ht]⟩

/-! ## C18 -/

/-- **C18**: the meaning of a tag is determined by its text (`TagMeans`): every tag has exactly one. -/
theorem C18_tag (name tag : Bytes) : ∃ r, TagMeans name tag r ∧ ∀ r', TagMeans name tag r' → r' = r := by
  obtain ⟨r, h⟩ := tag_exists name tag
  exact ⟨r, h, fun r' h' => tag_unique h' h⟩

/-- **C18**, names, for all struct types (recursive ones too): the decoder has an entry for each field that is not ignored, in the order of the fields, with the name in its tag and its offset. -/
theorem C18_table {env : TypeEnv} {W : Nat} {opts : Option InitOptions} {depth : Nat} {t : TypeId} {d : Decoder} (hu : TypeInfo.unmarshaler (env t) = false) (hk : (env t).kind = .struct) (hne : (env t).fields ≠ [])
    (h : newDecoder env W opts depth (some t) = .ok d) : ∃ f, d.frames[0]? = some f ∧ FrameFields d.frames (env t).fields f.fields := by
  simp only [newDecoder] at h
  split at h <;> cases h
  rename_i s hs
  exact struct_named hu hk hne hs

/-- **C18**, names: the tree of a struct type, which determines what `Decode` does (C25, C34), has an entry for each field that is not ignored, in order, with the name in its tag, its offset, and the tree of its type, which is `quoted`
exactly if the tag has the option `string` and the type is a bool, string or number. -/
theorem C18_names_partial {env : TypeEnv} {x : Ext} {opts : Option InitOptions} {depth : Nat} {t : TypeId} {ty : Ty} (h : HasTree env x opts depth (some t) ty) (hu : TypeInfo.unmarshaler (env t) = false)
    (hk : (env t).kind = .struct) (hne : (env t).fields ≠ []) :
    ∃ fs, ty = .struct (env t).size fs ∧ FieldsOf (fun t ty => ∃ allow depth seen seen', typeTree env allow depth seen t = some (ty, seen')) (env t).fields fs := by
  obtain ⟨-, allow, seen, -, h⟩ := h
  cases depth with
  | zero => cases h
  | succ depth =>
    have hu : (env t).implJSON = false ∧ (env t).implText = false := by simpa [TypeInfo.unmarshaler] using hu
    simp only [typeTree, hu.1, hu.2, hk, hne, if_false, Bool.false_eq_true] at h
    rw [Option.map_eq_some_iff] at h
    obtain ⟨⟨l, s⟩, h1, h2⟩ := h
    cases h2
    exact ⟨l, rfl, Ignored.FieldsOf.mono (fun f _ ty ⟨a, b, h⟩ => ⟨_, _, a, b, h⟩) (Ignored.fieldTrees_of _ _ h1)⟩

/-- Whatever the input is (a document that does not fit the type, unknown members, a text that is no JSON, any options, any history of the decoder), `Decode` does not change a byte of the destination that does not belong to a known
field, whether it succeeds or fails. The type has no recursion. -/
theorem C18_outside_partial {x : Ext} {ty : Ty} {d : Decoder} (hd : DecoderFor x ty d) {src : Bytes} {doc : Except (Nat × Nat) JVal} {mem : Block} {o : Option Options} {r : DecodeRes}
    (hr : decode x d src doc (some mem) o = some r) : ∃ mem', r.mem = some mem' ∧ ∀ j, ¬ Covered x ty 0 j → mem'[j]? = mem[j]? := by
  have hnil : NilDests d := by
    obtain ⟨env, opts, depth, t, d₀, -, h2, h3⟩ := hd
    exact served_nilDests (fresh_nilDests h2) h3
  exact Cover.decode_same (decoderFor_ready hd) hnil hr

/-- **C18**, ignored fields: for types without recursion `Decode` never writes a field tagged `-`, whether in the struct itself, in structs in its fields, or in array elements, and whatever the input is. -/
theorem C18_ignored_partial {env : TypeEnv} {x : Ext} {opts : Option InitOptions} {depth : Nat} {t : TypeId} {ty : Ty} (h : HasTree env x opts depth (some t) ty) {d₀ d : Decoder}
    (hn : newDecoder env x.W opts depth (some t) = .ok d₀) (hs : Served x d₀ d) {src : Bytes} {doc : Except (Nat × Nat) JVal} {mem : Block} {o : Option Options} {r : DecodeRes}
    (hr : decode x d src doc (some mem) o = some r) : ∃ mem', r.mem = some mem' ∧ ∀ j, Ignored env t 0 j → mem'[j]? = mem[j]? := by
  obtain ⟨mem', h1, h2⟩ := C18_outside_partial ⟨env, opts, depth, some t, d₀, h, hn, hs⟩ hr
  refine ⟨mem', h1, fun j hj => h2 j ?_⟩
  obtain ⟨hL, allow, seen, -, htree⟩ := h
  exact Ignored.ignored_not_cov hL depth [] t ty seen 0 j htree hj

/-- The full statement of C18 about fields tagged `-`: for every type, document and destination, they keep their contents. -/
def IgnoredKept (x : Ext) : Prop :=
  ∀ (env : TypeEnv) (opts : Option InitOptions) (depth : Nat) (t : TypeId) (d₀ d : Decoder), Layout env x → newDecoder env x.W opts depth (some t) = .ok d₀ → Served x d₀ d →
    ∀ (src : Bytes) (v : JVal) (mem mem' : Block) (o : Option Options) (r : DecodeRes), Wf src v → mem.length = (env t).size → decode x d src (.ok v) (some mem) o = some r → r.mem = some mem' →
    ∀ j, Ignored env t 0 j → mem'[j]? = mem[j]?

/-- `int`, `Q = struct{X int; Next *Q}`, `*Q` and ``struct{Skip int `json:"-"`; R Q}``. -/
def skipTypes : List TypeInfo := [
  { kind := .int .int, size := 8 },
  { kind := .struct, size := 16, fields := [⟨b!"X", [], 0, 0⟩, ⟨b!"Next", [], 2, 8⟩] },
  { kind := .pointer, size := 8, elem := 1 },
  { kind := .struct, size := 24, fields := [⟨b!"Skip", b!"-", 0, 0⟩, ⟨b!"R", [], 1, 8⟩] }]

/-- A program with these types. -/
def skipEnv : TypeEnv := fun t => skipTypes.getD t { kind := .other }

theorem skip_layout : Layout skipEnv demoX := by
  intro t
  rcases t with _ | _ | _ | _ | t
  · rfl
  · exact ⟨by decide, by simp [Layout.FieldsIn, skipEnv, skipTypes]⟩
  · rfl
  · exact ⟨by decide, by simp [Layout.FieldsIn, skipEnv, skipTypes]⟩
  · exact True.intro

/-- **C18 is false of the code for recursive types**: ``struct{Skip int `json:"-"`; R Q}`` with `Q = struct{X int; Next *Q}` and the document `{"R":{"Next":{"X":1},"X":5}}`. After the recursion the member `X` of `R` is written at the
offset of `X` in the whole struct instead of in `R`, which is where `Skip` is: `Skip` becomes 5. -/
theorem C18_refuted : ¬ IgnoredKept demoX := by
  intro h
  have hi : Ignored skipEnv 3 0 0 := .here (f := ⟨b!"Skip", b!"-", 0, 0⟩) rfl rfl (by show _ ∈ [(⟨b!"Skip", b!"-", 0, 0⟩ : FieldInfo), ⟨b!"R", [], 1, 8⟩]; simp) (tag_iff.2 (by decide)) (by decide) (by decide)
  obtain ⟨d, hd⟩ : ∃ d, newDecoder skipEnv demoX.W (some defaultInitOptions) 20 (some 3) = .ok d := ⟨_, rfl⟩
  have hdoc := demo_doc (src := b!"{\"R\":{\"Next\":{\"X\":1},\"X\":5}}") (by decide)
  have hk : (match newDecoder skipEnv demoX.W (some defaultInitOptions) 20 (some 3) with
      | .ok d => ((decode demoX d b!"{\"R\":{\"Next\":{\"X\":1},\"X\":5}}" (.ok (demoDoc b!"{\"R\":{\"Next\":{\"X\":1},\"X\":5}}")) (some (zeros 24)) (some defaultOptions)).bind fun r => r.mem).bind (intAt 0)
      | _ => none) = some 5 := by decide +kernel
  rw [hd] at hk
  simp only [Option.bind_eq_some_iff] at hk
  obtain ⟨m, ⟨r, hr, hm⟩, h0⟩ := hk
  have := h skipEnv _ 20 3 d d skip_layout hd .new _ _ _ _ _ _ hdoc.2 rfl hr hm 0 hi
  have h1 : intAt 0 m = intAt 0 (zeros 24) := by simp only [intAt, this]
  rw [h1] at h0
  exact absurd h0 (by decide)

/-- A case: the field `Skip` of type 45 is ignored; after a document with a member `Skip` it is as before. -/
example : Ignored demoEnv 45 0 96 := by
  refine .here (f := ⟨b!"Skip", b!"-", 1, 96⟩) rfl rfl ?_ (tag_iff.2 (by decide)) (by decide) (by decide)
  show _ ∈ [(⟨b!"ID", b!"id", 46, 0⟩ : FieldInfo), ⟨b!"Name", [], 2, 8⟩, ⟨b!"Pos", [], 47, 24⟩, ⟨b!"Tags", [], 11, 72⟩, ⟨b!"Any", [], 3, 80⟩, ⟨b!"Skip", b!"-", 1, 96⟩, ⟨b!"Q", b!",string", 0, 104⟩, ⟨b!"J", [], 22, 112⟩]
  simp
example : (okMem (demoUnmarshal 45 b!"{\"id\":7,\"Skip\":9,\"Name\":\"x\"}" (zeros 120))).bind (fun b => some (intAt 0 b, intAt 96 b, strAt 8 b)) = some (some 7, some 0, some b!"x") := by decide +kernel

/-- The same with a document that ends the struct in `Pos` too early (C26). -/
example : (okMem (demoUnmarshal 45 b!"{\"Pos\":[{\"u\":{}},{\"X\":1}],\"Skip\":9,\"id\":7}" (zeros 120))).bind (fun b => some (intAt 0 b, intAt 96 b)) = some (some 7, some 0) := by decide +kernel

/-- `encoding/json` names a field tagged `-,` "-"; here the field is ignored. -/
theorem C18_dash_comma (name : Bytes) : TagMeans name b!"-," none := tag_iff.2 rfl

/-- Tags. -/
example : TagMeans b!"F" b!"f,string" (some (b!"f", true)) ∧ TagMeans b!"F" b!",string" (some (b!"F", true)) ∧ TagMeans b!"F" b!"f,omitempty,string" (some (b!"f", false)) ∧ TagMeans b!"F" b!"-" none ∧
    TagMeans b!"F" [] (some (b!"F", false)) := by
  refine ⟨?_, ?_, ?_, ?_, ?_⟩ <;> rw [tag_iff] <;> decide

end Verif.Props
