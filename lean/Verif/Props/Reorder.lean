import Verif.Proof.ReorderRight
import Verif.Props.Right
import Verif.Proof.OnceB
import Verif.Proof.Unique
import Verif.Proof.Demo
/-!
# C57: the order of object members does not matter
-/
namespace Verif.Props
open Verif.Model Verif.Spec Verif.Big Verif.Proof Verif.Proof.Demo Verif.Proof.Outcome Verif.Proof.Unique

/-- **C57**, in full, for a type: if `Decode` of a document without duplicate members succeeds, `Decode` of the document with the members of its objects, at any depth, in any other order (by any decoder for the type, into
the same destination) succeeds and leaves an equal value. -/
def OrderIrrelevant (x : Ext) (ty : Ty) (P : Bytes → Options → JVal → Prop) : Prop :=
  ∀ d d', DecoderFor x ty d → DecoderFor x ty d' → ∀ src src' v v' (o : Options) mem mem' V W, Wf src v → Wf src' v' → Reordered src src' v v' → NoDuplicates x src o ty v → P src o v →
    (∀ rt, JsonIn rt ty → Unordered x src src' rt) → Dest x ty mem V → Dest x ty mem' V →
    Returns x ty (decode x d src (.ok v) (some mem) (some o)) (-1) none W → ∃ W', Returns x ty (decode x d' src' (.ok v') (some mem') (some o)) (-1) none W' ∧ GoEq W W'

/-- **C57** for every type with a tree. Missing: documents that reach the spots listed in `Tame` (`C57_refuted`). Nothing is assumed about the spots the reordered document reaches. -/
theorem C57_order_partial (x : Ext) (ty : Ty) : OrderIrrelevant x ty (fun src o v => TameDoc x src (some o) ty v) := by
  rintro d d' hd hd' src src' v v' o mem mem' V W hw hw' hr ⟨hn, ho, hk⟩ ht hx hm hm' ⟨r, m, e1, e2, e3, e4, e5⟩
  obtain ⟨V', m', h1, -, h3, h4⟩ := ok_inv hd hm ht e1 e3
  rw [e4] at h3; cases h3
  have := holds_unique _ e5.2 h4.2
  subst this
  obtain ⟨W', g1, g2⟩ := Reorder.top_re ty hx hw hw' hr hn ho hk (Safe.holds_typed ty hm.2) h1
  have hrd := Reads.decode_reads (Reads.decoderFor_ready hd') (src := src') (v := v') (o := some o) hm'.1 hm'.2 (Fragment.decTop_ne ty v' mem' 0 (Reorder.top_tame ty hw hw' hr ht))
  rw [g1] at hrd
  obtain ⟨r', m2, f1, f2, f3, f4, f5, f6⟩ := hrd
  exact ⟨W', ⟨r', m2, f1, f2, f3, f4, f5.trans hm'.1, f6⟩, g2⟩

/-- **C57** for every type with a tree, if both documents are within `RightDoc`: with pointers and `struct{}` at the right end of arrays and documents. -/
theorem C57_right_partial {x : Ext} {ty : Ty} {d d' : Decoder} (hd : DecoderFor x ty d) (hd' : DecoderFor x ty d') {src src' : Bytes} {v v' : JVal} {o : Options} {mem mem' : Block} {V W : Val} (hw : Wf src v) (hw' : Wf src' v')
    (hr : Reordered src src' v v') (hn : NoDuplicates x src o ty v) (hR : RightDoc x src (some o) ty v) (hR' : RightDoc x src' (some o) ty v') (hx : ∀ rt, JsonIn rt ty → Unordered x src src' rt)
    (hm : Dest x ty mem V) (hm' : Dest x ty mem' V) (h : Returns x ty (decode x d src (.ok v) (some mem) (some o)) (-1) none W) :
    ∃ W', Returns x ty (decode x d' src' (.ok v') (some mem') (some o)) (-1) none W' ∧ GoEq W W' := by
  obtain ⟨hn, ho, hk⟩ := hn
  obtain ⟨r, m, e1, e2, e3, e4, e5⟩ := h
  obtain ⟨V', m', h1, -, h3, h4⟩ := right_inv hd hw hm hR e1 e3
  rw [e4] at h3; cases h3
  have := holds_unique _ e5.2 h4.2
  subst this
  obtain ⟨W', g1, g2⟩ := Reorder.decP_re ty hx hw hw' hr hn ho hk (Safe.holds_typed ty hm.2) h1
  exact ⟨W', right_returns hd' hw' hm' hR' g1, g2⟩

/-- `{"L":[null,5],"N":1}` and `{"N":1,"L":[null,5]}` into a `struct{L []*int; N int}`, anything inside before. -/
example {mem : Block} {V W : Val} (hm : Dest demoX (demoTree 98) mem V)
    (h : Returns demoX (demoTree 98) (decode demoX (demoDec 98) b!"{\"L\":[null,5],\"N\":1}" (.ok (demoDoc b!"{\"L\":[null,5],\"N\":1}")) (some mem) (some defaultOptions)) (-1) none W) : ∃ W',
    Returns demoX (demoTree 98) (decode demoX (demoDec 98) b!"{\"N\":1,\"L\":[null,5]}" (.ok (demoDoc b!"{\"N\":1,\"L\":[null,5]}")) (some mem) (some defaultOptions)) (-1) none W' ∧ GoEq W W' := by
  obtain ⟨hd, hw, hR⟩ := Right.demo_right (t := 98) (src := b!"{\"L\":[null,5],\"N\":1}") (o := defaultOptions) (by decide) (by decide) (by decide)
  obtain ⟨-, hw', hR'⟩ := Right.demo_right (t := 98) (src := b!"{\"N\":1,\"L\":[null,5]}") (o := defaultOptions) (by decide) (by decide) (by decide)
  refine C57_right_partial hd hd hw hw' ?_ ⟨OnceB.noRepeatsB_sound (x := demoX) _ hw (by decide +kernel), OnceB.onceB_sound (x := demoX) (o := defaultOptions) (demoTree 98) hw (by decide +kernel)⟩ hR hR'
    (fun rt h => by rcases h with h | h | h <;> exact h.elim) hm hm h
  change Reordered _ _ (.obj 0 [((1, 4), .arr 5 [.null 6 10, .num true 11 12] 12), ((14, 17), .num true 18 19)] 19) (.obj 0 [((1, 4), .num true 5 6), ((7, 10), .arr 11 [.null 12 16, .num true 17 18] 18)] 19)
  exact ⟨_, _, _, rfl, [((1, 4), .num true 5 6)], (7, 10), _, [], rfl, by decide, ⟨_, _, _, rfl, _, _, rfl, ⟨_, _, rfl⟩, _, _, rfl, ⟨_, _, rfl, by decide⟩, rfl⟩, [], (1, 4), _, [], rfl, by decide, ⟨_, _, rfl, by decide⟩, rfl⟩

/-- A `map[X]any`, `X` with `UnmarshalText`, and anything inside before: both the entries of the map and the members of the object inside in another order. -/
example {mem : Block} {V : Val} (hm : Dest demoX (demoTree 34) mem V) : ∃ W W',
    Returns demoX (demoTree 34) (decode demoX (demoDec 34) b!"{\"k\":{\"p\":1,\"q\":[]},\"l\":2}" (.ok (demoDoc b!"{\"k\":{\"p\":1,\"q\":[]},\"l\":2}")) (some mem) (some defaultOptions)) (-1) none W ∧
    Returns demoX (demoTree 34) (decode demoX (demoDec 34) b!"{ \"l\":2,\"k\":{\"q\":[],\"p\":1}}" (.ok (demoDoc b!"{ \"l\":2,\"k\":{\"q\":[],\"p\":1}}")) (some mem) (some defaultOptions)) (-1) none W' ∧ GoEq W W' := by
  obtain ⟨hd, -, -, hw, ht⟩ := demo_case (t := 34) (src := b!"{\"k\":{\"p\":1,\"q\":[]},\"l\":2}") (o := defaultOptions) (by decide) (by decide +kernel) (by decide +kernel)
  have h2 := demo_doc (src := b!"{ \"l\":2,\"k\":{\"q\":[],\"p\":1}}") (by decide)
  have h1 := returns_ok hd hm ht rfl
  obtain ⟨W', g1, g2⟩ := C57_order_partial demoX (demoTree 34) _ _ hd hd _ _ _ _ _ _ _ _ _ hw h2.2 (by
      change Reordered _ _ (.obj 0 [((1, 4), .obj 5 [((6, 9), .num true 10 11), ((12, 15), .arr 16 [] 17)] 18), ((20, 23), .num true 24 25)] 25)
        (.obj 0 [((2, 5), .num true 6 7), ((8, 11), .obj 12 [((13, 16), .arr 17 [] 18), ((20, 23), .num true 24 25)] 25)] 26)
      refine ⟨_, _, _, rfl, [((2, 5), .num true 6 7)], (8, 11), _, [], rfl, by decide, ?_, [], (2, 5), _, [], rfl, by decide, ⟨_, _, rfl, by decide⟩, rfl⟩
      exact ⟨_, _, _, rfl, [((13, 16), .arr 17 [] 18)], (20, 23), _, [], rfl, by decide, ⟨_, _, rfl, by decide⟩, [], (13, 16), _, [], rfl, by decide, ⟨_, _, _, rfl, rfl⟩, rfl⟩)
    ⟨OnceB.noRepeatsB_sound (x := demoX) _ hw (by decide +kernel), OnceB.onceB_sound (x := demoX) (o := defaultOptions) (demoTree 34) hw (by decide +kernel)⟩ ht (fun rt h => h.elim) hm hm h1
  exact ⟨_, W', h1, g1, g2⟩

/-- A `[]struct{X int; Y string}`, with an unknown member. -/
example {mem : Block} {V W : Val} (hm : Dest demoX (demoTree 5) mem V)
    (h : Returns demoX (demoTree 5) (decode demoX (demoDec 5) b!"[{\"X\":1,\"Y\":\"s\",\"u\":[]}]" (.ok (demoDoc b!"[{\"X\":1,\"Y\":\"s\",\"u\":[]}]")) (some mem) (some defaultOptions)) (-1) none W) : ∃ W',
    Returns demoX (demoTree 5) (decode demoX (demoDec 5) b!"[{\"u\":[],\"Y\":\"s\",\"X\":1}]" (.ok (demoDoc b!"[{\"u\":[],\"Y\":\"s\",\"X\":1}]")) (some mem) (some defaultOptions)) (-1) none W' ∧ GoEq W W' := by
  obtain ⟨hd, -, -, hw, ht⟩ := demo_case (t := 5) (src := b!"[{\"X\":1,\"Y\":\"s\",\"u\":[]}]") (o := defaultOptions) (by decide) (by decide +kernel) (by decide +kernel)
  have h2 := demo_doc (src := b!"[{\"u\":[],\"Y\":\"s\",\"X\":1}]") (by decide)
  exact C57_order_partial demoX (demoTree 5) _ _ hd hd _ _ _ _ _ _ _ _ _ hw h2.2 (by
      change Reordered _ _ (.arr 0 [.obj 1 [((2, 5), .num true 6 7), ((8, 11), .str 12 15), ((16, 19), .arr 20 [] 21)] 22] 23) (.arr 0 [.obj 1 [((2, 5), .arr 6 [] 7), ((9, 12), .str 13 16), ((17, 20), .num true 21 22)] 22] 23)
      refine ⟨_, _, _, rfl, _, _, rfl, ⟨_, _, _, rfl, [((2, 5), .arr 6 [] 7), ((9, 12), .str 13 16)], (17, 20), _, [], rfl, by decide, ⟨_, _, rfl, by decide⟩, ?_⟩, rfl⟩
      exact ⟨[((2, 5), .arr 6 [] 7)], (9, 12), _, [], rfl, by decide, ⟨_, _, rfl, by decide⟩, [], (2, 5), _, [], rfl, by decide, ⟨_, _, _, rfl, rfl⟩, rfl⟩)
    ⟨OnceB.noRepeatsB_sound (x := demoX) _ hw (by decide +kernel), OnceB.onceB_sound (x := demoX) (o := defaultOptions) (demoTree 5) hw (by decide +kernel)⟩ ht (fun rt h => by rcases h with h | h | h <;> exact h.elim) hm hm h

/-! ## The order does matter to the code -/

theorem intAt_holds {i : Nat} {m : Block} {n : Int} {k : IKind} (h : intAt i m = some n) : HoldsS (.int k) m[i]? (.int n) := by
  unfold intAt at h
  split at h
  · cases h; rename_i v hv; exact .inr ⟨_, hv, rfl⟩
  · cases h; rename_i hv; exact .inl ⟨hv, rfl⟩
  · cases h

/-- What `Decode` leaves in a `struct{In struct{E struct{}; B int}; C int}`. -/
theorem returns_63 {res : Option DecodeRes} {a b : Int} (h1 : res.isSome = true) (h2 : res.all (fun r => r.errIndex == -1 && r.err.isNone) = true) (h3 : (res.bind (·.mem)).map List.length = some 16)
    (h4 : (res.bind (·.mem)).bind (intAt 0) = some a) (h5 : (res.bind (·.mem)).bind (intAt 8) = some b) : Returns demoX (demoTree 63) res (-1) none (.struct [.struct [.struct [], .int a], .int b]) := by
  cases res with
  | none => cases h1
  | some r =>
    simp only [Option.bind_some, Option.all_some, Bool.and_eq_true, beq_iff_eq, Option.isNone_iff_eq_none] at h2 h3 h4 h5
    cases hm : r.mem with
    | none => rw [hm] at h3; cases h3
    | some m =>
      rw [hm] at h3 h4 h5
      simp only [Option.map_some, Option.some.injEq, Option.bind_some] at h3 h4 h5
      refine ⟨r, m, rfl, h2.1, h2.2, hm, h3, ?_⟩
      change Holds demoX (.struct 16 [(b!"In", 0, .struct 8 [(b!"E", 0, .emptyStruct), (b!"B", 0, .scalar (.int .int))]), (b!"C", 8, .scalar (.int .int))]) m 0 _
      simp only [Holds, HoldsF]
      refine ⟨by omega, _, rfl, _, _, rfl, ⟨by omega, _, rfl, _, _, rfl, ⟨by omega, rfl⟩, _, _, rfl, ⟨?_, intAt_holds h4⟩, rfl⟩, _, _, rfl, ⟨?_, intAt_holds h5⟩, rfl⟩
      · simp [SKind.bytes, IKind.bits, demoX, h3]
      · simp [SKind.bytes, IKind.bits, demoX, h3]

/-- **C57 is false of the code**: an object for a nested `struct{}` field ends the struct around it, so that `{"In":{"B":1,"E":{}}}` sets `B` and `{"In":{"E":{},"B":1}}` does not. -/
theorem C57_refuted : ¬ OrderIrrelevant demoX (demoTree 63) (fun _ _ _ => True) := by
  intro h
  have hd := demo_for' (t := 63) (by decide)
  have h1 := demo_doc (src := b!"{\"In\":{\"B\":1,\"E\":{}}}") (by decide)
  have h2 := demo_doc (src := b!"{\"In\":{\"E\":{},\"B\":1}}") (by decide)
  have r1 : Returns demoX (demoTree 63) (decode demoX (demoDec 63) b!"{\"In\":{\"B\":1,\"E\":{}}}" (.ok (demoDoc b!"{\"In\":{\"B\":1,\"E\":{}}}")) (some (zeros 16)) (some defaultOptions)) (-1) none
      (.struct [.struct [.struct [], .int 1], .int 0]) := returns_63 (by decide +kernel) (by decide +kernel) (by decide +kernel) (by decide +kernel) (by decide +kernel)
  have r2 : Returns demoX (demoTree 63) (decode demoX (demoDec 63) b!"{\"In\":{\"E\":{},\"B\":1}}" (.ok (demoDoc b!"{\"In\":{\"E\":{},\"B\":1}}")) (some (zeros 16)) (some defaultOptions)) (-1) none
      (.struct [.struct [.struct [], .int 0], .int 0]) := returns_63 (by decide +kernel) (by decide +kernel) (by decide +kernel) (by decide +kernel) (by decide +kernel)
  have hre : Reordered b!"{\"In\":{\"B\":1,\"E\":{}}}" b!"{\"In\":{\"E\":{},\"B\":1}}" (demoDoc b!"{\"In\":{\"B\":1,\"E\":{}}}") (demoDoc b!"{\"In\":{\"E\":{},\"B\":1}}") := by
    refine ⟨0, _, 20, rfl, [], (1, 5), _, [], rfl, rfl, ?_, rfl⟩
    refine ⟨6, _, 19, rfl, [((7, 10), .obj 11 [] 12)], (14, 17), _, [], rfl, rfl, ⟨18, 19, rfl, rfl⟩, ?_⟩
    exact ⟨[], (7, 10), _, [], rfl, rfl, ⟨11, [], 12, rfl, rfl⟩, rfl⟩
  have hno : NoRepeats b!"{\"In\":{\"B\":1,\"E\":{}}}" (demoDoc b!"{\"In\":{\"B\":1,\"E\":{}}}") := OnceB.noRepeatsB_sound (x := demoX) _ h1.2 (by decide +kernel)
  have hon := OnceB.onceB_sound (x := demoX) (o := defaultOptions) (demoTree 63) h1.2 (by decide +kernel)
  obtain ⟨W', g1, g2⟩ := h (demoDec 63) (demoDec 63) hd hd _ _ _ _ defaultOptions (zeros 16) (zeros 16) _ _ h1.2 h2.2 hre ⟨hno, hon⟩ trivial (by
    intro rt h
    rcases h with (h | h | h) | h | h <;> exact h.elim) (zero_dest hd) (zero_dest hd) r1
  obtain ⟨-, -, rfl⟩ := returns_unique g1 r2
  cases g2 with
  | struct _ hs =>
    have := hs 0 _ _ rfl rfl
    cases this with
    | struct _ hs =>
      have := hs 1 _ _ rfl rfl
      cases this

end Verif.Props
