import Verif.Proof.RootVal
import Verif.Props.Structs
import Verif.Props.Drop
/-!
# Objects decoded into a struct that is the destination itself: C24, C25, C31, C35, C36

The destination itself is more tolerant than the structs inside it. The theorems here go beyond `TameDoc`: the value of an unknown key may be an object, a field of type `struct{}` may get an object, and the last member may be
one for a pointer field. Missing, as elsewhere: recursive types, and the documents outside `RootTame`.
-/
namespace Verif.Props
open Verif.Model Verif.Spec Verif.Big Verif.Proof Verif.Proof.Demo Verif.Proof.Outcome Verif.Proof.Unique Verif.Proof.RootVal Verif.Proof.Safe

theorem root_outcome {x : Ext} {n : Nat} {fs : List (Bytes × Nat × Ty)} {d : Decoder} (hd : DecoderFor x (.struct n fs) d) {src : Bytes} {a z : Nat} {ms : List ((Nat × Nat) × JVal)} (hw : WfM src ms)
    {mem : Block} {Ws : List Val} (hm : Dest x (.struct n fs) mem (.struct Ws)) {o : Options} (ht : RootTame x src o fs ms) :
    match rootV x src o fs ms Ws with
    | .ok Ws' => Returns x (.struct n fs) (decode x d src (.ok (.obj a ms z)) (some mem) (some o)) (-1) none (.struct Ws')
    | .err i e Ws' => Returns x (.struct n fs) (decode x d src (.ok (.obj a ms z)) (some mem) (some o)) i (some e) (.struct Ws')
    | .crash => decode x d src (.ok (.obj a ms z)) (some mem) (some o) = none
    | .unsup => False := by
  have hr := Reads.decoderFor_ready hd
  have h := decode_root hr (src := src) (a := a) (z := z) (ms := ms) (o := o) hm.1 hm.2 (root_ne ms mem 0 hw ht)
  have hne := rootV_ne hr.ok hw ht hm.2
  cases hv : rootV x src o fs ms Ws <;> rw [hv] at h
  · obtain ⟨r, m, h1, h2, h3, h4, h5, h6⟩ := h
    exact ⟨r, m, h1, h2, h3, h4, h5.trans hm.1, h6⟩
  · obtain ⟨r, m, h1, h2, h3, h4, h5, h6⟩ := h
    exact ⟨r, m, h1, h2, h3, h4, h5.trans hm.1, h6⟩
  · exact h
  · exact hne hv

/-- **C25** for an object and a struct as destination: `Decode` does what the reading says. -/
theorem C25_root_partial {x : Ext} {n : Nat} {fs : List (Bytes × Nat × Ty)} {d : Decoder} (hd : DecoderFor x (.struct n fs) d) {src : Bytes} {a z : Nat} {ms : List ((Nat × Nat) × JVal)} (hw : Wf src (.obj a ms z))
    {mem : Block} {Ws : List Val} (hm : Dest x (.struct n fs) mem (.struct Ws)) {o : Options} (ht : RootTame x src o fs ms) :
    match rootV x src o fs ms Ws with
    | .ok Ws' => Returns x (.struct n fs) (decode x d src (.ok (.obj a ms z)) (some mem) (some o)) (-1) none (.struct Ws')
    | .err i e Ws' => Returns x (.struct n fs) (decode x d src (.ok (.obj a ms z)) (some mem) (some o)) i (some e) (.struct Ws')
    | .crash => decode x d src (.ok (.obj a ms z)) (some mem) (some o) = none
    | .unsup => False := root_outcome hd hw.2.2.2.2 hm ht

theorem root_inv {x : Ext} {n : Nat} {fs : List (Bytes × Nat × Ty)} {d : Decoder} (hd : DecoderFor x (.struct n fs) d) {src : Bytes} {a z : Nat} {ms : List ((Nat × Nat) × JVal)} (hw : WfM src ms)
    {mem : Block} {Ws : List Val} (hm : Dest x (.struct n fs) mem (.struct Ws)) {o : Options} (ht : RootTame x src o fs ms) {Ws' : List Val}
    (h : Returns x (.struct n fs) (decode x d src (.ok (.obj a ms z)) (some mem) (some o)) (-1) none (.struct Ws')) : rootV x src o fs ms Ws = .ok Ws' := by
  have h' := root_outcome (a := a) (z := z) hd hw hm ht
  cases hr : rootV x src o fs ms Ws with
  | ok Ws2 =>
    rw [hr] at h'
    have := (returns_unique h h').2.2
    cases this; rfl
  | err i e V =>
    rw [hr] at h'
    have := (returns_unique h h').2.1
    cases this
  | crash =>
    rw [hr] at h'
    obtain ⟨r, m, h1, -⟩ := h
    rw [h'] at h1; cases h1
  | unsup => rw [hr] at h'; exact h'.elim

/-- Checker for `RootTame`. -/
def rootTameB (x : Ext) (src : Bytes) (o : Options) (fs : List (Bytes × Nat × Ty)) : List ((Nat × Nat) × JVal) → Bool
  | [] => true
  | ((i, e), v) :: ms =>
    (match (Model.slice src (i + 1) (e - 1)).bind (keyName o) with
      | none => true
      | some name => match findField x o ((fs.map (·.1)).zipIdx) name with
        | some j => match fs[j]? with
          | some f => tameB x src o f.2.2 v || ((ms.isEmpty || f.2.2.isES) && tameDocB x src o f.2.2 v)
          | none => true
        | none => o.disallowUnknownFields || isObj v || !hasObj v) && rootTameB x src o fs ms

theorem rootTameB_sound {x : Ext} {src : Bytes} {o : Options} {fs : List (Bytes × Nat × Ty)} : ∀ {ms : List ((Nat × Nat) × JVal)}, WfM src ms → rootTameB x src o fs ms = true → RootTame x src o fs ms
  | [], _, _ => trivial
  | ((i, e), v) :: ms, hw, h => by
    simp only [rootTameB, Bool.and_eq_true] at h
    refine ⟨fun hk => ?_, fun j f hs hf => ?_, rootTameB_sound hw.2.2 h.2⟩
    · obtain ⟨nm, g1, g2⟩ := key_unknown (o := o) (k := (i, e)) hw.1 hk
      simp only [] at g1
      have := h.1
      simp only [g1, g2, Bool.or_eq_true, Bool.not_eq_true'] at this
      rcases this with (h | h) | h
      · exact .inl h
      · exact .inr (.inl h)
      · exact .inr (.inr h)
    · obtain ⟨nm, g1, g2⟩ := key_selects (o := o) (k := (i, e)) hw.1 hs
      simp only [] at g1
      have := h.1
      simp only [g1, g2, hf, Bool.or_eq_true, Bool.and_eq_true, List.isEmpty_iff] at this
      rcases this with h | ⟨h, h'⟩
      · exact .inl (tameB_sound _ h)
      · refine .inr ⟨h.imp id fun h => ?_, tameDocB_sound _ h'⟩
        revert h
        cases f.2.2 <;> simp [Ty.isES]

/-- `{"u":{"a":[{}]},"E":{"q":1},"B":3}` into a zero `struct{E struct{}; B int}`: everything the theorems ask for, and the result. -/
theorem demo_root : DecoderFor demoX (demoTree 15) (demoDec 15) ∧ Dest demoX (demoTree 15) (zeros 8) (.struct [.struct [], .int 0]) ∧
    Wf b!"{\"u\":{\"a\":[{}]},\"E\":{\"q\":1},\"B\":3}" (demoDoc b!"{\"u\":{\"a\":[{}]},\"E\":{\"q\":1},\"B\":3}") ∧
    demoDoc b!"{\"u\":{\"a\":[{}]},\"E\":{\"q\":1},\"B\":3}" =
      .obj 0 [((1, 4), .obj 5 [((6, 9), .arr 10 [.obj 11 [] 12] 13)] 14), ((16, 19), .obj 20 [((21, 24), .num true 25 26)] 26), ((28, 31), .num true 32 33)] 33 ∧
    RootTame demoX b!"{\"u\":{\"a\":[{}]},\"E\":{\"q\":1},\"B\":3}" defaultOptions [(b!"E", 0, .emptyStruct), (b!"B", 0, .scalar (.int .int))]
      [((1, 4), .obj 5 [((6, 9), .arr 10 [.obj 11 [] 12] 13)] 14), ((16, 19), .obj 20 [((21, 24), .num true 25 26)] 26), ((28, 31), .num true 32 33)] := by
  have hd := demo_for' (t := 15) (by decide)
  have hdoc := demo_doc (src := b!"{\"u\":{\"a\":[{}]},\"E\":{\"q\":1},\"B\":3}") (by decide +kernel)
  have hw : WfM b!"{\"u\":{\"a\":[{}]},\"E\":{\"q\":1},\"B\":3}" [((1, 4), .obj 5 [((6, 9), .arr 10 [.obj 11 [] 12] 13)] 14), ((16, 19), .obj 20 [((21, 24), .num true 25 26)] 26), ((28, 31), .num true 32 33)] := hdoc.2.2.2.2.2
  exact ⟨hd, zero_dest hd, hdoc.2, rfl, rootTameB_sound hw (by decide +kernel)⟩

/-- The example: B is 3. -/
example : Returns demoX (demoTree 15) (decode demoX (demoDec 15) b!"{\"u\":{\"a\":[{}]},\"E\":{\"q\":1},\"B\":3}" (.ok (demoDoc b!"{\"u\":{\"a\":[{}]},\"E\":{\"q\":1},\"B\":3}")) (some (zeros 8)) (some defaultOptions)) (-1) none
    (.struct [.struct [], .int 3]) := by
  obtain ⟨hd, hm, hw, he, ht⟩ := demo_root
  rw [he] at hw ⊢
  exact C25_root_partial (n := 8) (fs := [(b!"E", 0, .emptyStruct), (b!"B", 0, .scalar (.int .int))]) hd hw hm ht

/-- **C24** for an object and a struct as destination: no panic. -/
theorem C24_root_partial {x : Ext} {n : Nat} {fs : List (Bytes × Nat × Ty)} {d : Decoder} (hd : DecoderFor x (.struct n fs) d) {src : Bytes} {a z : Nat} {ms : List ((Nat × Nat) × JVal)} (hw : Wf src (.obj a ms z))
    {mem : Block} {Ws : List Val} (hm : Dest x (.struct n fs) mem (.struct Ws)) {o : Options} (ht : RootTame x src o fs ms) (hc : (Ty.struct n fs).callable = true)
    (hq : (Ty.struct n fs).noQuotedNum = true ∨ noEmptyStr (.obj a ms z) = true) :
    ∃ i e V', Returns x (.struct n fs) (decode x d src (.ok (.obj a ms z)) (some mem) (some o)) i e V' := by
  have h := C25_root_partial hd hw hm ht
  have hT := Safe.holds_typed _ hm.2
  obtain ⟨Ws', hWs, hT⟩ := hT
  cases hWs
  have hs := rootV_safe (x := x) (o := o) hc ms Ws hw.2.2.2.2 hq hT
  cases hr : rootV x src o fs ms Ws <;> rw [hr] at h hs
  · exact ⟨_, _, _, h⟩
  · exact ⟨_, _, _, h⟩
  · exact hs.elim
  · exact h.elim

/-- The example meets the hypotheses. -/
example : ∃ i e V', Returns demoX (demoTree 15) (decode demoX (demoDec 15) b!"{\"u\":{\"a\":[{}]},\"E\":{\"q\":1},\"B\":3}" (.ok (demoDoc b!"{\"u\":{\"a\":[{}]},\"E\":{\"q\":1},\"B\":3}")) (some (zeros 8)) (some defaultOptions)) i e V' := by
  obtain ⟨hd, hm, hw, he, ht⟩ := demo_root
  rw [he] at hw ⊢
  exact C24_root_partial (n := 8) (fs := [(b!"E", 0, .emptyStruct), (b!"B", 0, .scalar (.int .int))]) hd hw hm ht (by decide) (.inl (by decide))

/-- **C31** for an object and a struct as destination: the values of the removed members of the object itself may be objects. -/
theorem C31_root_partial (x : Ext) (n : Nat) (fs : List (Bytes × Nat × Ty)) : SkipsUnknown x (.struct n fs) (fun src o v => ∃ a ms z, v = .obj a ms z ∧ RootTame x src o fs ms) := by
  rintro d hd src src' v w v' o mem V hw hw' ho ⟨a, ms, z, rfl, ht⟩ h hs hj hm
  have hT := Safe.holds_typed _ hm.2
  obtain ⟨Ws, rfl, hT⟩ := hT
  have hwo := Drop.without_wf _ hw h
  have hp := C53_position hwo hw' hs hj mem (some o)
  obtain ⟨ms', rfl, hdrop⟩ : ∃ ms', w = .obj a ms' z ∧ (ms' = ms ∨ DropMembers x src o (fs.map (·.1)) (WithoutF x src o fs) ms ms') := by
    rcases h with h | ⟨a', ms1, ms2, z', e1, e2, h⟩
    · exact ⟨ms, h.symm, .inl rfl⟩
    · cases e1; exact ⟨ms2, e2, .inr h⟩
  obtain ⟨ht', he⟩ : RootTame x src o fs ms' ∧ rootV x src o fs ms Ws = rootV x src o fs ms' Ws := by
    rcases hdrop with rfl | h
    · exact ⟨ht, rfl⟩
    · obtain ⟨h1, h2⟩ := root_drop ho ms ms' hw.2.2.2.2 h ht
      exact ⟨h1, h2 Ws hT⟩
  have r1 := C25_root_partial hd hw hm ht
  have r2 := C25_root_partial hd hwo hm ht'
  rw [← he] at r2
  cases hr : rootV x src o fs ms Ws with
  | crash =>
    rw [hr] at r1 r2
    rw [r2] at hp
    refine .inl ⟨r1, ?_⟩
    cases hq : decode x d src' (.ok v') (some mem) (some o) with
    | none => rfl
    | some r => rw [hq] at hp; exact hp.elim
  | unsup => rw [hr] at r1; exact r1.elim
  | ok V' =>
    rw [hr] at r1 r2
    obtain ⟨r, m, h1, h2, h3, h4, h5⟩ := r2
    rw [h1] at hp
    cases hq : decode x d src' (.ok v') (some mem) (some o) with
    | none => rw [hq] at hp; exact hp.elim
    | some r' =>
      rw [hq] at hp
      obtain ⟨p1, p2, -, p3⟩ := hp
      exact .inr ⟨-1, r'.errIndex, none, .struct V', r1, ⟨r', m, rfl, rfl, p1 ▸ h3, p2 ▸ h4, h5⟩, h2 ▸ p3⟩
  | err i e V' =>
    rw [hr] at r1 r2
    obtain ⟨r, m, h1, h2, h3, h4, h5⟩ := r2
    rw [h1] at hp
    cases hq : decode x d src' (.ok v') (some mem) (some o) with
    | none => rw [hq] at hp; exact hp.elim
    | some r' =>
      rw [hq] at hp
      obtain ⟨p1, p2, -, p3⟩ := hp
      exact .inr ⟨i, r'.errIndex, some e, .struct V', r1, ⟨r', m, rfl, rfl, p1 ▸ h3, p2 ▸ h4, h5⟩, h2 ▸ p3⟩

/-- `{"u":{"a":[{}]},"E":{"q":1},"B":3}` and `{"E":{"q":1},"B":3}` into a `struct{E struct{}; B int}`. -/
example : SameReturn demoX (demoTree 15) (.obj 0 [((16, 19), .obj 20 [((21, 24), .num true 25 26)] 26), ((28, 31), .num true 32 33)] 33) (demoDoc b!"{\"E\":{\"q\":1},\"B\":3}")
    (decode demoX (demoDec 15) b!"{\"u\":{\"a\":[{}]},\"E\":{\"q\":1},\"B\":3}" (.ok (demoDoc b!"{\"u\":{\"a\":[{}]},\"E\":{\"q\":1},\"B\":3}")) (some (zeros 8)) (some defaultOptions))
    (decode demoX (demoDec 15) b!"{\"E\":{\"q\":1},\"B\":3}" (.ok (demoDoc b!"{\"E\":{\"q\":1},\"B\":3}")) (some (zeros 8)) (some defaultOptions)) := by
  obtain ⟨hd, hm, hw, he, ht⟩ := demo_root
  have h2 := demo_doc (src := b!"{\"E\":{\"q\":1},\"B\":3}") (by decide +kernel)
  rw [he] at hw ⊢
  have hk := hw.2.2.2.2.1
  refine C31_root_partial demoX 8 [(b!"E", 0, .emptyStruct), (b!"B", 0, .scalar (.int .int))] (demoDec 15) hd _ _ _ _ _ defaultOptions _ _ hw h2.2 rfl ⟨0, _, 33, rfl, ht⟩ ?_ ?_ ?_ hm
  · exact .inr ⟨0, _, _, 33, rfl, rfl, .inl ⟨unknown_of (k := (1, 4)) (name := b!"u") hk rfl rfl, .inr ⟨_, _, rfl, .inl rfl, .inr ⟨_, _, rfl, .inl rfl, rfl⟩⟩⟩⟩
  · change SameDoc _ _ (.obj _ [(_, .obj _ [(_, .num _ _ _)] _), (_, .num _ _ _)] _) (.obj _ [(_, .obj _ [(_, .num _ _ _)] _), (_, .num _ _ _)] _)
    simp only [SameDoc, SameDocL, SameDocM]
    decide
  · rintro rt ⟨f, hf, h, -⟩
    have : ∀ f ∈ (demoDec 15).frames, ¬ f.type = .jsonUnmarshaler := by decide
    exact absurd h (this f hf)

/-- **C35** for a pointer field of the destination and the last member of the document: a value `v` other than null makes the pointer point to a new value, decoded from `v` as into a destination of the type pointed to; the
other members have the effect they have without it. -/
theorem C35_last_partial {x : Ext} {n : Nat} {fs : List (Bytes × Nat × Ty)} {d de : Decoder} (hd : DecoderFor x (.struct n fs) d) {src : Bytes} {a z : Nat} {ms : List ((Nat × Nat) × JVal)} {k : Nat × Nat} {v : JVal}
    (hw : Wf src (.obj a (ms ++ [(k, v)]) z)) {mem : Block} {Ws : List Val} (hm : Dest x (.struct n fs) mem (.struct Ws)) {o : Options} (ht : RootTame x src o fs (ms ++ [(k, v)]))
    {j : Nat} (hs : KeySelects x src o (fs.map (·.1)) k j) {name : Bytes} {off : Nat} {e : Ty} (hf : fs[j]? = some (name, off, .ptr e)) (hv : ¬ IsNull v)
    (hde : DecoderFor x e de) {Ws1 : List Val} (h1 : Returns x (.struct n fs) (decode x d src (.ok (.obj a ms z)) (some mem) (some o)) (-1) none (.struct Ws1))
    {U : Val} (h2 : Returns x e (decode x de src (.ok v) (some (zeros (e.size x))) (some o)) (-1) none U) :
    Returns x (.struct n fs) (decode x d src (.ok (.obj a (ms ++ [(k, v)]) z)) (some mem) (some o)) (-1) none (.struct (Ws1.set j (.ptr U))) := by
  obtain ⟨hwm1, hwm2⟩ := wfM_append hw.2.2.2.2
  have ht1 := rootTame_left ht
  have ht2 := rootTame_right ht
  have r1 := root_inv hd hwm1 hm ht1 h1
  have hk := key_selects (o := o) (k := k) hwm2.1 hs
  obtain ⟨nm, g1, g2⟩ := hk
  have hTD : TameDoc x src (some o) (.ptr e) v := by
    rcases ht2.2.1 j _ hs hf with h | ⟨-, h⟩
    · exact tameDoc_of h
    · exact h
  have hne : ∀ i q, v ≠ .null i q := fun i q h => hv ⟨i, q, h⟩
  rw [Drop.tameDoc_ptr hne] at hTD
  obtain ⟨q1, q2⟩ := hTD
  have q3 : tokOK src v = true := tokOK_wf hwm2.2.1
  have r2 := (returns_ok_iff hde (zero_dest hde) q2).1 h2
  have hlen : ∃ W, Ws1[j]? = some W := by
    obtain ⟨r, m, -, -, -, -, h5⟩ := h1
    exact dest_field h5 hf
  obtain ⟨W, hW⟩ := hlen
  have := C25_root_partial hd hw hm ht
  rw [rootV_append (by simp) hwm1 ht, r1] at this
  obtain ⟨k1, k2⟩ := k
  simp only [] at g1
  simp only [rootV, g1, g2, hf, hW, memberV, List.isEmpty_nil, Bool.true_or, if_true, Drop.top_ptr hne, q3, q1, r2, R.map, Bool.true_eq_false, if_false] at this
  exact this

/-- `{"B":2,"x":{},"A":1}` into a zero `struct{A *int; B int}`: A points to 1. -/
example : Returns demoX (demoTree 8) (decode demoX (demoDec 8) b!"{\"B\":2,\"x\":{},\"A\":1}" (.ok (demoDoc b!"{\"B\":2,\"x\":{},\"A\":1}")) (some (zeros 16)) (some defaultOptions)) (-1) none (.struct [.ptr (.int 1), .int 2]) := by
  have hd := demo_for' (t := 8) (by decide)
  have hde := demo_for' (t := 1) (by decide)
  have hm : Dest demoX (demoTree 8) (zeros 16) (.struct [.nil, .int 0]) := zero_dest hd
  have hdoc := demo_doc (src := b!"{\"B\":2,\"x\":{},\"A\":1}") (by decide +kernel)
  have hw : Wf b!"{\"B\":2,\"x\":{},\"A\":1}" (.obj 0 ([((1, 4), .num true 5 6), ((7, 10), .obj 11 [] 12)] ++ [((14, 17), .num true 18 19)]) 19) := hdoc.2
  have ht : RootTame demoX b!"{\"B\":2,\"x\":{},\"A\":1}" defaultOptions [(b!"A", 0, .ptr (.scalar (.int .int))), (b!"B", 8, .scalar (.int .int))] ([((1, 4), .num true 5 6), ((7, 10), .obj 11 [] 12)] ++ [((14, 17), .num true 18 19)]) :=
    rootTameB_sound hw.2.2.2.2 (by decide +kernel)
  have hk := hw.2.2.2.2.2.2.2.2.1
  refine C35_last_partial (n := 16) (a := 0) (z := 19) (ms := [((1, 4), .num true 5 6), ((7, 10), .obj 11 [] 12)]) (k := (14, 17)) (j := 0) (e := .scalar (.int .int)) (off := 0) (name := b!"A") (Ws1 := [.nil, .int 2]) hd hw hm ht
    (selects_of (k := (14, 17)) (name := b!"A") hk rfl rfl) rfl (by rintro ⟨_, _, h⟩; cases h) hde ?_ ?_
  · exact root_outcome (n := 16) (a := 0) (z := 19) hd (wfM_append hw.2.2.2.2).1 hm (rootTame_left ht)
  · exact returns_ok (ty := .scalar (.int .int)) hde (zero_dest hde) trivial rfl

theorem same_returns {x : Ext} {ty : Ty} {r1 r2 : Option DecodeRes} {i : Int} {e : Option Err} {V : Val} (h1 : Returns x ty r1 i e V) (h2 : Returns x ty r2 i e V) :
    (∀ i e V, Returns x ty r1 i e V ↔ Returns x ty r2 i e V) ∧ (r1 = none ↔ r2 = none) := by
  refine ⟨fun i' e' V' => ⟨fun h => ?_, fun h => ?_⟩, ?_⟩
  · obtain ⟨rfl, rfl, rfl⟩ := returns_unique h1 h; exact h2
  · obtain ⟨rfl, rfl, rfl⟩ := returns_unique h2 h; exact h1
  · obtain ⟨_, _, rfl, -⟩ := h1
    obtain ⟨_, _, rfl, -⟩ := h2
    simp

/-- **C36** for a field of type `struct{}` of the destination: a member that gives it an object, or null, has no effect. -/
theorem C36_field_partial {x : Ext} {n : Nat} {fs : List (Bytes × Nat × Ty)} {d : Decoder} (hd : DecoderFor x (.struct n fs) d) {src : Bytes} {a z : Nat} {ms ms' : List ((Nat × Nat) × JVal)} {k : Nat × Nat} {v : JVal}
    (hw : Wf src (.obj a (ms ++ (k, v) :: ms') z)) {mem : Block} {Ws : List Val} (hm : Dest x (.struct n fs) mem (.struct Ws)) {o : Options} (ht : RootTame x src o fs (ms ++ (k, v) :: ms'))
    {j : Nat} (hs : KeySelects x src o (fs.map (·.1)) k j) {name : Bytes} {off : Nat} (hf : fs[j]? = some (name, off, .emptyStruct)) (hv : (∃ i qs q, v = .obj i qs q) ∨ IsNull v) :
    (∀ i e V, Returns x (.struct n fs) (decode x d src (.ok (.obj a (ms ++ (k, v) :: ms') z)) (some mem) (some o)) i e V ↔
      Returns x (.struct n fs) (decode x d src (.ok (.obj a (ms ++ ms') z)) (some mem) (some o)) i e V) ∧
    (decode x d src (.ok (.obj a (ms ++ (k, v) :: ms') z)) (some mem) (some o) = none ↔ decode x d src (.ok (.obj a (ms ++ ms') z)) (some mem) (some o) = none) := by
  have hT := Safe.holds_typed _ hm.2
  obtain ⟨Ws', hWs, hT⟩ := hT
  cases hWs
  have hwm := hw.2.2.2.2
  obtain ⟨ht', he⟩ := root_cut hs hf (hv.imp (fun ⟨i, qs, q, h⟩ => by subst h; rfl) id) hwm ht
  have he := he Ws hT
  obtain ⟨w1, -, -, w2⟩ := wfM_append hwm
  have r1 := root_outcome (a := a) (z := z) hd hwm hm ht
  have r2 := root_outcome (a := a) (z := z) hd (wfM_join w1 w2) hm ht'
  rw [← he] at r2
  cases hr : rootV x src o fs (ms ++ (k, v) :: ms') Ws with
  | unsup => rw [hr] at r1; exact r1.elim
  | crash =>
    rw [hr] at r1 r2
    rw [r1, r2]
    exact ⟨fun _ _ _ => Iff.rfl, Iff.rfl⟩
  | ok W =>
    rw [hr] at r1 r2
    exact same_returns r1 r2
  | err i e W =>
    rw [hr] at r1 r2
    exact same_returns r1 r2

/-- The example: without the member `"E":{"q":1}` the outcome is the same. -/
example : Returns demoX (demoTree 15) (decode demoX (demoDec 15) b!"{\"u\":{\"a\":[{}]},\"E\":{\"q\":1},\"B\":3}" (.ok (.obj 0 [((1, 4), .obj 5 [((6, 9), .arr 10 [.obj 11 [] 12] 13)] 14), ((28, 31), .num true 32 33)] 33)) (some (zeros 8)) (some defaultOptions)) (-1) none
    (.struct [.struct [], .int 3]) := by
  obtain ⟨hd, hm, hw, he, ht⟩ := demo_root
  rw [he] at hw
  have hk := hw.2.2.2.2.2.2.1
  exact ((C36_field_partial (n := 8) (ms := [((1, 4), .obj 5 [((6, 9), .arr 10 [.obj 11 [] 12] 13)] 14)]) (k := (16, 19)) (j := 0) (off := 0) (name := b!"E") hd hw hm ht (selects_of (k := (16, 19)) (name := b!"E") hk rfl rfl) rfl (.inl ⟨_, _, _, rfl⟩)).1 _ _ _).1
    (C25_root_partial (n := 8) (fs := [(b!"E", 0, .emptyStruct), (b!"B", 0, .scalar (.int .int))]) hd hw hm ht)

end Verif.Props
