import Verif.Props.Place
import Verif.Props.Right
import Verif.Proof.RightMono
import Verif.Proof.Unique
/-!
# C67: decoding one document on top of another

Programs read several documents into one variable: defaults first, then what overrides them. For structs and maps this is as reading a single document with the members of both.
-/
namespace Verif.Props
open Verif.Model Verif.Spec Verif.Big Verif.Proof Verif.Proof.Reads Verif.Proof.Demo Verif.Proof.Outcome Verif.Proof.Unique

/-- Types into which the members of an object are decoded one by one. -/
inductive Layered : Ty → Prop
  | struct {n : Nat} {fs : List (Bytes × Nat × Ty)} : Layered (.struct n fs)
  | map {k : KeyTy} {t : Ty} : Layered (.map k t)

/-- Go on with the second step if the first one succeeds. -/
def thenV {α : Type} (r : R α) (f : α → R α) : R α :=
  match r with
  | .ok a => f a
  | r => r

theorem structV_append {x : Ext} {src : Bytes} {o : Options} {fs : List (Bytes × (JVal → Val → R Val))} {ms' : List ((Nat × Nat) × JVal)} : ∀ (ms : List ((Nat × Nat) × JVal)) (Ws : List Val),
    structV x src o fs (ms ++ ms') Ws = thenV (structV x src o fs ms Ws) (structV x src o fs ms')
  | [], _ => rfl
  | ((i, e), v) :: ms, Ws => by
    have ih := structV_append (x := x) (src := src) (o := o) (fs := fs) (ms' := ms') ms
    simp only [List.cons_append, structV]
    cases (Model.slice src (i + 1) (e - 1)).bind (keyName o) with
    | none => rfl
    | some name =>
      simp only []
      cases findField x o ((fs.map (·.1)).zipIdx) name with
      | none =>
        simp only []
        split
        · rfl
        · split
          · rfl
          · exact ih _
      | some j =>
        simp only []
        cases fs[j]? with
        | none => rfl
        | some f =>
          cases Ws[j]? with
          | none => rfl
          | some W =>
            simp only []
            cases f.2 v W with
            | ok W' => exact ih _
            | err i e W' => rfl
            | crash => rfl
            | unsup => rfl

theorem mapV_append {x : Ext} {src : Bytes} {f : JVal → Val → R Val} {k : KeyTy} {z : Val} {fresh : Bool} {ms' : List ((Nat × Nat) × JVal)} : ∀ (ms : List ((Nat × Nat) × JVal)) (m : List (Key × Val)),
    mapV x src f k z fresh (ms ++ ms') m = thenV (mapV x src f k z fresh ms m) (mapV x src f k z fresh ms')
  | [], _ => rfl
  | ((i, e), v) :: ms, m => by
    have ih := mapV_append (x := x) (src := src) (f := f) (k := k) (z := z) (fresh := fresh) (ms' := ms') ms
    simp only [List.cons_append, mapV]
    cases (Model.slice src (i + 1) (e - 1)).bind fun key => k.key x key with
    | none => rfl
    | some r =>
      cases r with
      | error e => rfl
      | ok k' =>
        simp only []
        cases f v (if fresh = true then z else (lookupV k' m).getD z) with
        | ok W => exact ih _
        | err i e W => rfl
        | crash => rfl
        | unsup => rfl

/-- The reading of the members of both documents is the reading of the first and then, if that succeeds, of the second. -/
theorem layer_reads {x : Ext} {src : Bytes} {o : Options} {ty : Ty} (hl : Layered ty) {a z : Nat} {ms1 ms2 : List ((Nat × Nat) × JVal)} {V : Val} (hV : Safe.HasTy ty V)
    (ht : RightDoc x src (some o) ty (.obj a (ms1 ++ ms2) z)) :
    decPV x src (some o) ty (.obj a (ms1 ++ ms2) z) V = thenV (decPV x src (some o) ty (.obj a ms1 z) V) (decPV x src (some o) ty (.obj a ms2 z)) := by
  cases hl with
  | struct =>
    obtain ⟨Ws, rfl, -⟩ := hV
    simp only [decPV]
    by_cases h1 : ms1 = []
    · subst h1; simp [thenV]
    · rw [if_neg (by simp [h1]), if_neg h1, structV_append]
      cases structV x src o _ ms1 Ws with
      | ok Ws1 =>
        simp only [thenV, R.map]
        by_cases h2 : ms2 = []
        · subst h2; simp [structV, R.map]
        · rw [if_neg h2]
      | err i e W => rfl
      | crash => rfl
      | unsup => rfl
  | map =>
    rename_i k t
    simp only [decPV]
    by_cases hko : k = .other
    · have h0 := ht.1 hko
      obtain ⟨rfl, rfl⟩ := List.append_eq_nil_iff.1 h0
      simp [mapV, thenV, R.map, mapParts]
    · simp only [hko, false_and, if_false]
      rw [mapV_append]
      cases mapV x src _ k _ _ ms1 (mapParts V) <;> rfl

theorem layer_right {x : Ext} {src : Bytes} {o : Options} {ty : Ty} (hl : Layered ty) {a z : Nat} {ms1 ms2 : List ((Nat × Nat) × JVal)} (ht : RightDoc x src (some o) ty (.obj a (ms1 ++ ms2) z)) :
    RightDoc x src (some o) ty (.obj a ms1 z) ∧ RightDoc x src (some o) ty (.obj a ms2 z) := by
  cases hl with
  | struct => exact ⟨fun o' ho' => Right.butLast_prefix (fun _ h => Right.rightM_mono h) (ht o' ho'), fun o' ho' => Sim.ButLast.suffix (ht o' ho')⟩
  | map =>
    refine ⟨⟨fun hk => ?_, Right.butLast_prefix (fun m h => Right.right_mono _ _ m.2 h) ht.2⟩, fun hk => ?_, Sim.ButLast.suffix ht.2⟩
    · exact (List.append_eq_nil_iff.1 (ht.1 hk)).1
    · exact (List.append_eq_nil_iff.1 (ht.1 hk)).2

theorem wfM_append {src : Bytes} : ∀ {ms ms' : List ((Nat × Nat) × JVal)}, WfM src (ms ++ ms') → WfM src ms ∧ WfM src ms'
  | [], _, h => ⟨trivial, h⟩
  | _ :: _, _, h => ⟨⟨h.1, h.2.1, (wfM_append h.2.2).1⟩, (wfM_append h.2.2).2⟩

/-- Two calls with the same outcome return the same error and leave the same value. -/
theorem layer_same {x : Ext} {ty : Ty} {v v' : JVal} {r r' : Option DecodeRes} (h : SameOutcome v v' r r') {i : Int} {e : Option Err} {V : Val} (hr : Returns x ty r i e V) :
    ∃ i', Returns x ty r' i' e V ∧ ((i = -1 ∧ i' = -1) ∨ SameToken v v' i i') := by
  obtain ⟨q, m, rfl, h2, h3, h4, h5⟩ := hr
  match r', h with
  | some q', h => exact ⟨q'.errIndex, ⟨q', m, rfl, rfl, h.1.symm.trans h3, h.2.1.symm.trans h4, h5⟩, by rw [← h2]; exact h.2.2.2⟩

/-- The full statement of C67 for a type: let the third document be an object with the members of the first two, one after the other (white space aside). If `Decode` of the first succeeds, `Decode` of the second into what the first has
left has the result of `Decode` of the third: the same error, if any, at the same token, and the same value. If `Decode` of the first fails, `Decode` of the third fails in the same way. `F`: the decoders of the type. -/
def LayersOf (x : Ext) (ty : Ty) (F : Decoder → Prop) (P : Bytes → Options → JVal → Prop) : Prop :=
  ∀ d d2 d3, F d → F d2 → F d3 → ∀ src1 src2 src a1 ns1 z1 a2 ns2 z2 a ms1 ms2 z,
    Wf src1 (.obj a1 ns1 z1) → Wf src2 (.obj a2 ns2 z2) → Wf src (.obj a (ms1 ++ ms2) z) → SameDocM src1 src ns1 ms1 → SameDocM src2 src ns2 ms2 →
    (∀ rt, CallsJSON d rt → IgnoresSpace x src1 src rt) → (∀ rt, CallsJSON d2 rt → IgnoresSpace x src2 src rt) → ∀ (o : Options), P src o (.obj a (ms1 ++ ms2) z) →
    ∀ mem V i e V1, Dest x ty mem V → Returns x ty (decode x d src1 (.ok (.obj a1 ns1 z1)) (some mem) (some o)) i e V1 → ∀ mem3, Dest x ty mem3 V →
    match e with
    | some e => ∃ i', Returns x ty (decode x d3 src (.ok (.obj a (ms1 ++ ms2) z)) (some mem3) (some o)) i' (some e) V1 ∧ SameToken (.obj a1 ns1 z1) (.obj a ms1 z) i i'
    | none => ∀ mem1 i2 e2 V2, Dest x ty mem1 V1 → Returns x ty (decode x d2 src2 (.ok (.obj a2 ns2 z2)) (some mem1) (some o)) i2 e2 V2 →
        ∃ i', Returns x ty (decode x d3 src (.ok (.obj a (ms1 ++ ms2) z)) (some mem3) (some o)) i' e2 V2 ∧ ((i2 = -1 ∧ i' = -1) ∨ SameToken (.obj a2 ns2 z2) (.obj a ms2 z) i2 i')

/-- The full statement of C67 for a type with a tree. -/
def Layers (x : Ext) (ty : Ty) (P : Bytes → Options → JVal → Prop) : Prop := LayersOf x ty (DecoderFor x ty) P

/-- From the readings to the calls. -/
theorem layers_core {x : Ext} {ty : Ty} {F : Decoder → Prop} {P : Bytes → Options → JVal → Prop} (read : Bytes → Options → JVal → Val → R Val)
    (hread : ∀ d src v o, F d → Wf src v → P src o v → ∀ mem V, Dest x ty mem V → match read src o v V with
      | .ok V' => Returns x ty (decode x d src (.ok v) (some mem) (some o)) (-1) none V'
      | .err i e V' => Returns x ty (decode x d src (.ok v) (some mem) (some o)) i (some e) V'
      | .crash => decode x d src (.ok v) (some mem) (some o) = none
      | .unsup => False)
    (hP : ∀ src o a ms1 ms2 z, P src o (.obj a (ms1 ++ ms2) z) → P src o (.obj a ms1 z) ∧ P src o (.obj a ms2 z))
    (hA : ∀ src o a ms1 ms2 z V, Safe.HasTy ty V → P src o (.obj a (ms1 ++ ms2) z) → read src o (.obj a (ms1 ++ ms2) z) V = thenV (read src o (.obj a ms1 z) V) (read src o (.obj a ms2 z))) :
    LayersOf x ty F P := by
  intro d d2 d3 hd hd2 hd3 src1 src2 src a1 ns1 z1 a2 ns2 z2 a ms1 ms2 z hw1 hw2 hw hs1 hs2 hj1 hj2 o ht mem V i e V1 hm h1 mem3 hm3
  obtain ⟨ha, hz, ho, hc, hms⟩ := id hw
  have hwa : Wf src (.obj a ms1 z) := ⟨ha, hz, ho, hc, (wfM_append hms).1⟩
  have hwb : Wf src (.obj a ms2 z) := ⟨ha, hz, ho, hc, (wfM_append hms).2⟩
  obtain ⟨hta, htb⟩ := hP _ _ _ _ _ _ ht
  have hrd := hA src o a ms1 ms2 z V (Safe.holds_typed ty hm.2) ht
  obtain ⟨j1, g1, q1⟩ := layer_same (C53_position hw1 hwa hs1 hj1 mem (some o)) h1
  have r1 := hread d _ _ o hd hwa hta _ _ hm
  have r3 := hread d3 _ _ o hd3 hw ht _ _ hm3
  rw [hrd] at r3
  cases hc : read src o (.obj a ms1 z) V with
  | ok W =>
    rw [hc] at r1 r3
    obtain ⟨rfl, rfl, rfl⟩ := returns_unique r1 g1
    intro mem1 i2 e2 V2 hm1 h2
    obtain ⟨j2, g2, q2⟩ := layer_same (C53_position hw2 hwb hs2 hj2 mem1 (some o)) h2
    have r2 := hread d2 _ _ o hd2 hwb htb _ _ hm1
    simp only [thenV] at r3
    cases hc2 : read src o (.obj a ms2 z) W with
    | ok W2 =>
      rw [hc2] at r2 r3
      obtain ⟨rfl, rfl, rfl⟩ := returns_unique r2 g2
      exact ⟨_, r3, q2⟩
    | err k er W2 =>
      rw [hc2] at r2 r3
      obtain ⟨rfl, rfl, rfl⟩ := returns_unique r2 g2
      exact ⟨_, r3, q2⟩
    | crash => rw [hc2] at r2; obtain ⟨_, _, h, -⟩ := g2; rw [r2] at h; cases h
    | unsup => rw [hc2] at r2; exact r2.elim
  | err k er W =>
    rw [hc] at r1 r3
    obtain ⟨rfl, rfl, rfl⟩ := returns_unique r1 g1
    refine ⟨_, r3, q1.resolve_left fun h => ?_⟩
    exact absurd h.2 (by omega)
  | crash => rw [hc] at r1; obtain ⟨_, _, h, -⟩ := g1; rw [r1] at h; cases h
  | unsup => rw [hc] at r1; exact r1.elim

/-- **C67**, for every struct and map type except `map[string]string` (`C67_refuted`), on documents away from the spots listed in `Right`. Three decoders with any histories; in particular one decoder for all three calls. -/
theorem C67_layers_partial (x : Ext) {ty : Ty} (hl : Layered ty) : Layers x ty (fun src o v => RightDoc x src (some o) ty v) :=
  layers_core (fun src o => decPV x src (some o) ty) (fun _ _ _ _ hd hw ht _ _ hm => C35_reading_partial hd hw hm ht) (fun _ _ _ _ _ _ => layer_right hl) fun _ _ _ _ _ _ _ hV ht => layer_reads hl hV ht

/-- A decoder without `UnmarshalJSON` frames. -/
theorem layer_json {x : Ext} {d : Decoder} {src src' : Bytes} (h : ∀ f ∈ d.frames, ¬ f.type = .jsonUnmarshaler) : ∀ rt, CallsJSON d rt → IgnoresSpace x src src' rt := by
  rintro rt ⟨f, hf, h', -⟩
  exact absurd h' (h f hf)

/-- `{"X":1,"Y":"a"}` and then `{"Y":"b"}` into a `struct{X int; Y string}` leave what `{ "X":1,"Y":"a","Y":"b"}` leaves: `{1, "b"}`, whatever was there before. -/
example {mem : Block} {V : Val} (hm : Dest demoX (demoTree 4) mem V) : ∃ mem1 V1 V2,
    Returns demoX (demoTree 4) (decode demoX (demoDec 4) b!"{\"X\":1,\"Y\":\"a\"}" (.ok (demoDoc b!"{\"X\":1,\"Y\":\"a\"}")) (some mem) (some defaultOptions)) (-1) none V1 ∧ Dest demoX (demoTree 4) mem1 V1 ∧
    Returns demoX (demoTree 4) (decode demoX (demoDec 4) b!"{\"Y\":\"b\"}" (.ok (demoDoc b!"{\"Y\":\"b\"}")) (some mem1) (some defaultOptions)) (-1) none V2 ∧
    Returns demoX (demoTree 4) (decode demoX (demoDec 4) b!"{ \"X\":1,\"Y\":\"a\",\"Y\":\"b\"}" (.ok (demoDoc b!"{ \"X\":1,\"Y\":\"a\",\"Y\":\"b\"}")) (some mem) (some defaultOptions)) (-1) none V2 := by
  obtain ⟨hd, -, -, hw1, ht1⟩ := demo_case (t := 4) (src := b!"{\"X\":1,\"Y\":\"a\"}") (o := defaultOptions) (by decide) (by decide) (by decide)
  obtain ⟨-, -, -, hw2, ht2⟩ := demo_case (t := 4) (src := b!"{\"Y\":\"b\"}") (o := defaultOptions) (by decide) (by decide) (by decide)
  obtain ⟨-, -, -, hw3, ht3⟩ := demo_case (t := 4) (src := b!"{ \"X\":1,\"Y\":\"a\",\"Y\":\"b\"}") (o := defaultOptions) (by decide) (by decide) (by decide)
  obtain ⟨Ws, rfl, W1, Ws', rfl, -, W2, Ws'', rfl, -, rfl⟩ := Safe.holds_typed (demoTree 4) hm.2
  have r1 : Returns demoX (demoTree 4) _ (-1) none (.struct [.int 1, .str ⟨b!"a", true⟩]) := returns_ok hd hm ht1 rfl
  obtain ⟨-, mem1, -, -, -, -, hm1⟩ := id r1
  have r2 : Returns demoX (demoTree 4) _ (-1) none (.struct [.int 1, .str ⟨b!"b", true⟩]) := returns_ok hd hm1 ht2 rfl
  obtain ⟨i', q, h⟩ := C67_layers_partial demoX .struct _ _ _ hd hd hd _ _ b!"{ \"X\":1,\"Y\":\"a\",\"Y\":\"b\"}" 0 [((1, 4), .num true 5 6), ((7, 10), .str 11 14)] 14 0 [((1, 4), .str 5 8)] 8
    0 [((2, 5), .num true 6 7), ((8, 11), .str 12 15)] [((16, 19), .str 20 23)] 23 hw1 hw2 hw3 (by simp only [SameDoc, SameDocM]; decide) (by simp only [SameDoc, SameDocM]; decide)
    (layer_json (by decide)) (layer_json (by decide)) defaultOptions (C35_contains ht3) _ _ _ _ _ hm r1 _ hm _ _ _ _ hm1 r2
  rcases h with ⟨-, rfl⟩ | ⟨k, a, a', -, -, h, -⟩
  · exact ⟨_, _, _, r1, hm1, r2, q⟩
  · exact absurd h (by omega)

/-- With a pointer: `{"B":7}` and then `{"A":5}` into a `struct{A *int; B int}` leave what `{"B":7,"A":5}` leaves, whatever was there before. -/
example {mem : Block} {V : Val} (hm : Dest demoX (demoTree 8) mem V) : ∃ mem1 V1,
    Returns demoX (demoTree 8) (decode demoX (demoDec 8) b!"{\"B\":7}" (.ok (demoDoc b!"{\"B\":7}")) (some mem) (some defaultOptions)) (-1) none V1 ∧ Dest demoX (demoTree 8) mem1 V1 ∧
    Returns demoX (demoTree 8) (decode demoX (demoDec 8) b!"{\"A\":5}" (.ok (demoDoc b!"{\"A\":5}")) (some mem1) (some defaultOptions)) (-1) none (.struct [.ptr (.int 5), .int 7]) ∧
    Returns demoX (demoTree 8) (decode demoX (demoDec 8) b!"{\"B\":7,\"A\":5}" (.ok (demoDoc b!"{\"B\":7,\"A\":5}")) (some mem) (some defaultOptions)) (-1) none (.struct [.ptr (.int 5), .int 7]) := by
  obtain ⟨hd, hw1, hR1⟩ := Right.demo_right (t := 8) (src := b!"{\"B\":7}") (o := defaultOptions) (by decide) (by decide) (by decide)
  obtain ⟨-, hw2, hR2⟩ := Right.demo_right (t := 8) (src := b!"{\"A\":5}") (o := defaultOptions) (by decide) (by decide) (by decide)
  obtain ⟨-, hw3, hR3⟩ := Right.demo_right (t := 8) (src := b!"{\"B\":7,\"A\":5}") (o := defaultOptions) (by decide) (by decide) (by decide)
  obtain ⟨Ws, rfl, W1, Ws', rfl, -, W2, Ws'', rfl, -, rfl⟩ := Safe.holds_typed (demoTree 8) hm.2
  have r1 : Returns demoX (demoTree 8) _ (-1) none (.struct [W1, .int 7]) := C35_reading_partial hd hw1 hm hR1
  obtain ⟨-, mem1, -, -, -, -, hm1⟩ := id r1
  have r2 : Returns demoX (demoTree 8) _ (-1) none (.struct [.ptr (.int 5), .int 7]) := C35_reading_partial hd hw2 hm1 hR2
  obtain ⟨i', q, h⟩ := C67_layers_partial demoX .struct _ _ _ hd hd hd _ _ b!"{\"B\":7,\"A\":5}" 0 [((1, 4), .num true 5 6)] 6 0 [((1, 4), .num true 5 6)] 6
    0 [((1, 4), .num true 5 6)] [((7, 10), .num true 11 12)] 12 hw1 hw2 hw3 (by simp only [SameDoc, SameDocM]; decide) (by simp only [SameDoc, SameDocM]; decide)
    (layer_json (by decide)) (layer_json (by decide)) defaultOptions hR3 _ _ _ _ _ hm r1 _ hm _ _ _ _ hm1 r2
  rcases h with ⟨-, rfl⟩ | ⟨k, a, a', -, -, h, -⟩
  · exact ⟨_, _, r1, hm1, r2, q⟩
  · exact absurd h (by omega)

/-- **C67 is false of the code** for `map[string]string`: `{"a":"x"}` and then `{"b":"y"}` leave one entry, `{"a":"x","b":"y"}` leaves two. -/
theorem C67_refuted : ¬ Layers demoX (demoTree 10) (fun _ _ _ => True) := by
  intro h
  obtain ⟨hd, hm, -, hw1, ht1⟩ := demo_case (t := 10) (src := b!"{\"a\":\"x\"}") (o := defaultOptions) (by decide) (by decide) (by decide)
  obtain ⟨-, -, -, hw2, ht2⟩ := demo_case (t := 10) (src := b!"{\"b\":\"y\"}") (o := defaultOptions) (by decide) (by decide) (by decide)
  obtain ⟨-, -, -, hw3, ht3⟩ := demo_case (t := 10) (src := b!"{\"a\":\"x\",\"b\":\"y\"}") (o := defaultOptions) (by decide) (by decide) (by decide)
  have r1 : Returns demoX (demoTree 10) _ (-1) none (.map [(.str ⟨b!"a", true⟩, .str ⟨b!"x", true⟩)]) := returns_ok hd hm ht1 rfl
  obtain ⟨-, mem1, -, -, -, -, hm1⟩ := id r1
  have r2 : Returns demoX (demoTree 10) _ (-1) none (.map [(.str ⟨b!"b", true⟩, .str ⟨b!"y", true⟩)]) := returns_ok hd hm1 ht2 rfl
  have r3 : Returns demoX (demoTree 10) _ (-1) none (.map [(.str ⟨b!"a", true⟩, .str ⟨b!"x", true⟩), (.str ⟨b!"b", true⟩, .str ⟨b!"y", true⟩)]) := returns_ok hd hm ht3 rfl
  obtain ⟨i', q, -⟩ := h _ _ _ hd hd hd b!"{\"a\":\"x\"}" b!"{\"b\":\"y\"}" b!"{\"a\":\"x\",\"b\":\"y\"}" 0 [((1, 4), .str 5 8)] 8 0 [((1, 4), .str 5 8)] 8 0 [((1, 4), .str 5 8)] [((9, 12), .str 13 16)] 16
    hw1 hw2 hw3 (by simp only [SameDoc, SameDocM]; decide) (by simp only [SameDoc, SameDocM]; decide) (layer_json (by decide)) (layer_json (by decide)) defaultOptions trivial _ _ _ _ _ hm r1 _ hm _ _ _ _ hm1 r2
  obtain ⟨-, -, hq⟩ := returns_unique r3 q
  cases hq

end Verif.Props
