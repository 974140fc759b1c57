import Verif.Props.Grow
import Verif.Props.Structs
/-!
# Composite destinations, part by part: C26, C27, C28, C30, C34 on `RightDoc` documents

What `Decode` does to an element, an entry, a field or a pointee is what it does when the JSON value is decoded alone, by any decoder for the type of the part, into any variable that holds the old value of the part.
-/
namespace Verif.Props
open Verif Verif.Model Verif.Spec Verif.Big Verif.Proof Verif.Proof.Outcome Verif.Proof.Unique Verif.Proof.Comp Verif.Proof.Demo

/-- The JSON value alone, decoded by any decoder for the type into any variable that holds `W`: `Decode` returns `(i, e)` and leaves `W'`. -/
def Alone (x : Ext) (src : Bytes) (o : Option Options) (ty : Ty) (v : JVal) (W : Val) (i : Int) (e : Option Err) (W' : Val) : Prop :=
  ∀ d mem, DecoderFor x ty d → Dest x ty mem W → Returns x ty (decode x d src (.ok v) (some mem) o) i e W'

/-- A failure, if and only if the reading fails. -/
theorem right_err_iff {x : Ext} {ty : Ty} {d : Decoder} (hd : DecoderFor x ty d) {src : Bytes} {v : JVal} (hw : Wf src v) {mem : Block} {V V' : Val} (hm : Dest x ty mem V)
    {o : Option Options} (hR : RightDoc x src o ty v) {i : Int} {e : Err} : Returns x ty (decode x d src (.ok v) (some mem) o) i (some e) V' ↔ ∃ p : Nat, i = p ∧ decPV x src o ty v V = .err p e V' := by
  have hr := C35_reading_partial hd hw hm hR
  constructor
  · intro h
    cases hc : decPV x src o ty v V with
    | ok V2 =>
      rw [hc] at hr
      obtain ⟨-, he, -⟩ := returns_unique h hr
      cases he
    | err p e2 V2 =>
      rw [hc] at hr
      obtain ⟨h1, h2, h3⟩ := returns_unique h hr
      cases h2
      exact ⟨p, h1, by rw [h3]⟩
    | crash =>
      rw [hc] at hr
      obtain ⟨r, m, h1, -⟩ := h
      rw [hr] at h1; cases h1
    | unsup => rw [hc] at hr; exact hr.elim
  · rintro ⟨p, rfl, h⟩
    rw [h] at hr; exact hr

theorem alone_ok {x : Ext} {ty : Ty} {src : Bytes} {v : JVal} (hw : Wf src v) {o : Option Options} (hR : RightDoc x src o ty v) {W W' : Val} (h : decPV x src o ty v W = .ok W') : Alone x src o ty v W (-1) none W' :=
  fun _ _ hd hm => right_returns hd hw hm hR h

theorem alone_err {x : Ext} {ty : Ty} {src : Bytes} {v : JVal} (hw : Wf src v) {o : Option Options} (hR : RightDoc x src o ty v) {W W' : Val} {p : Nat} {e : Err} (h : decPV x src o ty v W = .err p e W') :
    Alone x src o ty v W p (some e) W' := fun _ _ hd hm => (right_err_iff hd hw hm hR).2 ⟨p, rfl, h⟩

/-! ## Arrays: C26 -/

/-- An element that has a place, as a document of its own, is within `RightDoc`. -/
theorem right_array {x : Ext} {src : Bytes} {o : Option Options} {n : Nat} {e : Ty} {i z : Nat} {vs : List JVal} (h : RightDoc x src o (.array n e) (.arr i vs z)) {j : Nat} (hj : j < n) {v : JVal} (hv : vs[j]? = some v) :
    RightDoc x src o e v := by
  simp only [RightDoc, Right] at h
  split at h
  · exact Sim.ButLast.mem (fun v h => Right.right_mono _ .final v h) (fun v h => Right.right_last _ v h) h v (List.mem_of_getElem? hv)
  · refine Right.right_mono _ .final v (h v ?_)
    refine List.mem_of_getElem? (i := j) ?_
    rw [List.getElem?_take, if_pos hj]; exact hv

theorem array_old {x : Ext} {n : Nat} {e : Ty} {mem : Block} {Ws : List Val} (hm : Dest x (.array n e) mem (.arr Ws)) : Ws.length = n := by
  obtain ⟨-, -, es, h1, h2, -⟩ := hm
  cases h1; exact h2

/-- **C26, partial** (missing: documents outside `RightDoc`, where the claim is false: `C26_refuted`): after success every JSON element that has a place is in it as if it had been decoded there alone; the other places keep their values;
JSON elements without a place have no influence. -/
theorem C26_elements_partial {x : Ext} {n : Nat} {e : Ty} {d : Decoder} (hd : DecoderFor x (.array n e) d) {src : Bytes} {i z : Nat} {vs : List JVal} (hw : Wf src (.arr i vs z)) {mem : Block} {Ws : List Val}
    (hm : Dest x (.array n e) mem (.arr Ws)) {o : Option Options} (hR : RightDoc x src o (.array n e) (.arr i vs z)) {V' : Val}
    (h : Returns x (.array n e) (decode x d src (.ok (.arr i vs z)) (some mem) o) (-1) none V') :
    ∃ Ws', V' = .arr Ws' ∧ Ws'.length = n ∧
      (∀ (j : Nat) v W, vs[j]? = some v → Ws[j]? = some W → ∃ W', Ws'[j]? = some W' ∧ Alone x src o e v W (-1) none W') ∧
      ∀ j : Nat, vs.length ≤ j → Ws'[j]? = Ws[j]? := by
  have hl := array_old hm
  rw [right_ok_iff hd hw hm hR] at h
  simp only [decPV] at h
  obtain ⟨Ws', h1, rfl⟩ := map_ok_iff.1 h
  obtain ⟨g1, g2, g3⟩ := (elemsV_ok _ _ _ _).1 h1
  refine ⟨Ws', rfl, g1.trans hl, fun j v W hv hW => ?_, g3⟩
  have hj : j < Ws.length := (List.getElem?_eq_some_iff.1 hW).1
  have hj' : j < Ws'.length := by omega
  exact ⟨Ws'[j], List.getElem?_eq_getElem hj', alone_ok (Safe.wfL_mem hw.2.2.2.2 v (List.mem_of_getElem? hv)) (right_array hR (by omega) hv) (g2 j v W _ hv hW (List.getElem?_eq_getElem hj'))⟩

/-- **C26, partial**, the converse: if every JSON element that has a place can be decoded alone into it, the array is decoded, with these results. -/
theorem C26_success_partial {x : Ext} {n : Nat} {e : Ty} {d : Decoder} (hd : DecoderFor x (.array n e) d) {src : Bytes} {i z : Nat} {vs : List JVal} (hw : Wf src (.arr i vs z)) {mem : Block} {Ws Ws' : List Val}
    (hm : Dest x (.array n e) mem (.arr Ws)) {o : Option Options} (hR : RightDoc x src o (.array n e) (.arr i vs z)) (hl : Ws'.length = n)
    (h1 : ∀ (j : Nat) v W W', vs[j]? = some v → Ws[j]? = some W → Ws'[j]? = some W' → ∃ de memj, DecoderFor x e de ∧ Dest x e memj W ∧ Returns x e (decode x de src (.ok v) (some memj) o) (-1) none W')
    (h2 : ∀ j : Nat, vs.length ≤ j → Ws'[j]? = Ws[j]?) :
    Returns x (.array n e) (decode x d src (.ok (.arr i vs z)) (some mem) o) (-1) none (.arr Ws') := by
  have hl0 := array_old hm
  rw [right_ok_iff hd hw hm hR]
  simp only [decPV]
  refine map_ok_iff.2 ⟨Ws', (elemsV_ok _ _ _ _).2 ⟨hl.trans hl0.symm, fun j v W W' hv hW hW' => ?_, h2⟩, rfl⟩
  obtain ⟨de, memj, q1, q2, q3⟩ := h1 j v W W' hv hW hW'
  have hj : j < Ws.length := (List.getElem?_eq_some_iff.1 hW).1
  exact (right_ok_iff q1 (Safe.wfL_mem hw.2.2.2.2 v (List.mem_of_getElem? hv)) q2 (right_array hR (by omega) hv)).1 q3

/-- **C26, partial**, failures: the first element that cannot be decoded decides; the elements before it are decoded, the places behind it keep their values. -/
theorem C26_error_partial {x : Ext} {n : Nat} {e : Ty} {d : Decoder} (hd : DecoderFor x (.array n e) d) {src : Bytes} {i z : Nat} {vs : List JVal} (hw : Wf src (.arr i vs z)) {mem : Block} {Ws : List Val}
    (hm : Dest x (.array n e) mem (.arr Ws)) {o : Option Options} (hR : RightDoc x src o (.array n e) (.arr i vs z)) {p : Int} {er : Err} {V' : Val}
    (h : Returns x (.array n e) (decode x d src (.ok (.arr i vs z)) (some mem) o) p (some er) V') :
    ∃ Ws' j v W W', V' = .arr Ws' ∧ Ws'.length = n ∧ vs[j]? = some v ∧ Ws[j]? = some W ∧ Ws'[j]? = some W' ∧ Alone x src o e v W p (some er) W' ∧
      (∀ (k : Nat) v W, k < j → vs[k]? = some v → Ws[k]? = some W → ∃ W', Ws'[k]? = some W' ∧ Alone x src o e v W (-1) none W') ∧ ∀ k : Nat, j < k → Ws'[k]? = Ws[k]? := by
  have hl := array_old hm
  obtain ⟨q, hq, h2⟩ := (right_err_iff hd hw hm hR).1 h
  subst hq
  simp only [decPV] at h2
  obtain ⟨Ws', h1, rfl⟩ := map_err_iff.1 h2
  obtain ⟨g1, j, v, W, W', g2, g3, g4, g5, g6, g7⟩ := elemsV_err _ _ _ _ h1
  have hwf : ∀ {k : Nat} {v : JVal}, vs[k]? = some v → Wf src v := fun hv => Safe.wfL_mem hw.2.2.2.2 _ (List.mem_of_getElem? hv)
  have hlt : ∀ {k : Nat} {W : Val}, Ws[k]? = some W → k < n := fun hW => by have := (List.getElem?_eq_some_iff.1 hW).1; omega
  refine ⟨Ws', j, v, W, W', rfl, g1.trans hl, g2, g3, g4, alone_err (hwf g2) (right_array hR (hlt g3) g2) g5, fun k v W hk hv hW => ?_, g7⟩
  have hk' : k < Ws'.length := by have := hlt hW; omega
  exact ⟨Ws'[k], List.getElem?_eq_getElem hk', alone_ok (hwf hv) (right_array hR (hlt hW) hv) (g6 k v W _ hk hv hW (List.getElem?_eq_getElem hk'))⟩

/-- The full statement of C26. -/
def ArrayElements (x : Ext) : Prop :=
  ∀ (n : Nat) (e : Ty) (d : Decoder) (src : Bytes) (i z : Nat) (vs : List JVal) (mem : Block) (Ws : List Val) (o : Options) (V' : Val), DecoderFor x (.array n e) d → Wf src (.arr i vs z) → Dest x (.array n e) mem (.arr Ws) →
    Returns x (.array n e) (decode x d src (.ok (.arr i vs z)) (some mem) (some o)) (-1) none V' →
    ∃ Ws', V' = .arr Ws' ∧ Ws'.length = n ∧
      (∀ (j : Nat) v W, vs[j]? = some v → Ws[j]? = some W → ∃ W', Ws'[j]? = some W' ∧ Alone x src (some o) e v W (-1) none W') ∧
      ∀ j : Nat, vs.length ≤ j → Ws'[j]? = Ws[j]?

/-- A call that returns without error and leaves zero bytes in the places listed. -/
def zeroAt (len : Nat) (is : List Nat) (res : Option DecodeRes) : Bool :=
  match res with
  | some ⟨i, none, some b, _⟩ => i == -1 && b.length == len && is.all fun j => nilAt j b
  | _ => false

/-- A call that returns without error and leaves the integer in one place, zero bytes in the others listed. -/
def oneAt (len : Nat) (j : Nat) (v : Int) (is : List Nat) (res : Option DecodeRes) : Bool :=
  match res with
  | some ⟨i, none, some b, _⟩ => i == -1 && b.length == len && (match b[j]? with | some (.int w) => w == v | _ => false) && is.all fun j => nilAt j b
  | _ => false

theorem nilAt_some {i : Nat} {b : Block} (h : nilAt i b = true) : b[i]? = some .zero := by
  simp only [nilAt] at h
  split at h
  · assumption
  · cases h

theorem zeroAt_inv {len : Nat} {is : List Nat} {res : Option DecodeRes} (h : zeroAt len is res = true) :
    ∃ r b, res = some r ∧ r.errIndex = -1 ∧ r.err = none ∧ r.mem = some b ∧ b.length = len ∧ ∀ j ∈ is, b[j]? = some .zero := by
  unfold zeroAt at h
  split at h
  · rename_i i b _
    simp only [Bool.and_eq_true, beq_iff_eq, List.all_eq_true] at h
    exact ⟨_, b, rfl, h.1.1, rfl, rfl, h.1.2, fun j hj => nilAt_some (h.2 j hj)⟩
  · cases h

theorem oneAt_inv {len j : Nat} {v : Int} {is : List Nat} {res : Option DecodeRes} (h : oneAt len j v is res = true) :
    ∃ r b, res = some r ∧ r.errIndex = -1 ∧ r.err = none ∧ r.mem = some b ∧ b.length = len ∧ b[j]? = some (.int v) ∧ ∀ j ∈ is, b[j]? = some .zero := by
  unfold oneAt at h
  split at h
  · rename_i i b _
    simp only [Bool.and_eq_true, beq_iff_eq, List.all_eq_true] at h
    refine ⟨_, b, rfl, h.1.1.1, rfl, rfl, h.1.1.2, ?_, fun j hj => nilAt_some (h.2 j hj)⟩
    have := h.1.2
    split at this
    · rename_i w hw
      rw [hw, beq_iff_eq.1 this]
    · cases this
  · cases h

/-- **C26 is false of the code**: `[{"u":{}},{"X":1}]` into a zero `[2]struct{X int; Y string}` is accepted, and leaves both elements zero. The object of the unknown key in the first element ends the array. -/
theorem C26_refuted : ¬ ArrayElements demoX := by
  intro h
  have hd : DecoderFor demoX (demoTree 47) (demoDec 47) := demo_for' (t := 47) (by decide)
  have hd4 : DecoderFor demoX (demoTree 4) (demoDec 4) := demo_for' (t := 4) (by decide)
  have hdoc := demo_doc (src := b!"[{\"u\":{}},{\"X\":1}]") (by decide)
  have h0 : zeroAt 48 [0, 8, 24, 32] (decode demoX (demoDec 47) b!"[{\"u\":{}},{\"X\":1}]" (.ok (demoDoc b!"[{\"u\":{}},{\"X\":1}]")) (some (zeros 48)) (some defaultOptions)) = true := by
    decide +kernel
  obtain ⟨r, b, g1, g2, g3, g4, g5, g6⟩ := zeroAt_inv h0
  have z0 := g6 0 (by decide)
  have z1 := g6 8 (by decide)
  have z2 := g6 24 (by decide)
  have z3 := g6 32 (by decide)
  have hm' : Dest demoX (demoTree 47) b (.arr [.struct [.int 0, .str ⟨[], false⟩], .struct [.int 0, .str ⟨[], false⟩]]) := by
    refine ⟨g5, by rw [g5]; decide, _, rfl, rfl, fun j W hW => ?_⟩
    match j, hW with
    | 0, hW =>
      cases hW
      exact ⟨by rw [g5]; decide, _, rfl, _, _, rfl, ⟨by rw [g5]; decide, .inl ⟨z0, rfl⟩⟩, _, _, rfl, ⟨by rw [g5]; decide, .inl ⟨z1, rfl⟩⟩, rfl⟩
    | 1, hW =>
      cases hW
      exact ⟨by rw [g5]; decide, _, rfl, _, _, rfl, ⟨by rw [g5]; decide, .inl ⟨z2, rfl⟩⟩, _, _, rfl, ⟨by rw [g5]; decide, .inl ⟨z3, rfl⟩⟩, rfl⟩
  obtain ⟨Ws', e1, -, e2, -⟩ := h 2 (demoTree 4) (demoDec 47) _ 0 17 [.obj 1 [((2, 5), .obj 6 [] 7)] 8, .obj 10 [((11, 14), .num true 15 16)] 16] _ [.struct [.int 0, .str ⟨[], false⟩], .struct [.int 0, .str ⟨[], false⟩]] defaultOptions _ hd
    hdoc.2 (zero_dest hd) ⟨r, b, g1, g2, g3, g4, hm'⟩
  cases e1
  obtain ⟨W', e3, e4⟩ := e2 1 _ _ rfl rfl
  have e5 := e4 _ _ hd4 (zero_dest hd4)
  have hR : RightDoc demoX b!"[{\"u\":{}},{\"X\":1}]" (some defaultOptions) (demoTree 4) (.obj 10 [((11, 14), .num true 15 16)] 16) := by
    intro o' ho'
    cases ho'
    show RightM _ _ _ _ _ _ _
    intro raw name h1 h2
    split
    · rename_i j _
      intro R hR
      match j, hR with
      | 0, hR | 1, hR => cases hR; trivial
    · exact .inr rfl
  rw [right_ok_iff hd4 (Safe.wfL_mem hdoc.2.2.2.2.2 (.obj 10 [((11, 14), .num true 15 16)] 16) (.tail _ (.head _))) (zero_dest hd4) hR] at e5
  cases e3
  have : (match decPV demoX b!"[{\"u\":{}},{\"X\":1}]" (some defaultOptions) (demoTree 4) (.obj 10 [((11, 14), .num true 15 16)] 16) (zeroV demoX (demoTree 4)) with
    | .ok (.struct (.int 1 :: _)) => true | _ => false) = true := by decide +kernel
  rw [e5] at this
  simp at this

/-- `[10,20]` into a `[3]int` that holds 1, 2, 3. -/
example : Returns demoX (demoTree 26) (decode demoX (demoDec 26) b!"[10,20]" (.ok (demoDoc b!"[10,20]")) (some (seg 8 (.int 1) ++ seg 8 (.int 2) ++ seg 8 (.int 3))) (some defaultOptions)) (-1) none
      (.arr [.int 10, .int 20, .int 3]) := by
  have hd : DecoderFor demoX (demoTree 26) (demoDec 26) := demo_for' (t := 26) (by decide)
  have hd1 : DecoderFor demoX (.scalar (.int .int)) (demoDec 1) := demo_for' (t := 1) (by decide)
  have hdoc := demo_doc (src := b!"[10,20]") (by decide)
  have hm : Dest demoX (demoTree 26) (seg 8 (.int 1) ++ seg 8 (.int 2) ++ seg 8 (.int 3)) (.arr [.int 1, .int 2, .int 3]) := by
    refine ⟨rfl, by decide, _, rfl, rfl, fun j W hW => ?_⟩
    match j, hW with
    | 0, hW | 1, hW | 2, hW => cases hW; exact ⟨by decide, .inr ⟨_, rfl, rfl⟩⟩
  have hi : ∀ i, Dest demoX (.scalar (.int .int)) (seg 8 (.int i)) (.int i) := fun i => ⟨rfl, Nat.le_refl _, .inr ⟨_, rfl, rfl⟩⟩
  refine C26_success_partial (n := 3) (e := .scalar (.int .int)) (vs := [.num true 1 3, .num true 4 6]) hd hdoc.2 hm (C35_contains (fun w _ => trivial)) rfl (fun j v W W' h1 h2 h3 => ?_) (fun j hj => ?_)
  · match j, h1, h2, h3 with
    | 0, h1, h2, h3 =>
      cases h1; cases h2; cases h3
      exact ⟨demoDec 1, _, hd1, hi 1, returns_ok hd1 (hi 1) trivial rfl⟩
    | 1, h1, h2, h3 =>
      cases h1; cases h2; cases h3
      exact ⟨demoDec 1, _, hd1, hi 2, returns_ok hd1 (hi 2) trivial rfl⟩
  · match j, hj with
    | 2, _ => rfl
    | j + 3, _ => rfl

/-! ## Structs: C30 -/

/-- The value of a known key, as a document of its own, is within `RightDoc`. -/
theorem right_member {x : Ext} {src : Bytes} {o : Options} {n : Nat} {fs : List (Bytes × Nat × Ty)} {a z : Nat} {ms : List ((Nat × Nat) × JVal)} (hw : Wf src (.obj a ms z))
    (h : RightDoc x src (some o) (.struct n fs) (.obj a ms z)) {m : (Nat × Nat) × JVal} (hm : m ∈ ms) {j : Nat} (hs : KeySelects x src o (fs.map (·.1)) m.1 j) {f : Bytes × Nat × Ty} (hf : fs[j]? = some f) :
    RightDoc x src (some o) f.2.2 m.2 := by
  have h1 := Sim.ButLast.mem (fun m h => Right.rightM_mono (p := .final) h) (fun _ h => h) (h o rfl) m hm
  obtain ⟨name, g1, g2⟩ := key_selects (Safe.wfM_mem hw.2.2.2.2 m hm).1 hs
  obtain ⟨raw, g3, g4⟩ := Option.bind_eq_some_iff.1 g1
  have h2 := h1 raw name g3 g4
  rw [g2] at h2
  exact h2 _ (Sim.rightF_get x src (some o) fs j f.1 f.2.1 f.2.2 hf)

theorem struct_readsP {x : Ext} {src : Bytes} {o : Options} {n : Nat} {fs : List (Bytes × Nat × Ty)} {a z : Nat} {ms : List ((Nat × Nat) × JVal)} {Ws : List Val} :
    decPV x src (some o) (.struct n fs) (.obj a ms z) (.struct Ws) = (structV x src o (decPVF x src (some o) fs) ms Ws).map .struct := by
  simp only [decPV]
  split
  · rename_i h; subst h; rfl
  · rfl

/-- **C30, partial** (missing: documents outside `RightDoc`, where the claim is false: `C30_refuted`): whether `Decode` succeeds or fails, a field that no key of the object selects keeps its value. -/
theorem C30_kept_partial {x : Ext} {n : Nat} {fs : List (Bytes × Nat × Ty)} {d : Decoder} (hd : DecoderFor x (.struct n fs) d) {src : Bytes} {a z : Nat} {ms : List ((Nat × Nat) × JVal)} (hw : Wf src (.obj a ms z))
    {mem : Block} {Ws : List Val} (hm : Dest x (.struct n fs) mem (.struct Ws)) {o : Options} (hR : RightDoc x src (some o) (.struct n fs) (.obj a ms z)) {i : Int} {e : Option Err} {V' : Val}
    (h : Returns x (.struct n fs) (decode x d src (.ok (.obj a ms z)) (some mem) (some o)) i e V') :
    ∃ Ws', V' = .struct Ws' ∧ Ws'.length = Ws.length ∧ ∀ j, (∀ m ∈ ms, ¬ KeySelects x src o (fs.map (·.1)) m.1 j) → Ws'[j]? = Ws[j]? := by
  have key : ∃ Ws', V' = .struct Ws' ∧ Gives (structV x src o (decPVF x src (some o) fs) ms Ws) Ws' := by
    cases e with
    | none =>
      have hi : i = -1 := by
        obtain ⟨r, m, h1, h2, h3, -⟩ := id h
        obtain ⟨-, -, -, h4, -⟩ := right_inv hd hw hm hR h1 h3
        rw [← h2, h4]
      subst hi
      rw [right_ok_iff hd hw hm hR, struct_readsP, map_ok_iff] at h
      obtain ⟨Ws', g1, rfl⟩ := h
      exact ⟨Ws', rfl, .inl g1⟩
    | some e =>
      obtain ⟨p, -, h⟩ := (right_err_iff hd hw hm hR).1 h
      rw [struct_readsP, map_err_iff] at h
      obtain ⟨Ws', g1, rfl⟩ := h
      exact ⟨Ws', rfl, .inr ⟨_, _, g1⟩⟩
  obtain ⟨Ws', rfl, hg⟩ := key
  refine ⟨Ws', rfl, structV_length hg, fun j hj => structV_keep hw.2.2.2.2 hg ?_⟩
  rw [Val.decPVF_names]; exact hj

/-- **C30, partial**: after success a field selected by some key is what decoding the value of the last such key alone gives, into the old value of the field if the key is the only one that selects it (otherwise into what the earlier
ones left there). -/
theorem C30_decides_partial {x : Ext} {n : Nat} {fs : List (Bytes × Nat × Ty)} {d : Decoder} (hd : DecoderFor x (.struct n fs) d) {src : Bytes} {a z : Nat} {ms1 ms2 : List ((Nat × Nat) × JVal)} {k : Nat × Nat} {v : JVal}
    (hw : Wf src (.obj a (ms1 ++ (k, v) :: ms2) z)) {mem : Block} {Ws : List Val} (hm : Dest x (.struct n fs) mem (.struct Ws)) {o : Options}
    (hR : RightDoc x src (some o) (.struct n fs) (.obj a (ms1 ++ (k, v) :: ms2) z)) {V' : Val}
    (h : Returns x (.struct n fs) (decode x d src (.ok (.obj a (ms1 ++ (k, v) :: ms2) z)) (some mem) (some o)) (-1) none V')
    {j : Nat} {name : Bytes} {off : Nat} {t : Ty} (hf : fs[j]? = some (name, off, t)) (hs : KeySelects x src o (fs.map (·.1)) k j) (hn : ∀ m ∈ ms2, ¬ KeySelects x src o (fs.map (·.1)) m.1 j) :
    ∃ Ws' W W', V' = .struct Ws' ∧ Ws'[j]? = some W' ∧ Alone x src (some o) t v W (-1) none W' ∧ ((∀ m ∈ ms1, ¬ KeySelects x src o (fs.map (·.1)) m.1 j) → Ws[j]? = some W) := by
  rw [right_ok_iff hd hw hm hR, struct_readsP, map_ok_iff] at h
  obtain ⟨Ws', h1, rfl⟩ := h
  have hg : (decPVF x src (some o) fs)[j]? = some (name, decPV x src (some o) t) := by rw [Val.decPVF_get, hf]; rfl
  have := structV_last (x := x) (src := src) (o := o) hg (k := k) (v := v) (ms2 := ms2) (by rw [Val.decPVF_names]; exact hs) (by rw [Val.decPVF_names]; exact hn) hw.2.2.2.2 h1
  rw [Val.decPVF_names] at this
  obtain ⟨W, W', g1, g2, g3⟩ := this
  have hmem : (k, v) ∈ ms1 ++ (k, v) :: ms2 := by simp
  exact ⟨Ws', W, W', rfl, g1, alone_ok (Safe.wfM_mem hw.2.2.2.2 _ hmem).2 (right_member hw hR hmem hs hf) g2, g3⟩

theorem structV_success {x : Ext} {src : Bytes} {o : Options} {fs : List (Bytes × (JVal → Val → R Val))} {names : List Bytes} (hnm : fs.map (·.1) = names) :
    ∀ {ms : List ((Nat × Nat) × JVal)} {Ws Ws' : List Val}, WfM src ms → Ws'.length = Ws.length →
    (∀ m ∈ ms, ∃ j f W W', KeySelects x src o names m.1 j ∧ fs[j]? = some f ∧ Ws[j]? = some W ∧ Ws'[j]? = some W' ∧ f.2 m.2 W = .ok W') →
    (ms.Pairwise fun m m' => ∀ j, KeySelects x src o names m.1 j → ¬ KeySelects x src o names m'.1 j) →
    (∀ j, (∀ m ∈ ms, ¬ KeySelects x src o names m.1 j) → Ws'[j]? = Ws[j]?) → structV x src o fs ms Ws = .ok Ws' := by
  intro ms
  induction ms with
  | nil =>
    intro Ws Ws' _ _ _ _ hr
    have : Ws' = Ws := List.ext_getElem? fun j => hr j (by simp)
    rw [this]; rfl
  | cons m ms ih =>
    intro Ws Ws' hwm hl hk hdj hr
    obtain ⟨j, f, W, W', h1, h2, h3, h4, h5⟩ := hk m List.mem_cons_self
    obtain ⟨⟨p, q⟩, v⟩ := m
    obtain ⟨name, g1, g2⟩ := key_selects hwm.1 h1
    rw [List.pairwise_cons] at hdj
    simp only [structV, g1, hnm, g2, h2, h3, h5]
    refine ih hwm.2.2 (by simpa using hl) ?_ hdj.2 ?_
    · intro m hm
      obtain ⟨j', f', A, A', r1, r2, r3, r4, r5⟩ := hk m (List.mem_cons_of_mem _ hm)
      refine ⟨j', f', A, A', r1, r2, ?_, r4, r5⟩
      have : j ≠ j' := fun hc => hdj.1 m hm j h1 (hc ▸ r1)
      rw [List.getElem?_set_ne this]; exact r3
    · intro j' hj'
      by_cases hc : j = j'
      · subst hc
        have := (List.getElem?_eq_some_iff.1 h3).1
        simp [this, h4]
      · rw [List.getElem?_set_ne hc]
        refine hr j' fun m hm => ?_
        rcases List.mem_cons.1 hm with rfl | hm
        · intro hs
          obtain ⟨name', q1, q2⟩ := key_selects hwm.1 hs
          rw [g1] at q1; cases q1
          rw [g2] at q2; cases q2; exact hc rfl
        · exact hj' m hm

/-- **C30, partial**, the converse: with all keys selecting fields, no two the same, and each value decoding alone into the old value of its field, `Decode` succeeds with these results. -/
theorem C30_parts_partial {x : Ext} {n : Nat} {fs : List (Bytes × Nat × Ty)} {d : Decoder} (hd : DecoderFor x (.struct n fs) d) {src : Bytes} {a z : Nat} {ms : List ((Nat × Nat) × JVal)} (hw : Wf src (.obj a ms z))
    {mem : Block} {Ws Ws' : List Val} (hm : Dest x (.struct n fs) mem (.struct Ws)) {o : Options} (hR : RightDoc x src (some o) (.struct n fs) (.obj a ms z)) (hl : Ws'.length = Ws.length)
    (hk : ∀ m ∈ ms, ∃ j f W W', KeySelects x src o (fs.map (·.1)) m.1 j ∧ fs[j]? = some f ∧ Ws[j]? = some W ∧ Ws'[j]? = some W' ∧
      ∃ de memj, DecoderFor x f.2.2 de ∧ Dest x f.2.2 memj W ∧ Returns x f.2.2 (decode x de src (.ok m.2) (some memj) (some o)) (-1) none W')
    (hdj : ms.Pairwise fun m m' => ∀ j, KeySelects x src o (fs.map (·.1)) m.1 j → ¬ KeySelects x src o (fs.map (·.1)) m'.1 j)
    (hr : ∀ j, (∀ m ∈ ms, ¬ KeySelects x src o (fs.map (·.1)) m.1 j) → Ws'[j]? = Ws[j]?) :
    Returns x (.struct n fs) (decode x d src (.ok (.obj a ms z)) (some mem) (some o)) (-1) none (.struct Ws') := by
  rw [right_ok_iff hd hw hm hR, struct_readsP, map_ok_iff]
  refine ⟨Ws', structV_success (Val.decPVF_names fs) hw.2.2.2.2 hl (fun m hm' => ?_) hdj hr, rfl⟩
  obtain ⟨j, f, W, W', h1, h2, h3, h4, de, memj, h5, h6, h7⟩ := hk m hm'
  refine ⟨j, (f.1, decPV x src (some o) f.2.2), W, W', h1, by rw [Val.decPVF_get, h2]; rfl, h3, h4, ?_⟩
  exact (right_ok_iff h5 (Safe.wfM_mem hw.2.2.2.2 m hm').2 h6 (right_member hw hR hm' h1 h2)).1 h7

/-- `{"B":2,"A":1}` into a `struct{A *int; B int}`: within `RightDoc`, as the pointer comes last. -/
example : Returns demoX (demoTree 8) (decode demoX (demoDec 8) b!"{\"B\":2,\"A\":1}" (.ok (demoDoc b!"{\"B\":2,\"A\":1}")) (some (zeros 16)) (some defaultOptions)) (-1) none (.struct [.ptr (.int 1), .int 2]) := by
  have hd : DecoderFor demoX (demoTree 8) (demoDec 8) := demo_for' (t := 8) (by decide)
  have hdp : DecoderFor demoX (.ptr (.scalar (.int .int))) (demoDec 7) := demo_for' (t := 7) (by decide)
  have hdi : DecoderFor demoX (.scalar (.int .int)) (demoDec 1) := demo_for' (t := 1) (by decide)
  have hdoc := demo_doc (src := b!"{\"B\":2,\"A\":1}") (by decide)
  obtain ⟨-, -, hR⟩ := Right.demo_right (t := 8) (src := b!"{\"B\":2,\"A\":1}") (o := defaultOptions) (by decide) (by decide) (by decide)
  have sA : KeySelects demoX b!"{\"B\":2,\"A\":1}" defaultOptions [b!"A", b!"B"] (7, 10) 0 := ⟨b!"A", demo_key (.plain (by decide) .nil) rfl, by simp only [SelectsField]; exact .exact (.here rfl)⟩
  have sB : KeySelects demoX b!"{\"B\":2,\"A\":1}" defaultOptions [b!"A", b!"B"] (1, 4) 1 := ⟨b!"B", demo_key (.plain (by decide) .nil) rfl, by simp only [SelectsField]; exact .exact (.there (by decide) (.here rfl))⟩
  refine C30_parts_partial (fs := [(b!"A", 0, .ptr (.scalar (.int .int))), (b!"B", 8, .scalar (.int .int))]) (ms := [((1, 4), .num true 5 6), ((7, 10), .num true 11 12)]) (Ws := [.nil, .int 0]) hd hdoc.2 (zero_dest hd) hR rfl ?_ ?_ ?_
  · intro m hm
    simp only [List.mem_cons, List.not_mem_nil, or_false] at hm
    rcases hm with rfl | rfl
    · exact ⟨1, _, _, _, sB, rfl, rfl, rfl, demoDec 1, _, hdi, zero_dest hdi, returns_ok hdi (zero_dest hdi) trivial rfl⟩
    · exact ⟨0, _, _, _, sA, rfl, rfl, rfl, demoDec 7, _, hdp, zero_dest hdp, returns_ok hdp (zero_dest hdp) ⟨by decide, trivial⟩ rfl⟩
  · simp only [List.pairwise_cons, List.mem_cons, List.not_mem_nil, or_false, forall_eq]
    refine ⟨fun j h1 h2 => ?_, by simp, .nil⟩
    obtain ⟨n1, a1, a2⟩ := key_fun demoX defaultOptions [b!"A", b!"B"] (k := (1, 4)) hdoc.2.2.2.2.2.1
    obtain ⟨n2, b1, b2⟩ := key_fun demoX defaultOptions [b!"A", b!"B"] (k := (7, 10)) hdoc.2.2.2.2.2.2.2.1
    have c1 := ((a2.1 j).1 h1).symm.trans ((a2.1 1).1 sB)
    have c2 := ((b2.1 j).1 h2).symm.trans ((b2.1 0).1 sA)
    rw [c1] at c2; cases c2
  · intro j hj
    match j with
    | 0 => exact absurd sA (hj ((7, 10), .num true 11 12) (by simp))
    | 1 => exact absurd sB (hj ((1, 4), .num true 5 6) (by simp))
    | j + 2 => rfl

/-- The full statement of C30, first half. -/
def UnselectedKept (x : Ext) : Prop :=
  ∀ (n : Nat) (fs : List (Bytes × Nat × Ty)) (d : Decoder) (src : Bytes) (a z : Nat) (ms : List ((Nat × Nat) × JVal)) (mem : Block) (Ws : List Val) (o : Options) (V' : Val),
    DecoderFor x (.struct n fs) d → Wf src (.obj a ms z) → Dest x (.struct n fs) mem (.struct Ws) → Returns x (.struct n fs) (decode x d src (.ok (.obj a ms z)) (some mem) (some o)) (-1) none V' →
    ∃ Ws', V' = .struct Ws' ∧ ∀ j, (∀ m ∈ ms, ¬ KeySelects x src o (fs.map (·.1)) m.1 j) → Ws'[j]? = Ws[j]?

/-- **C30 is false of the code**: `{"In":{"u":{},"B":5}}` into a `struct{In struct{Foo int}; B int}` sets the `B` of the outer struct, which no key of the outer object selects. The object of the unknown key ends the inner struct. -/
theorem C30_refuted : ¬ UnselectedKept demoX := by
  intro h
  have hd : DecoderFor demoX (demoTree 35) (demoDec 35) := demo_for' (t := 35) (by decide)
  have hdoc := demo_doc (src := b!"{\"In\":{\"u\":{},\"B\":5}}") (by decide)
  have h0 : oneAt 16 8 5 [0] (decode demoX (demoDec 35) b!"{\"In\":{\"u\":{},\"B\":5}}" (.ok (demoDoc b!"{\"In\":{\"u\":{},\"B\":5}}")) (some (zeros 16)) (some defaultOptions)) = true := by
    decide +kernel
  obtain ⟨r, b, g1, g2, g3, g4, g5, g6, g7⟩ := oneAt_inv h0
  have z0 := g7 0 (by decide)
  have hm' : Dest demoX (demoTree 35) b (.struct [.struct [.int 0], .int 5]) :=
    ⟨g5, by rw [g5]; decide, _, rfl, _, _, rfl, ⟨by rw [g5]; decide, _, rfl, _, _, rfl, ⟨by rw [g5]; decide, .inl ⟨z0, rfl⟩⟩, rfl⟩, _, _, rfl, ⟨by rw [g5]; decide, .inr ⟨_, g6, rfl⟩⟩, rfl⟩
  obtain ⟨Ws', e1, e2⟩ := h 16 [(b!"In", 0, .struct 8 [(b!"Foo", 0, .scalar (.int .int))]), (b!"B", 8, .scalar (.int .int))] (demoDec 35) _ 0 20 [((1, 5), .obj 6 [((7, 10), .obj 11 [] 12), ((14, 17), .num true 18 19)] 19)] _
    [.struct [.int 0], .int 0] defaultOptions _ hd hdoc.2 (zero_dest hd) ⟨r, b, g1, g2, g3, g4, hm'⟩
  cases e1
  have := e2 1 (by
    intro m hm hs
    obtain ⟨name, q1, q2⟩ := key_selects (Safe.wfM_mem hdoc.2.2.2.2.2 m hm).1 hs
    simp only [List.mem_cons, List.not_mem_nil, or_false] at hm
    subst hm
    have h3 : (Model.slice b!"{\"In\":{\"u\":{},\"B\":5}}" (1 + 1) (5 - 1)).bind (keyName defaultOptions) = some b!"In" := by decide
    rw [h3] at q1; cases q1
    revert q2; decide)
  simp at this

/-! ## Pointers: C34 -/

/-- **C34, partial** (missing: documents outside `RightDoc`, where the claim is false: `C34_refuted`; pointers to types of size zero): a value other than null goes into a new zero value, which the pointer then points to, as it goes
into a zero variable of the element type; whatever the outcome. By repetition this covers pointers to pointers. -/
theorem C34_fresh_partial {x : Ext} {ty : Ty} {d : Decoder} (hd : DecoderFor x (.ptr ty) d) {de : Decoder} (he : DecoderFor x ty de) {src : Bytes} {v : JVal} (hw : Wf src v) (hn : ∀ i e, v ≠ .null i e)
    {mem : Block} {V : Val} (hm : Dest x (.ptr ty) mem V) {o : Option Options} (hz : ty.size x ≠ 0) (hR : RightDoc x src o ty v) (i : Int) (e : Option Err) (W : Val) :
    Returns x (.ptr ty) (decode x d src (.ok v) (some mem) o) i e (.ptr W) ↔ Returns x ty (decode x de src (.ok v) (some (zeros (ty.size x))) o) i e W := by
  have hR' : RightDoc x src o (.ptr ty) v := by
    simp only [RightDoc, Right]
    cases v <;> first | exact ⟨hz, hR⟩ | exact absurd rfl (hn _ _)
  have hp : ∀ V, decPV x src o (.ptr ty) v V = (decPV x src o ty v (zeroV x ty)).map .ptr := by
    intro V
    rw [decPV]
    cases v <;> first | rfl | exact absurd rfl (hn _ _)
  have hz' := zero_dest he
  cases e with
  | none =>
    have hi : ∀ {ty : Ty} {d : Decoder} {mem : Block} {V W : Val}, DecoderFor x ty d → Dest x ty mem V → RightDoc x src o ty v → Returns x ty (decode x d src (.ok v) (some mem) o) i none W → i = -1 := by
      intro ty d mem V W hd hm hR h
      obtain ⟨r, m, h1, h2, h3, -⟩ := h
      obtain ⟨-, -, -, h4, -⟩ := right_inv hd hw hm hR h1 h3
      rw [← h2, h4]
    constructor
    · intro h
      have := hi hd hm hR' h
      subst this
      rw [right_ok_iff hd hw hm hR', hp, map_ok_iff] at h
      obtain ⟨W', h1, h2⟩ := h
      cases h2
      exact right_returns he hw hz' hR h1
    · intro h
      have := hi he hz' hR h
      subst this
      rw [right_ok_iff he hw hz' hR] at h
      exact right_returns hd hw hm hR' (by rw [hp, h]; rfl)
  | some e =>
    rw [right_err_iff hd hw hm hR', right_err_iff he hw hz' hR]
    constructor
    · rintro ⟨p, rfl, h⟩
      rw [hp, map_err_iff] at h
      obtain ⟨W', h1, h2⟩ := h
      cases h2
      exact ⟨p, rfl, h1⟩
    · rintro ⟨p, rfl, h⟩
      exact ⟨p, rfl, by rw [hp, h]; rfl⟩

/-- The full statement of C34. -/
def PointersFresh (x : Ext) : Prop :=
  ∀ (ty : Ty) (d de : Decoder) (src : Bytes) (v : JVal) (mem : Block) (V : Val) (o : Options) (i : Int) (e : Option Err) (W : Val), DecoderFor x (.ptr ty) d → DecoderFor x ty de → Wf src v → (∀ i e, v ≠ .null i e) →
    Dest x (.ptr ty) mem V → Returns x ty (decode x de src (.ok v) (some (zeros (ty.size x))) (some o)) i e W → Returns x (.ptr ty) (decode x d src (.ok v) (some mem) (some o)) i e (.ptr W)

/-- **C34 is false of the code**: `{"u":{},"X":1}` is decoded into a `struct{X int; Y string}` (X = 1), but not into a pointer to one: an error is returned. -/
theorem C34_refuted : ¬ PointersFresh demoX := by
  intro h
  have hd : DecoderFor demoX (demoTree 36) (demoDec 36) := demo_for' (t := 36) (by decide)
  have hd4 : DecoderFor demoX (demoTree 4) (demoDec 4) := demo_for' (t := 4) (by decide)
  have hdoc := demo_doc (src := b!"{\"u\":{},\"X\":1}") (by decide)
  have h0 : oneAt 24 0 1 [8] (decode demoX (demoDec 4) b!"{\"u\":{},\"X\":1}" (.ok (demoDoc b!"{\"u\":{},\"X\":1}")) (some (zeros 24)) (some defaultOptions)) = true := by decide +kernel
  obtain ⟨r, b, g1, g2, g3, g4, g5, g6, g7⟩ := oneAt_inv h0
  have z0 := g7 8 (by decide)
  have hm' : Dest demoX (demoTree 4) b (.struct [.int 1, .str ⟨[], false⟩]) :=
    ⟨g5, by rw [g5]; decide, _, rfl, _, _, rfl, ⟨by rw [g5]; decide, .inr ⟨_, g6, rfl⟩⟩, _, _, rfl, ⟨by rw [g5]; decide, .inl ⟨z0, rfl⟩⟩, rfl⟩
  obtain ⟨r', m', q1, -, q3, -⟩ := h (demoTree 4) (demoDec 36) (demoDec 4) _ (.obj 0 [((1, 4), .obj 5 [] 6), ((8, 11), .num true 12 13)] 13) (zeros 8) .nil defaultOptions (-1) none _ hd hd4 hdoc.2 (fun _ _ h => by cases h)
    (zero_dest hd) ⟨r, b, g1, g2, g3, g4, hm'⟩
  have : (decode demoX (demoDec 36) b!"{\"u\":{},\"X\":1}" (.ok (.obj 0 [((1, 4), .obj 5 [] 6), ((8, 11), .num true 12 13)] 13)) (some (zeros 8)) (some defaultOptions)).map (fun r => r.err.isNone) = some false := by
    decide +kernel
  rw [q1] at this
  simp [q3] at this

/-- `{"X":1}` into a nil `**struct{X int; Y string}`. -/
example : Returns demoX (demoTree 37) (decode demoX (demoDec 37) b!"{\"X\":1}" (.ok (demoDoc b!"{\"X\":1}")) (some (zeros 8)) (some defaultOptions)) (-1) none (.ptr (.ptr (.struct [.int 1, .str ⟨[], false⟩]))) := by
  obtain ⟨hd, hm, -, h2, ht⟩ := demo_case (t := 4) (src := b!"{\"X\":1}") (o := defaultOptions) (by decide) (by decide) (by decide)
  obtain ⟨hd1, hm1, -, -, ht1⟩ := demo_case (t := 36) (src := b!"{\"X\":1}") (o := defaultOptions) (by decide) (by decide) (by decide)
  obtain ⟨hd2, hm2, -, -, ht2⟩ := demo_case (t := 37) (src := b!"{\"X\":1}") (o := defaultOptions) (by decide) (by decide) (by decide)
  have hn : ∀ i e, demoDoc b!"{\"X\":1}" ≠ .null i e := by
    intro i e h
    have : demoDoc b!"{\"X\":1}" = .obj 0 [((1, 4), .num true 5 6)] 6 := rfl
    rw [this] at h; cases h
  have r0 := returns_ok (V' := .struct [.int 1, .str ⟨[], false⟩]) hd hm ht rfl
  have r1 := (C34_fresh_partial (x := demoX) (ty := demoTree 4) hd1 hd h2 hn hm1 (by decide) (C35_contains ht) _ _ _).2 r0
  exact (C34_fresh_partial (x := demoX) (ty := demoTree 36) hd2 hd1 h2 hn hm2 (by decide) (C35_contains ht1) _ _ _).2 r1

/-! ## Slices: C27 -/

theorem slice_readsP {x : Ext} {src : Bytes} {o : Option Options} {ty e : Ty} (hs : SliceOf ty e) {i z : Nat} {vs : List JVal} (hw : WfL src vs) {V V' : Val}
    (h : decPV x src o ty (.arr i vs z) V = .ok V') :
    ∃ es base spare, V' = .slice es spare ∧ base.length = vs.length ∧ (∀ (j : Nat) W, base[j]? = some W → W = zeroV x e ∨ (upToCap V)[j]? = some W) ∧
      (upToCap V = [] → base = List.replicate vs.length (zeroV x e) ∧ spare = []) ∧ elemsV (decPV x src o e) vs base = .ok es := by
  have hsp : ∀ V : Val, (sliceParts V).1 ++ (sliceParts V).2 = upToCap V := by intro V; cases V <;> rfl
  cases hs with
  | gen =>
    simp only [decPV, sliceV] at h
    split at h
    · rename_i hv; subst hv; cases h
      exact ⟨[], [], [], rfl, rfl, by simp, fun _ => ⟨rfl, rfl⟩, rfl⟩
    · rename_i hv
      obtain ⟨es, h1, rfl⟩ := map_ok_iff.1 h
      refine ⟨es, _, _, rfl, ?_, ?_, ?_, h1⟩
      · simp only [prepSlice, hsp]
        split
        · split
          · rename_i hl _
            have : (sliceParts V).1.length ≤ (upToCap V).length := by rw [← hsp]; simp
            simp; omega
          · simp
        · simp; omega
      · intro j W hW
        simp only [prepSlice, hsp] at hW
        split at hW
        · split at hW
          · rcases Nat.lt_or_ge j (sliceParts V).1.length with hj | hj
            · rw [List.getElem?_append_left hj] at hW
              rw [← hsp, List.getElem?_append_left hj]; exact .inr hW
            · rw [List.getElem?_append_right hj] at hW
              exact .inl (List.eq_of_mem_replicate (List.mem_of_getElem? hW))
          · exact .inl (List.eq_of_mem_replicate (List.mem_of_getElem? hW))
        · rw [List.getElem?_take] at hW
          split at hW
          · exact .inr hW
          · cases hW
      · intro hc
        have hp : sliceParts V = ([], []) := by
          cases V <;> first | rfl | skip
          simp only [upToCap, List.append_eq_nil_iff] at hc
          simp [sliceParts, hc.1, hc.2]
        have hl : 0 < vs.length := List.length_pos_iff.2 hv
        simp [prepSlice, hp, hl]
  | scalar k =>
    have he : decPV x src o (.scalar k) = decV x src o (.scalar k) := by simp only [decPV]
    rw [he]
    simp only [decPV] at h
    exact slice_reads (.scalar k) hw h

/-- **C27, partial** (missing: documents outside `RightDoc`, and `[]struct{}`): after success the slice is not nil and has exactly one element per JSON element, in order, each as if its JSON element had been decoded alone, into a zero
variable or into one that holds what was at that place of the old backing array. -/
theorem C27_elements_partial {x : Ext} {ty e : Ty} (hs : SliceOf ty e) {d : Decoder} (hd : DecoderFor x ty d) {src : Bytes} {i z : Nat} {vs : List JVal} (hw : Wf src (.arr i vs z)) {mem : Block} {V : Val}
    (hm : Dest x ty mem V) {o : Option Options} (hR : RightDoc x src o ty (.arr i vs z)) {V' : Val} (h : Returns x ty (decode x d src (.ok (.arr i vs z)) (some mem) o) (-1) none V') :
    ∃ es spare, V' = .slice es spare ∧ es.length = vs.length ∧ (upToCap V = [] → spare = []) ∧ ∀ (j : Nat) v, vs[j]? = some v →
      ∃ W W', es[j]? = some W' ∧ Alone x src o e v W (-1) none W' ∧ (W = zeroV x e ∨ (upToCap V)[j]? = some W) := by
  rw [right_ok_iff hd hw hm hR] at h
  obtain ⟨es, base, spare, rfl, h1, h2, h3, h4⟩ := slice_readsP hs hw.2.2.2.2 h
  obtain ⟨g1, g2, -⟩ := (elemsV_ok _ _ _ _).1 h4
  refine ⟨es, spare, rfl, g1.trans h1, fun hc => (h3 hc).2, fun j v hv => ?_⟩
  have hj := (List.getElem?_eq_some_iff.1 hv).1
  have hb : j < base.length := by omega
  have he : j < es.length := by omega
  have hv' := List.mem_of_getElem? hv
  exact ⟨base[j], es[j], List.getElem?_eq_getElem he, alone_ok (Safe.wfL_mem hw.2.2.2.2 v hv') (right_element hs hR v hv') (g2 j v _ _ hv (List.getElem?_eq_getElem hb) (List.getElem?_eq_getElem he)),
    h2 j _ (List.getElem?_eq_getElem hb)⟩

/-- `[null,1]` into a nil `[]*int`: the elements are a nil pointer and a pointer to 1. -/
example : Returns demoX (demoTree 9) (decode demoX (demoDec 9) b!"[null,1]" (.ok (demoDoc b!"[null,1]")) (some (zeros 24)) (some defaultOptions)) (-1) none (.slice [.nil, .ptr (.int 1)] []) ∧
    Alone demoX b!"[null,1]" (some defaultOptions) (.ptr (.scalar (.int .int))) (.num true 6 7) .nil (-1) none (.ptr (.int 1)) := by
  obtain ⟨hd, h2, hR⟩ := Right.demo_right (t := 9) (src := b!"[null,1]") (o := defaultOptions) (by decide) (by decide) (by decide)
  have hr := right_returns (V' := .slice [.nil, .ptr (.int 1)] []) hd h2 (zero_dest hd) hR rfl
  obtain ⟨es, spare, h3, -, -, h4⟩ := C27_elements_partial (.gen (.ptr (.scalar (.int .int)))) (vs := [.null 1 5, .num true 6 7]) hd h2 (zero_dest hd) hR hr
  cases h3
  obtain ⟨W, W', g1, g2, g3⟩ := h4 1 _ rfl
  cases g1
  rcases g3 with rfl | g3
  · exact ⟨hr, g2⟩
  · cases g3

/-! ## Maps: C28 -/

theorem map_readsP {x : Ext} {src : Bytes} {o : Option Options} {k : KeyTy} {e : Ty} {i z : Nat} {ms : List ((Nat × Nat) × JVal)} {V V' : Val} (hR : RightDoc x src o (.map k e) (.obj i ms z))
    (h : decPV x src o (.map k e) (.obj i ms z) V = .ok V') :
    ∃ Es, V' = .map Es ∧ mapV x src (decPV x src o e) k (zeroV x e) (isStruct e) ms (entriesOf V) = .ok Es := by
  have he : (e.etype == .struct) = isStruct e := by cases e <;> rfl
  have hp : mapParts V = entriesOf V := by cases V <;> rfl
  simp only [decPV, he, hp] at h
  rw [if_neg (fun hc => hc.2 (hR.1 hc.1))] at h
  obtain ⟨Es, h1, rfl⟩ := map_ok_iff.1 h
  exact ⟨Es, rfl, h1⟩

/-- **C28, partial**: as `C28_map_partial`, on `RightDoc` documents, the entries described by what `Decode` does with the JSON value alone. -/
theorem C28_entries_partial {x : Ext} {k : KeyTy} {e : Ty} {d : Decoder} (hd : DecoderFor x (.map k e) d) {src : Bytes} {i z : Nat} {ms : List ((Nat × Nat) × JVal)} (hw : Wf src (.obj i ms z)) {mem : Block} {V : Val}
    (hm : Dest x (.map k e) mem V) {o : Option Options} (hR : RightDoc x src o (.map k e) (.obj i ms z)) (hk : ∀ m ∈ ms, ∃ K, KeyOf x k (inner src m.1.1 m.1.2) K) {V' : Val}
    (h : Returns x (.map k e) (decode x d src (.ok (.obj i ms z)) (some mem) o) (-1) none V') :
    ∃ Es, V' = .map Es ∧
      (∀ K, (∀ m ∈ ms, ¬ KeyOf x k (inner src m.1.1 m.1.2) K) → lookupV K Es = lookupV K (entriesOf V)) ∧
      (∀ ms1 key v ms2 K, ms = ms1 ++ (key, v) :: ms2 → KeyOf x k (inner src key.1 key.2) K → (∀ m ∈ ms2, ¬ KeyOf x k (inner src m.1.1 m.1.2) K) →
        ∃ W W', lookupV K Es = some W' ∧ Alone x src o e v W (-1) none W' ∧ (isStruct e = true → W = zeroV x e) ∧
          (isStruct e = false → (∀ m ∈ ms1, ¬ KeyOf x k (inner src m.1.1 m.1.2) K) → W = (lookupV K (entriesOf V)).getD (zeroV x e))) ∧
      (Comp.DistinctKeys (entriesOf V) → Comp.DistinctKeys Es) := by
  rw [right_ok_iff hd hw hm hR] at h
  obtain ⟨Es, rfl, h1⟩ := map_readsP hR h
  have hno : ∀ {l : List ((Nat × Nat) × JVal)} {K : Key}, (∀ m ∈ l, m ∈ ms) → (∀ m ∈ l, ¬ KeyOf x k (inner src m.1.1 m.1.2) K) →
      ∀ m ∈ l, ∀ K', keyAt x src k m.1 = some (.ok K') → K'.same K = false := by
    intro l K hl hn m hmm K' hK
    cases hs : K'.same K with
    | false => rfl
    | true => exact absurd ((keyAt_iff (Safe.wfM_mem hw.2.2.2.2 m (hl m hmm)).1 (hk m (hl m hmm)) K).2 ⟨K', hK, hs⟩) (hn m hmm)
  refine ⟨Es, rfl, fun K hK => mapV_keep (.inl h1) (hno (fun m hm => hm) hK), ?_, fun hdk => mapV_distinct hdk (.inl h1)⟩
  rintro ms1 key v ms2 K rfl hK hK2
  have hmem : (key, v) ∈ ms1 ++ (key, v) :: ms2 := by simp
  obtain ⟨K', g1, g2⟩ := keyAt_of (Safe.wfM_mem hw.2.2.2.2 (key, v) hmem).1 hK
  obtain ⟨W, W', r1, r2, r3, r4⟩ := mapV_last g1 g2 (hno (fun m hm => by simp [hm]) hK2) h1
  have hRe : RightDoc x src o e v := Sim.ButLast.mem (fun m h => Right.right_mono _ .final m.2 h) (fun _ h => h) hR.2 (key, v) hmem
  exact ⟨W, W', r1, alone_ok (Safe.wfM_mem hw.2.2.2.2 _ hmem).2 hRe r2, r3, fun hs hms => r4 hs (hno (fun m hm => by simp [hm]) hms)⟩

/-- `{"b":2}` into a `map[string]int` with an entry a: 1: the entry for b is what `2` alone gives. -/
example : ∃ Es W W', Returns demoX (demoTree 11) (decode demoX (demoDec 11) b!"{\"b\":2}" (.ok (demoDoc b!"{\"b\":2}")) (some (seg 8 (.map [(.str ⟨b!"a", false⟩, seg 8 (.int 1))]))) (some defaultOptions)) (-1) none (.map Es) ∧
      lookupV (.str ⟨b!"b", false⟩) Es = some W' ∧ Alone demoX b!"{\"b\":2}" (some defaultOptions) (.scalar (.int .int)) (.num true 5 6) W (-1) none W' := by
  obtain ⟨hd, h2, hR⟩ := Right.demo_right (t := 11) (src := b!"{\"b\":2}") (o := defaultOptions) (by decide) (by decide) (by decide)
  have hm : Dest demoX (demoTree 11) (seg 8 (.map [(.str ⟨b!"a", false⟩, seg 8 (.int 1))])) (.map [(.str ⟨b!"a", false⟩, .int 1)]) :=
    ⟨rfl, by decide, .inr ⟨_, _, rfl, rfl, rfl, rfl, ⟨by decide, .inr ⟨_, rfl, rfl⟩⟩, trivial⟩⟩
  have hr := right_returns (V' := .map [(.str ⟨b!"a", false⟩, .int 1), (.str ⟨b!"b", true⟩, .int 2)]) hd h2 hm hR rfl
  obtain ⟨Es, he, -, g2, -⟩ := C28_entries_partial (k := .str) (e := .scalar (.int .int)) (ms := [((1, 4), .num true 5 6)]) hd h2 hm hR (string_keys h2) hr
  obtain ⟨W, W', r1, r2, -⟩ := g2 [] (1, 4) (.num true 5 6) [] (.str ⟨b!"b", false⟩) rfl (.str (.plain (by decide) .nil)) (by simp)
  exact ⟨Es, W, W', he ▸ hr, r1, r2⟩

end Verif.Props
