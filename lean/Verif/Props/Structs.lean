import Verif.Props.Maps
/-!
# Structs, null, pointers, `struct{}`: C30, C33, C34, C35, C36
-/
namespace Verif.Props
open Verif.Model Verif.Spec Verif.Big Verif.Proof Verif.Proof.Demo Verif.Proof.Outcome Verif.Proof.Unique Verif.Proof.Comp

/-! ## Structs: C30 -/

theorem struct_reads {x : Ext} {src : Bytes} {o : Options} {n : Nat} {fs : List (Bytes × Nat × Ty)} {a z : Nat} {ms : List ((Nat × Nat) × JVal)} {Ws : List Val} :
    decV x src (some o) (.struct n fs) (.obj a ms z) (.struct Ws) = (structV x src o (decVF x src (some o) fs) ms Ws).map .struct := by
  simp only [decV]
  split
  · rename_i h; subst h; rfl
  · rfl

/-- **C30**: whether `Decode` succeeds or fails, a field that no key of the object selects keeps its value. -/
theorem C30_untouched_partial {x : Ext} {n : Nat} {fs : List (Bytes × Nat × Ty)} {d : Decoder} (hd : DecoderFor x (.struct n fs) d) {src : Bytes} {a z : Nat} {ms : List ((Nat × Nat) × JVal)} (hw : Wf src (.obj a ms z))
    {mem : Block} {Ws : List Val} (hm : Dest x (.struct n fs) mem (.struct Ws)) {o : Options} (ht : Tame x src (some o) (.struct n fs) (.obj a ms z)) {i : Int} {e : Option Err} {V' : Val}
    (h : Returns x (.struct n fs) (decode x d src (.ok (.obj a ms z)) (some mem) (some o)) i e V') :
    ∃ Ws', V' = .struct Ws' ∧ Ws'.length = Ws.length ∧ ∀ j, (∀ m ∈ ms, ¬ KeySelects x src o (fs.map (·.1)) m.1 j) → Ws'[j]? = Ws[j]? := by
  have key : ∃ Ws', V' = .struct Ws' ∧ Gives (structV x src o (decVF x src (some o) fs) ms Ws) Ws' := by
    obtain ⟨r, m, h1, h2, h3, h4, h5⟩ := id h
    cases e with
    | none =>
      obtain ⟨V'', m', g1, -, g3, g4⟩ := ok_inv hd hm (tameDoc_of ht) h1 h3
      rw [h4] at g3; cases g3
      have := holds_unique _ h5.2 g4.2
      subst this
      rw [top_eq _ ht, struct_reads, map_ok_iff] at g1
      obtain ⟨Ws', g1, rfl⟩ := g1
      exact ⟨Ws', rfl, .inl g1⟩
    | some e =>
      obtain ⟨i', V'', m', g1, -, g3, g4⟩ := err_inv hd hm (tameDoc_of ht) h1 h3
      rw [h4] at g3; cases g3
      have := holds_unique _ h5.2 g4.2
      subst this
      rw [top_eq _ ht, struct_reads, map_err_iff] at g1
      obtain ⟨Ws', g1, rfl⟩ := g1
      exact ⟨Ws', rfl, .inr ⟨_, _, g1⟩⟩
  obtain ⟨Ws', rfl, hg⟩ := key
  refine ⟨Ws', rfl, structV_length hg, fun j hj => structV_keep hw.2.2.2.2 hg ?_⟩
  rw [Val.decVF_names]; exact hj

/-- **C30**: after success a field selected by some key has the decoding of the value of the last such key, into the old value of the field if the key is the only one that selects it (otherwise into what the earlier ones
left there). -/
theorem C30_last_partial {x : Ext} {n : Nat} {fs : List (Bytes × Nat × Ty)} {d : Decoder} (hd : DecoderFor x (.struct n fs) d) {src : Bytes} {a z : Nat} {ms1 ms2 : List ((Nat × Nat) × JVal)} {k : Nat × Nat} {v : JVal}
    (hw : Wf src (.obj a (ms1 ++ (k, v) :: ms2) z)) {mem : Block} {Ws : List Val} (hm : Dest x (.struct n fs) mem (.struct Ws)) {o : Options}
    (ht : Tame x src (some o) (.struct n fs) (.obj a (ms1 ++ (k, v) :: ms2) z)) {V' : Val}
    (h : Returns x (.struct n fs) (decode x d src (.ok (.obj a (ms1 ++ (k, v) :: ms2) z)) (some mem) (some o)) (-1) none V')
    {j : Nat} {name : Bytes} {off : Nat} {t : Ty} (hf : fs[j]? = some (name, off, t)) (hs : KeySelects x src o (fs.map (·.1)) k j) (hn : ∀ m ∈ ms2, ¬ KeySelects x src o (fs.map (·.1)) m.1 j) :
    ∃ Ws' W W', V' = .struct Ws' ∧ Ws'[j]? = some W' ∧ decV x src (some o) t v W = .ok W' ∧ ((∀ m ∈ ms1, ¬ KeySelects x src o (fs.map (·.1)) m.1 j) → Ws[j]? = some W) := by
  rw [returns_ok_iff hd hm (tameDoc_of ht), top_eq _ ht, struct_reads, map_ok_iff] at h
  obtain ⟨Ws', h1, rfl⟩ := h
  have hg : (decVF x src (some o) fs)[j]? = some (name, decV x src (some o) t) := by rw [Val.decVF_get, hf]; rfl
  have := structV_last (x := x) (src := src) (o := o) hg (k := k) (v := v) (ms2 := ms2) (by rw [Val.decVF_names]; exact hs) (by rw [Val.decVF_names]; exact hn) hw.2.2.2.2 h1
  rw [Val.decVF_names] at this
  obtain ⟨W, W', g1, g2, g3⟩ := this
  exact ⟨Ws', W, W', rfl, g1, g2, g3⟩

/-- **C30**, existence: with distinct fields selected by all keys, each value decoding into the old value of its field, `Decode` succeeds. -/
theorem C30_success_partial {x : Ext} {n : Nat} {fs : List (Bytes × Nat × Ty)} {d : Decoder} (hd : DecoderFor x (.struct n fs) d) {src : Bytes} {a z : Nat} {ms : List ((Nat × Nat) × JVal)} (hw : Wf src (.obj a ms z))
    {mem : Block} {Ws Ws' : List Val} (hm : Dest x (.struct n fs) mem (.struct Ws)) {o : Options} (ht : Tame x src (some o) (.struct n fs) (.obj a ms z)) (hl : Ws'.length = Ws.length)
    (hk : ∀ m ∈ ms, ∃ j f W W', KeySelects x src o (fs.map (·.1)) m.1 j ∧ fs[j]? = some f ∧ Ws[j]? = some W ∧ Ws'[j]? = some W' ∧ decV x src (some o) f.2.2 m.2 W = .ok W')
    (hdj : ms.Pairwise fun m m' => ∀ j, KeySelects x src o (fs.map (·.1)) m.1 j → ¬ KeySelects x src o (fs.map (·.1)) m'.1 j)
    (hr : ∀ j, (∀ m ∈ ms, ¬ KeySelects x src o (fs.map (·.1)) m.1 j) → Ws'[j]? = Ws[j]?) :
    Returns x (.struct n fs) (decode x d src (.ok (.obj a ms z)) (some mem) (some o)) (-1) none (.struct Ws') := by
  rw [returns_ok_iff hd hm (tameDoc_of ht), top_eq _ ht, struct_reads, map_ok_iff]
  refine ⟨Ws', ?_, rfl⟩
  have hwm := hw.2.2.2.2
  clear hm ht hw
  induction ms generalizing Ws with
  | nil =>
    have : Ws' = Ws := List.ext_getElem? fun j => hr j (by simp)
    rw [this]; rfl
  | cons m ms ih =>
    obtain ⟨j, f, W, W', h1, h2, h3, h4, h5⟩ := hk m List.mem_cons_self
    obtain ⟨⟨p, q⟩, v⟩ := m
    obtain ⟨name, g1, g2⟩ := key_selects hwm.1 h1
    have hg : (decVF x src (some o) fs)[j]? = some (f.1, decV x src (some o) f.2.2) := by rw [Val.decVF_get, h2]; rfl
    rw [List.pairwise_cons] at hdj
    simp only [structV, g1, Val.decVF_names, g2, hg, h3, h5]
    refine ih (by simpa using hl) ?_ hdj.2 ?_ hwm.2.2
    · intro m hm
      obtain ⟨j', f', A, A', r1, r2, r3, r4, r5⟩ := hk m (List.mem_cons_of_mem _ hm)
      refine ⟨j', f', A, A', r1, r2, ?_, r4, r5⟩
      have : j ≠ j' := fun hc => hdj.1 m hm j h1 (hc ▸ r1)
      rw [List.getElem?_set_ne this]; exact r3
    · intro j' hj'
      by_cases hc : j = j'
      · subst hc
        have := (List.getElem?_eq_some_iff.1 h3).1
        simp [this, h4]
      · rw [List.getElem?_set_ne hc]
        refine hr j' fun m hm => ?_
        rcases List.mem_cons.1 hm with rfl | hm
        · intro hs
          obtain ⟨name', q1, q2⟩ := key_selects hwm.1 hs
          rw [g1] at q1; cases q1
          rw [g2] at q2; cases q2; exact hc rfl
        · exact hj' m hm

/-- `{"Y":"b","Y":"c"}` into a struct{X int; Y string} that holds 5, "a": X keeps 5, Y gets "c". -/
example : Returns demoX (demoTree 4) (decode demoX (demoDec 4) b!"{\"Y\":\"b\",\"Y\":\"c\"}" (.ok (demoDoc b!"{\"Y\":\"b\",\"Y\":\"c\"}")) (some (seg 8 (.int 5) ++ seg 16 (.str ⟨b!"a", false⟩))) (some defaultOptions)) (-1) none
      (.struct [.int 5, .str ⟨b!"c", true⟩]) ∧
    Dest demoX (demoTree 4) (seg 8 (.int 5) ++ seg 16 (.str ⟨b!"a", false⟩)) (.struct [.int 5, .str ⟨b!"a", false⟩]) ∧
    Tame demoX b!"{\"Y\":\"b\",\"Y\":\"c\"}" (some defaultOptions) (demoTree 4) (demoDoc b!"{\"Y\":\"b\",\"Y\":\"c\"}") := by
  obtain ⟨hd, -, -, h2, ht⟩ := demo_case (t := 4) (src := b!"{\"Y\":\"b\",\"Y\":\"c\"}") (o := defaultOptions) (by decide) (by decide) (by decide)
  have hm : Dest demoX (demoTree 4) (seg 8 (.int 5) ++ seg 16 (.str ⟨b!"a", false⟩)) (.struct [.int 5, .str ⟨b!"a", false⟩]) :=
    ⟨rfl, by decide, _, rfl, _, _, rfl, ⟨by decide, .inr ⟨_, rfl, rfl⟩⟩, _, _, rfl, ⟨by decide, .inr ⟨_, rfl, rfl⟩⟩, rfl⟩
  exact ⟨returns_ok hd hm ht rfl, hm, ht⟩

/-! ## null: C33 -/

/-- What `null` makes of a value: pointers, maps, slices and interfaces become nil, bools, numbers and strings zero, other values stay. -/
def nullOf : Ty → Val → Val
  | .ptr _, _ | .map _ _, _ | .mapSS, _ | .slice _, _ | .sliceOf _, _ | .sliceES, _ => .nil
  | .any, _ => .any .null
  | .number, _ => .str ⟨[], false⟩
  | .scalar .bool, _ => .bool false
  | .scalar .str, _ => .str ⟨[], false⟩
  | .scalar (.int _), _ => .int 0
  | .scalar (.flt _), _ => .flt 0
  | _, V => V

/-- The full statement of C33 (types with UnmarshalJSON see the null themselves, C41). -/
def NullWorks (x : Ext) : Prop :=
  ∀ (ty : Ty) (d : Decoder) (src : Bytes) (i e : Nat) (mem : Block) (V : Val) (o : Option Options), DecoderFor x ty d → (∀ rt n c, ty ≠ .jsonU rt n c) → Dest x ty mem V →
    Returns x ty (decode x d src (.ok (.null i e)) (some mem) o) (-1) none (nullOf ty V)

theorem null_reads {x : Ext} {src : Bytes} {o : Option Options} {ty : Ty} (hj : ∀ rt n c, ty ≠ .jsonU rt n c) (hs : ty ≠ .sliceES) (i e : Nat) (V : Val) : decV x src o ty (.null i e) V = .ok (nullOf ty V) := by
  cases ty with
  | jsonU rt n c => exact absurd rfl (hj rt n c)
  | sliceES => exact absurd rfl hs
  | scalar k => cases k <;> rfl
  | array n e => cases V <;> rfl
  | struct n fs => cases V <;> rfl
  | _ => rfl

/-- **C33, partial** (missing: `[]struct{}`, where null has no effect: `C33_refuted`). -/
theorem C33_null_partial {x : Ext} {ty : Ty} {d : Decoder} (hd : DecoderFor x ty d) (hj : ∀ rt n c, ty ≠ .jsonU rt n c) (hs : ty ≠ .sliceES) {src : Bytes} {i e : Nat} {mem : Block} {V : Val} (hm : Dest x ty mem V)
    (o : Option Options) : Returns x ty (decode x d src (.ok (.null i e)) (some mem) o) (-1) none (nullOf ty V) := by
  have ht : Tame x src o ty (.null i e) := by cases ty <;> simp [Tame]
  exact returns_ok hd hm (tameDoc_of ht) (by rw [top_eq V ht]; exact null_reads hj hs i e V)

/-- **C33, partial**, inside documents. -/
theorem C33_inside_partial {x : Ext} {src : Bytes} {o : Option Options} {ty : Ty} (hj : ∀ rt n c, ty ≠ .jsonU rt n c) (hs : ty ≠ .sliceES) (i e : Nat) (V : Val) :
    decV x src o ty (.null i e) V = .ok (nullOf ty V) := null_reads hj hs i e V

example : Returns demoX (demoTree 27) (decode demoX (demoDec 27) b!"null" (.ok (.null 0 4)) (some (seg 24 (.slice 1 1 (seg 8 (.int 7))))) none) (-1) none .nil := by
  have hd : DecoderFor demoX (demoTree 27) (demoDec 27) := demo_for' (t := 27) (by decide)
  have hm : Dest demoX (demoTree 27) (seg 24 (.slice 1 1 (seg 8 (.int 7)))) (.slice [.int 7] []) :=
    ⟨rfl, by decide, .inr ⟨_, _, _, rfl, rfl, rfl, fun j W hW => by
      match j, hW with
      | 0, hW => cases hW; exact ⟨by decide, .inr ⟨_, rfl, rfl⟩⟩⟩⟩
  exact C33_null_partial hd (fun _ _ _ h => by cases h) (fun h => by cases h) hm none

/-- **C33 is false of the code** for `[]struct{}`: null leaves a slice of length 1 as it is. -/
theorem C33_refuted : ¬ NullWorks demoX := by
  intro h
  have hd : DecoderFor demoX (demoTree 55) (demoDec 55) := demo_for' (t := 55) (by decide)
  have hm : Dest demoX (demoTree 55) (seg 24 (.slice 1 1 [])) (.slice [.struct []] []) :=
    ⟨rfl, by decide, .inr ⟨_, _, _, rfl, rfl, rfl, fun j W hW => by
      match j, hW with
      | 0, hW => cases hW; rfl⟩⟩
  have h1 := h _ _ b!"null" 0 4 _ _ none hd (fun _ _ _ h => by cases h) hm
  have h2 := returns_ok (src := b!"null") (v := .null 0 4) (o := none) (V' := .slice [.struct []] []) hd hm trivial rfl
  have := (returns_unique h1 h2).2.2
  simp [nullOf, demoTree] at this
  cases this

/-! ## Pointers: C34 -/

/-- **C34**: decoding a value other than null into a pointer destination does what decoding into a new zero value of the element type does, and leaves the pointer pointing to the result. By repetition this covers pointers
to pointers. (Element types of size 0 are left out: the model does not represent pointers to them.) -/
theorem C34_pointer_partial {x : Ext} {ty : Ty} {d de : Decoder} (hd : DecoderFor x (.ptr ty) d) (he : DecoderFor x ty de) (hz : ty.size x ≠ 0) {src : Bytes} {v : JVal} (hw : Wf src v) (hn : ∀ i e, v ≠ .null i e)
    {mem : Block} {V : Val} (hm : Dest x (.ptr ty) mem V) {o : Option Options} (ht : TameDoc x src o ty v) {i : Int} {e : Option Err} {W : Val}
    (h : Returns x ty (decode x de src (.ok v) (some (zeros (ty.size x))) o) i e W) : Returns x (.ptr ty) (decode x d src (.ok v) (some mem) o) i e (.ptr W) := by
  have ht' : TameDoc x src o (.ptr ty) v := by
    cases v <;> first | exact ⟨hz, ht⟩ | exact absurd rfl (hn _ _)
  have htop : ∀ V, decTopV x src o (.ptr ty) v V = (decTopV x src o ty v (zeroV x ty)).map .ptr := by
    intro V
    have := Safe.tokOK_wf hw
    cases v <;> first | exact absurd rfl (hn _ _) | (rw [decTopV]; simp only [this, hz]; simp)
  have hz' := zero_dest he
  obtain ⟨r, m, h1, h2, h3, h4, h5⟩ := id h
  cases e with
  | none =>
    obtain ⟨V'', m', g1, g2, g3, g4⟩ := ok_inv he hz' ht h1 h3
    rw [h4] at g3; cases g3
    have := holds_unique _ h5.2 g4.2
    subst this
    have : i = -1 := by rw [← h2, g2]
    subst this
    exact returns_ok hd hm ht' (by rw [htop, g1]; rfl)
  | some e =>
    obtain ⟨i', V'', m', g1, g2, g3, g4⟩ := err_inv he hz' ht h1 h3
    rw [h4] at g3; cases g3
    have := holds_unique _ h5.2 g4.2
    subst this
    have : i = i' := by rw [← h2, g2]
    subst this
    exact returns_err hd hm ht' (by rw [htop, g1]; rfl)

/-- **C34**: null yields nil. -/
theorem C34_null {x : Ext} {ty : Ty} {d : Decoder} (hd : DecoderFor x (.ptr ty) d) {src : Bytes} {i e : Nat} {mem : Block} {V : Val} (hm : Dest x (.ptr ty) mem V) (o : Option Options) :
    Returns x (.ptr ty) (decode x d src (.ok (.null i e)) (some mem) o) (-1) none .nil := returns_ok hd hm trivial rfl

/-- `{"X":1}` into a nil `**struct{X int; Y string}`. -/
example : Returns demoX (demoTree 37) (decode demoX (demoDec 37) b!"{\"X\":1}" (.ok (demoDoc b!"{\"X\":1}")) (some (zeros 8)) (some defaultOptions)) (-1) none (.ptr (.ptr (.struct [.int 1, .str ⟨[], false⟩]))) := by
  obtain ⟨hd, hm, -, h2, ht⟩ := demo_case (t := 4) (src := b!"{\"X\":1}") (o := defaultOptions) (by decide) (by decide) (by decide)
  obtain ⟨hd1, hm1, -, -, ht1⟩ := demo_case (t := 36) (src := b!"{\"X\":1}") (o := defaultOptions) (by decide) (by decide) (by decide)
  obtain ⟨hd2, hm2, -, -, ht2⟩ := demo_case (t := 37) (src := b!"{\"X\":1}") (o := defaultOptions) (by decide) (by decide) (by decide)
  have hn : ∀ i e, demoDoc b!"{\"X\":1}" ≠ .null i e := by
    intro i e h
    have : demoDoc b!"{\"X\":1}" = .obj 0 [((1, 4), .num true 5 6)] 6 := rfl
    rw [this] at h; cases h
  have r0 := returns_ok (V' := .struct [.int 1, .str ⟨[], false⟩]) hd hm ht rfl
  have r1 := C34_pointer_partial (x := demoX) (ty := demoTree 4) hd1 hd (by decide) h2 hn hm1 ht r0
  exact C34_pointer_partial (x := demoX) (ty := demoTree 36) hd2 hd1 (by decide) h2 hn hm2 ht1 r1

/-! ## Pointers and `struct{}` inside other types: C35, C36 -/

/-- The full statement of C35 for structs: an object with two members, one for a pointer field, one for another field. -/
def PointerFields (x : Ext) : Prop :=
  ∀ (n : Nat) (fs : List (Bytes × Nat × Ty)) (d : Decoder) (src : Bytes) (o : Options) (a z : Nat) (k k' : Nat × Nat) (v v' : JVal) (mem : Block) (Ws : List Val) (j j' : Nat) (name : Bytes) (off : Nat) (t : Ty)
    (f' : Bytes × Nat × Ty) (U W' U' : Val), DecoderFor x (.struct n fs) d → Wf src (.obj a [(k, v), (k', v')] z) → Dest x (.struct n fs) mem (.struct Ws) →
    KeySelects x src o (fs.map (·.1)) k j → KeySelects x src o (fs.map (·.1)) k' j' → j ≠ j' → fs[j]? = some (name, off, .ptr t) → fs[j']? = some f' → Ws[j']? = some W' →
    (∀ i e, v ≠ .null i e) → decV x src (some o) t v (zeroV x t) = .ok U → decV x src (some o) f'.2.2 v' W' = .ok U' →
    Returns x (.struct n fs) (decode x d src (.ok (.obj a [(k, v), (k', v')] z)) (some mem) (some o)) (-1) none (.struct ((Ws.set j (.ptr U)).set j' U'))

/-- A key of one plain letter stands for itself. -/
theorem demo_key {c : UInt8} (h : Denotes [c] [c]) {o : Options} (ho : o.disableFieldNameUnescaping = false) : KeyIs o [c] [c] := by simp only [KeyIs, ho]; exact h

/-- **C35 is false of the code**: `{"A":1,"B":2}` into a `struct{A *int; B int}` fails with ErrUnexpectedValue. -/
theorem C35_refuted : ¬ PointerFields demoX := by
  intro h
  have hd : DecoderFor demoX (demoTree 8) (demoDec 8) := demo_for' (t := 8) (by decide)
  have hdoc := demo_doc (src := b!"{\"A\":1,\"B\":2}") (by decide)
  obtain ⟨r, m, h1, -, h3, -⟩ := h 16 [(b!"A", 0, .ptr (.scalar (.int .int))), (b!"B", 8, .scalar (.int .int))] (demoDec 8) b!"{\"A\":1,\"B\":2}" defaultOptions 0 12 (1, 4) (7, 10) (.num true 5 6) (.num true 11 12) (zeros 16)
    [.nil, .int 0] 0 1 b!"A" 0 (.scalar (.int .int)) (b!"B", 8, .scalar (.int .int))
    (.int 1) (.int 0) (.int 2) hd hdoc.2 (zero_dest hd) ⟨b!"A", demo_key (.plain (by decide) .nil) rfl, by simp only [SelectsField]; exact .exact (.here rfl)⟩
    ⟨b!"B", demo_key (.plain (by decide) .nil) rfl, by simp only [SelectsField]; exact .exact (.there (by decide) (.here rfl))⟩ (by decide) rfl rfl rfl (fun _ _ h => by cases h) rfl rfl
  have : ((decode demoX (demoDec 8) b!"{\"A\":1,\"B\":2}" (.ok (.obj 0 [((1, 4), .num true 5 6), ((7, 10), .num true 11 12)] 12)) (some (zeros 16)) (some defaultOptions)).map (·.err)) = some (some .unexpectedValue) := by decide +kernel
  rw [h1] at this
  simp only [Option.map_some, Option.some.injEq] at this
  rw [h3] at this; cases this

/-- **C35 is false of the code** without any error being reported: `[1,2]` into a nil `[]*int` leaves the second pointer nil, and `{"In":{"A":1},"B":2}` into a `struct{In struct{A *int}; B int}` leaves B zero. -/
theorem C35_refuted_silent :
    ((okMem (demoUnmarshal 9 b!"[1,2]" (zeros 24))).bind (sliceAt 0)).map (fun a => ((ptrAt 0 a).bind (intAt 0), nilAt 8 a)) = some (some 2, true) ∧
    (okMem (demoUnmarshal 43 b!"{\"In\":{\"A\":1},\"B\":2}" (zeros 16))).map (fun m => ((ptrAt 0 m).bind (intAt 0), intAt 8 m)) = some (some 1, some 0) := by
  constructor <;> decide +kernel

/-- The full statement of C36, for a field of type `struct{}` inside a struct inside a struct: the member that gives it an object does not influence the other member. -/
def EmptyStructFields (x : Ext) : Prop :=
  ∀ (n n' : Nat) (fs fs' : List (Bytes × Nat × Ty)) (d : Decoder) (src : Bytes) (o : Options) (a z p q b c : Nat) (k0 k k' : Nat × Nat) (ms : List ((Nat × Nat) × JVal)) (v' : JVal) (mem : Block) (Ws Us : List Val)
    (j0 j j' : Nat) (name0 name : Bytes) (off0 off : Nat) (f' : Bytes × Nat × Ty) (U U' : Val), DecoderFor x (.struct n fs) d → Wf src (.obj a [(k0, .obj b [(k, .obj p ms q), (k', v')] c)] z) →
    Dest x (.struct n fs) mem (.struct Ws) → KeySelects x src o (fs.map (·.1)) k0 j0 → fs[j0]? = some (name0, off0, .struct n' fs') → Ws[j0]? = some (.struct Us) →
    KeySelects x src o (fs'.map (·.1)) k j → fs'[j]? = some (name, off, .emptyStruct) → KeySelects x src o (fs'.map (·.1)) k' j' → fs'[j']? = some f' → Us[j']? = some U →
    decV x src (some o) f'.2.2 v' U = .ok U' →
    Returns x (.struct n fs) (decode x d src (.ok (.obj a [(k0, .obj b [(k, .obj p ms q), (k', v')] c)] z)) (some mem) (some o)) (-1) none (.struct (Ws.set j0 (.struct (Us.set j' U'))))

/-- **C36 is false of the code**: `{"In":{"E":{},"B":1}}` into a `struct{In struct{E struct{}; B int}; C int}` loses B. -/
theorem C36_refuted : ¬ EmptyStructFields demoX := by
  intro h
  have hd : DecoderFor demoX (demoTree 63) (demoDec 63) := demo_for' (t := 63) (by decide)
  have hdoc := demo_doc (src := b!"{\"In\":{\"E\":{},\"B\":1}}") (by decide)
  obtain ⟨r, m, h1, -, -, h4, h5⟩ := h 16 8 [(b!"In", 0, .struct 8 [(b!"E", 0, .emptyStruct), (b!"B", 0, .scalar (.int .int))]), (b!"C", 8, .scalar (.int .int))] [(b!"E", 0, .emptyStruct), (b!"B", 0, .scalar (.int .int))]
    (demoDec 63) b!"{\"In\":{\"E\":{},\"B\":1}}" defaultOptions 0 20 11 12 6 19 (1, 5) (7, 10) (14, 17) [] (.num true 18 19) (zeros 16)
    [.struct [.struct [], .int 0], .int 0] [.struct [], .int 0] 0 0 1 b!"In" b!"E" 0 0 (b!"B", 0, .scalar (.int .int)) (.int 0) (.int 1) hd hdoc.2 (zero_dest hd)
    ⟨b!"In", by simp only [KeyIs]; exact .plain (by decide) (.plain (by decide) .nil), by simp only [SelectsField]; exact .exact (.here rfl)⟩ rfl rfl
    ⟨b!"E", demo_key (.plain (by decide) .nil) rfl, by simp only [SelectsField]; exact .exact (.here rfl)⟩ rfl
    ⟨b!"B", demo_key (.plain (by decide) .nil) rfl, by simp only [SelectsField]; exact .exact (.there (by decide) (.here rfl))⟩ rfl rfl rfl
  have : ((decode demoX (demoDec 63) b!"{\"In\":{\"E\":{},\"B\":1}}" (.ok (.obj 0 [((1, 5), .obj 6 [((7, 10), .obj 11 [] 12), ((14, 17), .num true 18 19)] 19)] 20)) (some (zeros 16)) (some defaultOptions)).bind
      (·.mem)).bind (intAt 0) = some 0 := by decide +kernel
  rw [h1] at this
  simp only [Option.bind_some] at this
  rw [h4] at this
  obtain ⟨-, -, Ws, e1, W, Ws', e2, h6, -⟩ := h5
  cases e1; cases e2
  obtain ⟨-, Us, e3, W1, Us', e4, -, W2, Us'', e5, h7, -⟩ := h6
  cases e3; cases e4; cases e5
  rcases h7.2 with ⟨-, h8⟩ | ⟨v, h8, h9⟩
  · cases h8
  · cases h9
    simp only [Nat.add_zero] at h8
    simp [intAt, h8] at this

/-- Inside a slice the same thing makes `Decode` panic: `[{"E":{},"B":1},{"B":3}]` into a nil `[]struct{E struct{}; B int}`. -/
theorem C36_refuted_panic : demoDecode (demoDec 64) b!"[{\"E\":{},\"B\":1},{\"B\":3}]" (zeros 24) = none :=
  Option.isNone_iff_eq_none.1 (by decide +kernel)

/-- What holds of `struct{}` as the destination itself: every object is accepted, everything else except null is rejected. -/
theorem C36_root_partial {x : Ext} {d : Decoder} (hd : DecoderFor x .emptyStruct d) {src : Bytes} {mem : Block} {V : Val} (hm : Dest x .emptyStruct mem V) (o : Option Options) {v : JVal} (hw : Wf src v) :
    (((∃ i ms z, v = .obj i ms z) ∨ ∃ i e, v = .null i e) → Returns x .emptyStruct (decode x d src (.ok v) (some mem) o) (-1) none V) ∧
    (¬ ((∃ i ms z, v = .obj i ms z) ∨ ∃ i e, v = .null i e) → Returns x .emptyStruct (decode x d src (.ok v) (some mem) o) v.index (some .unexpectedValue) V) := by
  constructor
  · rintro (⟨i, ms, z, rfl⟩ | ⟨i, e, rfl⟩)
    · exact returns_ok hd hm trivial rfl
    · exact returns_ok hd hm trivial rfl
  · intro h
    refine returns_err hd hm trivial ?_
    cases v with
    | obj i ms z => exact absurd (.inl ⟨_, _, _, rfl⟩) h
    | null i e => exact absurd (.inr ⟨_, _, rfl⟩) h
    | bool b i e => simp [decTopV, decV, leafV, leaf, Ty.etype, onBool, actV]
    | num b i e => cases b <;> simp [decTopV, decV, leafV, leaf, Ty.etype, Doc.slice_text hw.1 hw.2.1, onInteger, onNumber, actV]
    | str i e => simp [decTopV, decV, leafV, leaf, Ty.etype, Doc.slice_inner hw, onString, actV]
    | arr i es z => simp [decTopV, decV, leafV, leaf, Ty.etype, actV]

example : Returns demoX .emptyStruct (decode demoX (demoDec 14) b!"{\"a\":[{}]}" (.ok (demoDoc b!"{\"a\":[{}]}")) (some []) none) (-1) none (.struct []) := by
  have hd : DecoderFor demoX .emptyStruct (demoDec 14) := demo_for' (t := 14) (by decide)
  exact (C36_root_partial hd (zero_dest hd) none (demo_doc (src := b!"{\"a\":[{}]}") (by decide)).2).1 (.inl ⟨_, _, _, rfl⟩)

end Verif.Props
