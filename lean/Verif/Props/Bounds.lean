import Verif.Props.Kept
import Verif.Props.Safety
import Verif.Proof.Structless
/-!
# C72: `Decode` stays inside the memory of the destination
-/
namespace Verif.Props
open Verif Verif.Model Verif.Spec Verif.Big Verif.Proof Verif.Proof.Demo Verif.Proof.Reads

/-- The full statement: whatever the decoder, its history, the document and the options are, a call does not fail at a moment when the decoder is about to work on a value that does not lie inside its block of memory. (Every access
of the model to memory outside a block fails, so this means that there is no such access.) -/
def StaysInside (x : Ext) : Prop :=
  ∀ (env : TypeEnv) (opts : Option InitOptions) (depth : Nat) (t : TypeId) (d₀ d : Decoder), Layout env x → newDecoder env x.W opts depth (some t) = .ok d₀ → Served x d₀ d →
    ∀ (src : Bytes) (v : JVal) (o : Option Options) (s : St), Wf src v → During (callOf x d src v o) (initSt d.dyn (zeros (env t).size)) s →
      step (callOf x d src v o) s = .crash → InBounds (callOf x d src v o) s

/-- **C72 for types without recursion and without slices that are decoded element by element**: during every call, with any document (fitting the type or not), options and history of the decoder, and any value in the destination, the value the
decoder is working on lies inside its block of memory: the destination, a value behind a pointer, or a value of a map. -/
theorem C72_inside_partial {x : Ext} {ty : Ty} {d : Decoder} (hd : DecoderFor x ty d) (hn : ty.noSlices = true) {src : Bytes} {v : JVal} {mem : Block} {V : Val} (hV : Dest x ty mem V) {o : Option Options} {s : St}
    (hs : During (callOf x d src v o) (initSt d.dyn mem) s) : InBounds (callOf x d src v o) s := by
  have hrdy := decoderFor_ready hd
  have hnil : NilDests d := by
    obtain ⟨env, opts, depth, t, d₀, -, h2, h3⟩ := hd
    exact served_nilDests (fresh_nilDests h2) h3
  have h0 := Kept.init_inv hrdy hrdy.ok hnil (src := src) (v := v) ⟨V, hV.2⟩ (o := o)
  obtain ⟨h1, h2⟩ := Kept.during_inv hrdy.table h0 (init_dynOK hrdy.dyn mem) hs
  exact h1.inBounds h2 hrdy.table hn

/-- The states of a run. -/
theorem run_during {pr : Prog} {n : Nat} {s₀ s : St} (h : run pr n s₀ = .run s) : During pr s₀ s := by
  suffices ∀ {s₁ s : St}, During pr s₀ s₁ → run pr n s₁ = .run s → During pr s₀ s from this .start h
  clear h
  induction n with
  | zero => intro s₁ s h hr; simp only [run] at hr; cases hr; exact h
  | succ n ih =>
    intro s₁ s h hr
    rw [run] at hr
    cases hs : step pr s₁ with
    | run s2 => rw [hs] at hr; exact ih (.next h hs) hr
    | done s2 => rw [hs] at hr; cases hr
    | err i e s2 => rw [hs] at hr; cases hr
    | crash => rw [hs] at hr; cases hr

/-- A case: an array of structs, on a document that ends a struct early. -/
example {s : St} (hs : During (callOf demoX (demoDec 47) b!"[{\"u\":{}},{\"X\":1}]" (demoDoc b!"[{\"u\":{}},{\"X\":1}]") (some defaultOptions)) (initSt (demoDec 47).dyn (zeros 48)) s) :
    InBounds (callOf demoX (demoDec 47) b!"[{\"u\":{}},{\"X\":1}]" (demoDoc b!"[{\"u\":{}},{\"X\":1}]") (some defaultOptions)) s :=
  C72_inside_partial (demo_for' (t := 47) (by decide)) (by decide) (zero_dest (demo_for' (t := 47) (by decide))) hs

/-! ## Calls that return -/

/-- **C72 for calls that return**: every type (recursive ones too), every decoder state, document and options. -/
theorem C72_returns {x : Ext} {d : Decoder} {src : Bytes} {v : JVal} {mem : Block} {o : Option Options} {r : DecodeRes} (hr : decode x d src (.ok v) (some mem) o = some r) {s : St}
    (hs : During (callOf x d src v o) (initSt d.dyn mem) s) : step (callOf x d src v o) s ≠ .crash := Structless.returns_sound hr hs

/-- **C24 for types without structs and pointers**, without a condition on the document: every well-formed document, whether it fits the type or not, all options, every history and old value. (Unmarshaler methods must be callable, and where the type has quoted
numbers or `Number` an empty string panics, C06.) -/
theorem C24_structless {x : Ext} {ty : Ty} (ht : ty.structless = true) {d : Decoder} (hd : DecoderFor x ty d) {src : Bytes} {v : JVal} (hw : Wf src v) {mem : Block} {V : Val} (hm : Dest x ty mem V) {o : Options}
    (hc : ty.callable = true) (hq : ty.noQuotedNum = true ∨ noEmptyStr v = true) : ∃ i e V', Returns x ty (decode x d src (.ok v) (some mem) (some o)) i e V' :=
  C24_safe_partial hd hw hm (Structless.tameDoc ht v) hc hq

/-- **C25 for types without structs and pointers**, without a condition on the document. -/
theorem C25_structless {x : Ext} {ty : Ty} (ht : ty.structless = true) {d : Decoder} (hd : DecoderFor x ty d) {src : Bytes} {v : JVal} {mem : Block} {V : Val} (hm : Dest x ty mem V) {o : Options} :
    match decTopV x src (some o) ty v V with
    | .ok V' => Returns x ty (decode x d src (.ok v) (some mem) (some o)) (-1) none V'
    | .err i e V' => Returns x ty (decode x d src (.ok v) (some mem) (some o)) i (some e) V'
    | .crash => decode x d src (.ok v) (some mem) (some o) = none
    | .unsup => False := C25_reading_partial hd hm (Structless.tameDoc ht v)

/-- **C72 for types without structs and pointers**, slices of slices, arrays and maps among them: every well-formed document. -/
theorem C72_structless {x : Ext} {ty : Ty} (ht : ty.structless = true) {d : Decoder} (hd : DecoderFor x ty d) {src : Bytes} {v : JVal} (hw : Wf src v) {mem : Block} {V : Val} (hm : Dest x ty mem V) {o : Options}
    (hc : ty.callable = true) (hq : ty.noQuotedNum = true ∨ noEmptyStr v = true) {s : St} (hs : During (callOf x d src v (some o)) (initSt d.dyn mem) s) : step (callOf x d src v (some o)) s ≠ .crash := by
  obtain ⟨i, e, V', r, mem', hr, -⟩ := C24_structless ht hd hw hm (o := o) hc hq
  exact C72_returns hr hs

/-- A case: `[]map[string]…` and the like are such types; `[3]int` with an object. -/
example : (demoTree 26).structless = true ∧ (demoTree 11).structless = true ∧ (demoTree 5).structless = false := by decide
example : ∃ i e V', Returns demoX (demoTree 26) (decode demoX (demoDec 26) b!"[1,{},3,[4]]" (.ok (demoDoc b!"[1,{},3,[4]]")) (some (zeros 24)) (some defaultOptions)) i e V' := by
  have hdoc := demo_doc (src := b!"[1,{},3,[4]]") (by decide)
  exact C24_structless (by decide) (demo_for' (t := 26) (by decide)) hdoc.2 (zero_dest (demo_for' (t := 26) (by decide))) (by decide) (.inl (by decide))

/-! ## Slices of structs -/

/-- A run of `k` steps of a new decoder on zeroed memory, then a step that fails with a pointer into a block that ends before the value does. -/
def strayAt (t n : Nat) (src : Bytes) (k : Nat) : Bool :=
  match run (callOf demoX (demoDec t) src (demoDoc src) (some defaultOptions)) k (initSt (demoDec t).dyn (zeros n)) with
  | .run s =>
    (match step (callOf demoX (demoDec t) src (demoDoc src) (some defaultOptions)) s with
      | .crash => true
      | _ => false) &&
    match (demoDec t).frames[s.si]?, s.p with
    | some f, .at a =>
      match getBlock s.mem a.path with
      | some blk => decide (blk.length < a.off + f.size)
      | none => false
    | _, _ => false
  | _ => false

theorem strayAt_out {t n k : Nat} {src : Bytes} (h : strayAt t n src k = true) : ∃ s, During (callOf demoX (demoDec t) src (demoDoc src) (some defaultOptions)) (initSt (demoDec t).dyn (zeros n)) s ∧
    step (callOf demoX (demoDec t) src (demoDoc src) (some defaultOptions)) s = .crash ∧ ¬ InBounds (callOf demoX (demoDec t) src (demoDoc src) (some defaultOptions)) s := by
  unfold strayAt at h
  split at h
  · rename_i s hs
    rw [Bool.and_eq_true] at h
    obtain ⟨h1, h2⟩ := h
    split at h1
    · rename_i hc
      split at h2
      · rename_i f a hf ha
        split at h2
        · rename_i blk hg
          refine ⟨s, run_during hs, hc, fun hin => ?_⟩
          have := hin f a blk hf ha hg
          have h2 := of_decide_eq_true h2
          omega
        · cases h2
      · cases h2
    · cases h1
  · cases h

/-- **C72 is false of the code for slices of structs**: a new decoder for `[]struct{X int; Y string}`, a nil slice as destination, default options, and the document `[{"u":{}},{"X":1}]`. The object for the unknown key `u` ends the first
element early (C31), its closing brace is counted as another element, and so the `X` of the second element is written behind the end of the array of two elements: in Go an undetected write to memory that belongs to something else. -/
theorem C72_refuted : ¬ StaysInside demoX := by
  intro h
  obtain ⟨s, h1, h2, h3⟩ := strayAt_out (t := 5) (n := 24) (src := b!"[{\"u\":{}},{\"X\":1}]") (k := 9) (by decide +kernel)
  have hdoc := demo_doc (src := b!"[{\"u\":{}},{\"X\":1}]") (by decide)
  exact h3 (h demoEnv (some defaultInitOptions) 20 5 (demoDec 5) (demoDec 5) demo_layout rfl .new _ _ _ s hdoc.2 h1 h2)

/-- **And false for slices of slices inside a struct**: a new decoder for `struct{L [][]int; Q struct{In struct{Foo int}; B int}}`, a zero destination, default options, and the document `{"L":[[1]],"Q":{"In":{"u":[[{}],[5]]}}}`. The object inside the
value of the unknown key ends `In`, the bracket behind it leaves the struct for the frame of the elements of `L`, and `[5]` is written behind the end of the array of `L`. So neither `noSlices` nor `structless` can be dropped from the theorems. -/
theorem C72_refuted_nested : ∃ s, During (callOf demoX (demoDec 114) b!"{\"L\":[[1]],\"Q\":{\"In\":{\"u\":[[{}],[5]]}}}" (demoDoc b!"{\"L\":[[1]],\"Q\":{\"In\":{\"u\":[[{}],[5]]}}}") (some defaultOptions)) (initSt (demoDec 114).dyn (zeros 40)) s ∧
    step (callOf demoX (demoDec 114) b!"{\"L\":[[1]],\"Q\":{\"In\":{\"u\":[[{}],[5]]}}}" (demoDoc b!"{\"L\":[[1]],\"Q\":{\"In\":{\"u\":[[{}],[5]]}}}") (some defaultOptions)) s = .crash ∧
    ¬ InBounds (callOf demoX (demoDec 114) b!"{\"L\":[[1]],\"Q\":{\"In\":{\"u\":[[{}],[5]]}}}" (demoDoc b!"{\"L\":[[1]],\"Q\":{\"In\":{\"u\":[[{}],[5]]}}}") (some defaultOptions)) s :=
  strayAt_out (k := 16) (by decide +kernel)

/-- The document is well-formed. -/
example : Wf b!"{\"L\":[[1]],\"Q\":{\"In\":{\"u\":[[{}],[5]]}}}" (demoDoc b!"{\"L\":[[1]],\"Q\":{\"In\":{\"u\":[[{}],[5]]}}}") := (demo_doc (by decide)).2

end Verif.Props
