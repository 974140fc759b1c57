import Verif.Proof.OnceB
import Verif.Props.Means
import Verif.Props.Right
import Verif.Proof.TwiceRight
/-!
# C48: decoding the same document twice
-/
namespace Verif.Props
open Verif.Model Verif.Spec Verif.Big Verif.Proof Verif.Proof.Demo Verif.Proof.Outcome Verif.Proof.Unique

/-- **C48**, in full, for a type: if `Decode` succeeds, a second call of the same decoder with the same document on the result succeeds too and leaves the same value. -/
def Idempotent (x : Ext) (ty : Ty) (P : Bytes → Options → JVal → Prop) : Prop :=
  ∀ d, DecoderFor x ty d → ∀ src v (o : Options) mem V, Wf src v → P src o v → Dest x ty mem V → ∀ r, decode x d src (.ok v) (some mem) (some o) = some r → r.err = none →
    ∃ mem' V', r.mem = some mem' ∧ Dest x ty mem' V' ∧ Returns x ty (decode x r.dec src (.ok v) (some mem') (some o)) (-1) none V'

theorem decoder_next {x : Ext} {ty : Ty} {d : Decoder} (h : DecoderFor x ty d) {src : Bytes} {doc : Except (Nat × Nat) JVal} {t : Option Block} {o : Option Options} {r : DecodeRes}
    (hr : decode x d src doc t o = some r) : DecoderFor x ty r.dec := by
  obtain ⟨env, opts, depth, t, d₀, h1, h2, h3⟩ := h
  exact ⟨env, opts, depth, t, d₀, h1, h2, .call h3 hr⟩

theorem demo_methods : MethodsTwice demoX := by
  constructor
  · intro rt n old raw new h
    simp only [demoX] at h ⊢
    split at h
    · simp at h
    · rename_i hne
      cases h
      exact ⟨_, by rw [if_neg hne], rfl⟩
  · intro rt n old raw new h
    simp only [demoX] at h ⊢
    split at h
    · simp at h
    · rename_i hne
      cases h
      exact ⟨_, by rw [if_neg hne], rfl⟩

/-- **C48 is false of the code** for documents with duplicate keys: `{"A":[{},{"X":1}],"A":[{}],"A":[{},{},{}]}` into a `struct{A []struct{X int; Y string}; …}` gives three zero structs when
decoded into a zero variable; decoded again into that, the second struct gets `X = 1`. -/
theorem C48_refuted : ¬ Idempotent demoX (demoTree 74) (fun src o v => TameDoc demoX src (some o) (demoTree 74) v) := by
  intro h
  obtain ⟨hd, hm, -, hw, ht⟩ := demo_case (t := 74) (src := b!"{\"A\":[{},{\"X\":1}],\"A\":[{}],\"A\":[{},{},{}]}") (o := defaultOptions) (by decide) (by decide +kernel) (by decide +kernel)
  have h1 := returns_ok (V' := .struct [.slice [.struct [.int 0, .str ⟨[], false⟩], .struct [.int 0, .str ⟨[], false⟩], .struct [.int 0, .str ⟨[], false⟩]] [], .nil]) hd hm ht rfl
  obtain ⟨r, m, e1, e2, e3, e4, e5⟩ := h1
  obtain ⟨mem', V', g1, g2, g3⟩ := h _ hd _ _ _ _ _ hw ht hm r e1 e3
  rw [e4] at g1; cases g1
  have := holds_unique _ e5.2 g2.2
  subst this
  have hd' : DecoderFor demoX (demoTree 74) r.dec := decoder_next hd e1
  have h2 := returns_ok (V' := .struct [.slice [.struct [.int 0, .str ⟨[], false⟩], .struct [.int 1, .str ⟨[], false⟩], .struct [.int 0, .str ⟨[], false⟩]] [], .nil]) hd' e5 ht rfl
  have := (returns_unique g3 h2).2.2
  simp at this

/-- **C48** for every type with a tree, if the unmarshaler methods have the property themselves and no two members of an object of the document stand for the same field or map key. Missing: documents with duplicate
members (`C48_refuted`), with malformed integer map keys (C07) and those that reach the spots outside `Right`. -/
theorem C48_once_partial {x : Ext} (hx : MethodsTwice x) (ty : Ty) :
    Idempotent x ty (fun src o v => RightDoc x src (some o) ty v ∧ Once x src o ty v ∧ Keyed x src o ty v) := by
  rintro d hd src v o mem V hw ⟨ht, ho, hk⟩ hm r hr he
  obtain ⟨V', mem', h1, -, h3, h4⟩ := right_inv hd hw hm ht hr he
  exact ⟨mem', V', h3, h4, right_returns (decoder_next hd hr) hw h4 ht (Twice.decP_twice hx ty hw ho hk (Safe.holds_typed ty hm.2) h1)⟩

/-- A record with an array of structs, a map, an `any`, a quoted bool and an unmarshaler. -/
example : ∃ r mem V, decode demoX (demoDec 45) b!"{\"id\":7,\"Pos\":[{\"X\":1}],\"Tags\":{\"a\":1,\"b\":2},\"Any\":[1],\"Q\":\"true\",\"J\":{}}"
      (.ok (demoDoc b!"{\"id\":7,\"Pos\":[{\"X\":1}],\"Tags\":{\"a\":1,\"b\":2},\"Any\":[1],\"Q\":\"true\",\"J\":{}}")) (some (zeros 120)) (some defaultOptions) = some r ∧
    r.mem = some mem ∧ Dest demoX (demoTree 45) mem V ∧
    Returns demoX (demoTree 45) (decode demoX r.dec b!"{\"id\":7,\"Pos\":[{\"X\":1}],\"Tags\":{\"a\":1,\"b\":2},\"Any\":[1],\"Q\":\"true\",\"J\":{}}"
      (.ok (demoDoc b!"{\"id\":7,\"Pos\":[{\"X\":1}],\"Tags\":{\"a\":1,\"b\":2},\"Any\":[1],\"Q\":\"true\",\"J\":{}}")) (some mem) (some defaultOptions)) (-1) none V := by
  obtain ⟨hd, hm, -, hw, ht⟩ := demo_case (t := 45) (src := b!"{\"id\":7,\"Pos\":[{\"X\":1}],\"Tags\":{\"a\":1,\"b\":2},\"Any\":[1],\"Q\":\"true\",\"J\":{}}") (o := defaultOptions) (by decide) (by decide +kernel) (by decide +kernel)
  obtain ⟨ho, hk⟩ := OnceB.onceB_sound (x := demoX) (o := defaultOptions) (demoTree 45) hw (by decide +kernel)
  obtain ⟨r, m, e1, -, e3, -⟩ := returns_ok hd hm ht rfl
  obtain ⟨mem, V, g1, g2, g3⟩ := C48_once_partial demo_methods (demoTree 45) _ hd _ _ _ _ _ hw ⟨C35_contains ht, ho, hk⟩ hm r e1 e3
  exact ⟨r, mem, V, e1, g1, g2, g3⟩

/-- With pointers: `{"B":7,"In":{"A":5}}` into a struct with a nested struct with a pointer, and a second time into the result. -/
example {mem : Block} {V : Val} (hm : Dest demoX (demoTree 43) mem V) : ∃ r mem' V', decode demoX (demoDec 43) b!"{\"B\":7,\"In\":{\"A\":5}}" (.ok (demoDoc b!"{\"B\":7,\"In\":{\"A\":5}}")) (some mem) (some defaultOptions) = some r ∧
    r.mem = some mem' ∧ Dest demoX (demoTree 43) mem' V' ∧
    Returns demoX (demoTree 43) (decode demoX r.dec b!"{\"B\":7,\"In\":{\"A\":5}}" (.ok (demoDoc b!"{\"B\":7,\"In\":{\"A\":5}}")) (some mem') (some defaultOptions)) (-1) none V' := by
  obtain ⟨hd, hw, hR⟩ := Right.demo_right (t := 43) (src := b!"{\"B\":7,\"In\":{\"A\":5}}") (o := defaultOptions) (by decide) (by decide) (by decide)
  obtain ⟨ho, hk⟩ := OnceB.onceB_sound (x := demoX) (o := defaultOptions) (demoTree 43) hw (by decide +kernel)
  obtain ⟨Ws, rfl, W1, Ws', rfl, ⟨Us, rfl, W3, Us', rfl, -, rfl⟩, W2, Ws'', rfl, -, rfl⟩ := Safe.holds_typed (demoTree 43) hm.2
  obtain ⟨r, m, e1, -, e3, -⟩ := right_returns (V' := .struct [.struct [.ptr (.int 5)], .int 7]) hd hw hm hR rfl
  obtain ⟨mem', V', g1, g2, g3⟩ := C48_once_partial demo_methods (demoTree 43) _ hd _ _ _ _ _ hw ⟨hR, ho, hk⟩ hm r e1 e3
  exact ⟨r, mem', V', e1, g1, g2, g3⟩

end Verif.Props
