import Verif.Props.Api
import Verif.Proof.Demo
import Verif.Proof.Fragment
import Verif.Proof.ErrKind
/-!
# What `Decode` computes: C25, C38, C40, C49

`DecoderFor x ty d`: `d` was made by `NewDecoder` for a Go type with the tree `ty` and has then been used for any calls whatsoever. `Dest x ty mem V`: the destination
memory holds the Go value `V`. `TameDoc x src o ty v`: the document does not reach one of the three spots where the code leaves the document (`Spec/Fragment.lean`).
-/
namespace Verif.Props
open Verif.Model Verif.Spec Verif.Big Verif.Proof Verif.Proof.Reads Verif.Proof.Demo

/-! ## C25 -/

/-- The full statement of C25: without a condition on the document. -/
def ReadsEverything (x : Ext) : Prop :=
  ∀ (ty : Ty) (d : Decoder) (src : Bytes) (v : JVal) (mem : Block) (o : Options) (V : Val), DecoderFor x ty d → Wf src v → Dest x ty mem V →
    (∃ V', Returns x ty (decode x d src (.ok v) (some mem) (some o)) (-1) none V') ∨
    (∃ i e V', Returns x ty (decode x d src (.ok v) (some mem) (some o)) i (some e) V')

/-- **C25, partial** (missing: documents outside `TameDoc`, recursive types): `Decode` computes the recursive function `decTopV` of type, document, options and old value. The memory-level, frame-level
and token-level workings of the decoder, and its history, have no influence. -/
theorem C25_reading_partial {x : Ext} {ty : Ty} {d : Decoder} (hd : DecoderFor x ty d) {src : Bytes} {v : JVal} {mem : Block} {V : Val} (hm : Dest x ty mem V)
    {o : Option Options} (ht : TameDoc x src o ty v) :
    match decTopV x src o ty v V with
    | .ok V' => Returns x ty (decode x d src (.ok v) (some mem) o) (-1) none V'
    | .err i e V' => Returns x ty (decode x d src (.ok v) (some mem) o) i (some e) V'
    | .crash => decode x d src (.ok v) (some mem) o = none
    | .unsup => False := by
  have hr := decoderFor_ready hd
  have h := decode_reads hr (src := src) (v := v) (o := o) hm.1 hm.2 (Fragment.decTop_ne ty v mem 0 ht)
  have hne := Fragment.decTopV_ne hr.ok (src := src) (o := o) hm.2 ht
  cases hc : decTopV x src o ty v V with
  | ok V' =>
    rw [hc] at h
    obtain ⟨r, m, h1, h2, h3, h4, h5, h6⟩ := h
    exact ⟨r, m, h1, h2, h3, h4, h5.trans hm.1, h6⟩
  | err i e V' =>
    rw [hc] at h
    obtain ⟨r, m, h1, h2, h3, h4, h5, h6⟩ := h
    exact ⟨r, m, h1, h2, h3, h4, h5.trans hm.1, h6⟩
  | crash => rw [hc] at h; exact h
  | unsup => exact hne hc

/-- **C25** without a condition on the document: types without inner pointers, `struct{}` and unsupported map keys, decoded with DisallowUnknownFields. -/
theorem C25_strict {x : Ext} {ty : Ty} (hp : ty.plain = true) {d : Decoder} (hd : DecoderFor x ty d) {src : Bytes} {v : JVal} {mem : Block} {V : Val}
    (hm : Dest x ty mem V) {o : Options} (ho : o.disallowUnknownFields = true) :
    match decTopV x src (some o) ty v V with
    | .ok V' => Returns x ty (decode x d src (.ok v) (some mem) (some o)) (-1) none V'
    | .err i e V' => Returns x ty (decode x d src (.ok v) (some mem) (some o)) i (some e) V'
    | .crash => decode x d src (.ok v) (some mem) (some o) = none
    | .unsup => False := by
  refine C25_reading_partial hd hm ?_
  have : Tame x src (some o) ty v := Fragment.tame_strict (fun o' h => by cases h; exact ho) ty hp v
  cases ty <;> first | exact this | simp [Ty.plain] at hp

/-- A document for the "everything" struct of the program, with an unknown key. -/
def everything : Bytes := b!"{\"id\":-7,\"NAME\":\"a\\u0062\",\"?\":[1],\"Pos\":[{\"Y\":\"p\"}],\"Tags\":{\"t\":3},\"Any\":[{}],\"Q\":\"true\"}"

/-- It meets the hypotheses, and the theorem gives what `Decode` returns. -/
example : tokenize everything = .ok (demoDoc everything) ∧ Wf everything (demoDoc everything) ∧
    Returns demoX (demoTree 45) (decode demoX (demoDec 45) everything (.ok (demoDoc everything)) (some (zeros 120)) (some defaultOptions)) (-1) none
      (.struct [.int (-7), .str ⟨b!"ab", false⟩, .arr [.struct [.int 0, .str ⟨b!"p", true⟩], .struct [.int 0, .str ⟨[], false⟩]],
        .map [(.str ⟨b!"t", true⟩, .int 3)], .any (.arr [.obj []]), .bool true, .user (zeros 8)]) := by
  obtain ⟨hd, hm, h1, h2, ht⟩ := demo_case (t := 45) (src := everything) (o := defaultOptions) (by decide) (by decide) (by decide)
  exact ⟨h1, h2, C25_reading_partial hd hm ht⟩

/-! ## C38: reuse -/

/-- The full statement of C38: what a call of `Decode` does never depends on earlier calls with the same decoder. -/
def HistoryIndependent (x : Ext) : Prop :=
  ∀ (env : TypeEnv) (opts : Option InitOptions) (depth : Nat) (t : Option TypeId) (d₀ d : Decoder), Layout env x → newDecoder env x.W opts depth t = .ok d₀ → Served x d₀ d →
    ∀ (src : Bytes) (v : JVal) (mem : Block) (o : Option Options), tokenize src = .ok v → observe (decode x d src (.ok v) (some mem) o) = observe (decode x d₀ src (.ok v) (some mem) o)

/-- **C38, partial** (missing: recursive types, documents outside `TameDoc`; there it is false, `C38_refuted`): two decoders for the same type give the same outcome (index, error, every byte of the destination,
or a panic), whatever was done with them before. -/
theorem C38_reuse_partial {x : Ext} {ty : Ty} {d d' : Decoder} (hd : DecoderFor x ty d) (hd' : DecoderFor x ty d') {src : Bytes} {v : JVal} {mem : Block} {V : Val}
    (hm : Dest x ty mem V) {o : Option Options} (ht : TameDoc x src o ty v) :
    observe (decode x d src (.ok v) (some mem) o) = observe (decode x d' src (.ok v) (some mem) o) := by
  have h1 := decode_exact (decoderFor_ready hd) (src := src) (v := v) (o := o) hm.1 hm.2
  have h2 := decode_exact (decoderFor_ready hd') (src := src) (v := v) (o := o) hm.1 hm.2
  have hne := Fragment.decTop_ne (x := x) (src := src) (o := o) ty v mem 0 ht
  cases hr : decTop x src o ty v mem 0 with
  | ok b =>
    rw [hr] at h1 h2
    obtain ⟨a, ha⟩ := h1
    obtain ⟨b, hb⟩ := h2
    rw [ha, hb]; rfl
  | err i e b =>
    rw [hr] at h1 h2
    obtain ⟨a, ha⟩ := h1
    obtain ⟨b, hb⟩ := h2
    rw [ha, hb]; rfl
  | crash =>
    rw [hr] at h1 h2
    rw [h1, h2]
  | unsup => exact absurd hr hne

/-- **C38** for nil destinations and syntax errors: no condition on the type. -/
theorem C38_reuse_early {x : Ext} {env : TypeEnv} {opts : Option InitOptions} {depth : Nat} {t : Option TypeId} {d₀ d : Decoder}
    (hn : newDecoder env x.W opts depth t = .ok d₀) (hs : Served x d₀ d) (src : Bytes) (doc : Except (Nat × Nat) JVal) (dest : Option Block) (o : Option Options)
    (h : dest = none ∨ ∃ e, doc = .error e) : observe (decode x d src doc dest o) = observe (decode x d₀ src doc dest o) := by
  rcases h with rfl | ⟨⟨i, c⟩, rfl⟩
  · rfl
  · cases dest with
    | none => rfl
    | some mem => rw [C23_syntax_error hn hs, C23_syntax_error hn .new]; rfl

/-- A decoder that failed once is one of the decoders of `C38_reuse_partial`. -/
example : ∃ r, demoDecode (demoDec 4) b!"{\"X\":1,\"Y\":2}" (zeros 24) = some r ∧ r.err = some .unexpectedValue ∧ DecoderFor demoX (demoTree 4) r.dec := by
  obtain ⟨env, opts, depth, t, d₀, h1, h2, h3⟩ := demo_for' (t := 4) (by decide)
  refine ⟨_, rfl, rfl, env, opts, depth, t, d₀, h1, h2, h3.call (src := b!"{\"X\":1,\"Y\":2}") (doc := tokenize b!"{\"X\":1,\"Y\":2}") (t := some (zeros 24)) (o := some defaultOptions) rfl⟩

/-- **C38 is false of the code** in general: `type T struct{Kids []T; Name string}`. After a failed call, a document that a new decoder decodes well makes the same decoder access memory outside the
destination (`decode = none`). -/
theorem C38_refuted : ¬ HistoryIndependent demoX := by
  intro h
  obtain ⟨r, hr⟩ : ∃ r, decode demoX (demoDec 12) b!"{\"Kids\":[{},1]}" (tokenize b!"{\"Kids\":[{},1]}") (some (zeros 40)) (some defaultOptions) = some r := ⟨_, rfl⟩
  obtain ⟨v, hv⟩ : ∃ v, tokenize b!"{\"Name\":\"a\"}" = .ok v := ⟨_, rfl⟩
  have := h demoEnv (some defaultInitOptions) 20 (some 12) (demoDec 12) r.dec demo_layout rfl (.call .new hr) b!"{\"Name\":\"a\"}" v (zeros 40) (some defaultOptions) hv
  have h1 : ((demoDecode (demoDec 12) b!"{\"Kids\":[{},1]}" (zeros 40)).bind fun r => demoDecode r.dec b!"{\"Name\":\"a\"}" (zeros 40)).isNone = true := by decide +kernel
  have h2 : (demoDecode (demoDec 12) b!"{\"Name\":\"a\"}" (zeros 40)).isNone = false := by decide +kernel
  simp only [demoDecode, hr, hv, Option.bind_some] at h1 h2
  have := congrArg Option.isNone this
  simp only [observe, Option.isNone_map, h1, h2] at this
  cases this

/-! ## C49: the errors of `Decode` -/

/-- **C49**: every error `Decode` returns is `ErrNilDest` (nil destination), the tokenizer's error (input it rejects), `ErrUnexpectedValue`, `ErrIntegerOverflow`, an error of `strconv`, an error returned by an unmarshaler
method, or `ErrUnknownField`; the last one only with DisallowUnknownFields. Every type (recursive or not), decoder history, input, destination and option set. -/
theorem C49_errors {x : Ext} {d : Decoder} {src : Bytes} {doc : Except (Nat × Nat) JVal} {dest : Option Block} {o : Option Options} {r : DecodeRes} {e : Err}
    (hr : decode x d src doc dest o = some r) (he : r.err = some e) :
    e = .nilDest ∨ (∃ c, e = .syntax c ∧ ∃ i, doc = .error (i, c)) ∨ e = .unexpectedValue ∨ e = .integerOverflow ∨ (∃ c, e = .parse c) ∨ (∃ c, e = .user c) ∨
      (e = .unknownField ∧ ∃ o', o = some o' ∧ o'.disallowUnknownFields = true) := by
  cases dest with
  | none => cases hr; cases he; exact .inl rfl
  | some mem =>
    cases doc with
    | error ic =>
      simp only [decode] at hr
      split at hr <;> cases hr
      cases he
      exact .inr (.inl ⟨_, rfl, _, rfl⟩)
    | ok v =>
      simp only [decode] at hr
      split at hr
      · cases hr
      · split at hr
        · rename_i i e' s hrun
          cases hr; cases he
          have := ErrKind.run_err _ _ hrun
          cases e <;> simp_all [ErrKind.DecErr]
        · split at hr <;> cases hr
          cases he
        · cases hr

example : ∃ r, decode demoX (demoDec 4) b!"{\"Z\":1}" (tokenize b!"{\"Z\":1}") (some (zeros 24)) (some ⟨true, false, false⟩) = some r ∧ r.err = some .unknownField := ⟨_, rfl, rfl⟩

/-! ## C40: Unmarshal -/

/-- **C40**: for types `T` that are not interface types, `Unmarshal` is `NewDecoder` with the default init options followed by `Decode` with the default options: same error, same contents of the
destination, and it panics or fails to return exactly if they do. Every type, input and old value. -/
theorem C40_unmarshal {x : Ext} {env : TypeEnv} {depth : Nat} {t : Option TypeId} {src : Bytes} {doc : Except (Nat × Nat) JVal} {mem : Block} :
    unmarshal x env depth t src doc (some mem) =
      match newDecoder env x.W (some defaultInitOptions) depth t with
      | .err e => .ret (some e) (some mem)
      | .panic => .panic
      | .diverges => .diverges
      | .ok d => match decode x d src doc (some mem) (some defaultOptions) with
        | some r => .ret r.err r.mem
        | none => .panic := by
  simp only [unmarshal]
  cases hn : newDecoder env x.W (some defaultInitOptions) depth t with
  | err => rfl
  | panic => rfl
  | diverges => rfl
  | ok d =>
    simp only []
    cases hd : decode x d src doc (some mem) (some defaultOptions) with
    | none => rfl
    | some r =>
      simp only []
      split
      · rename_i h
        rcases C49_errors hd h with h | ⟨c, h, _⟩ | h | h | ⟨c, h⟩ | ⟨c, h⟩ | ⟨h, _⟩ <;> cases h
      · rfl

example : demoUnmarshal 4 b!"{\"X\":1}" (zeros 24) = .ret none (some (seg 8 (.int 1) ++ zeros 16)) := rfl

/-- The full statement of C40 also has interface types `T`: `NewDecoder` looks at the zero value of `T` (a nil interface, type `none`) while `Unmarshal` looks at the dynamic type `dyn` of the current value. -/
def UnmarshalAgreesOnInterfaces (x : Ext) : Prop :=
  ∀ (env : TypeEnv) (depth : Nat) (dyn : Option TypeId) (src : Bytes) (doc : Except (Nat × Nat) JVal) (mem : Block), Layout env x →
    unmarshal x env depth dyn src doc (some mem) = unmarshal x env depth none src doc (some mem)

/-- **C40 is false of the code for interface types**: `var a any = 5; Unmarshal("7", &a)` writes an `int` over the interface value instead of storing a `float64` in it. -/
theorem C40_refuted : ¬ UnmarshalAgreesOnInterfaces demoX := by
  intro h
  have := h demoEnv 20 (some 1) b!"7" (tokenize b!"7") (seg 16 (.any (.other 5))) demo_layout
  have := congrArg (fun r => match r with | UnmarshalRes.ret _ (some (.int _ :: _)) => true | _ => false) this
  revert this
  decide +kernel

end Verif.Props
