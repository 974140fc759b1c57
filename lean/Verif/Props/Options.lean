import Verif.Proof.Options
import Verif.Proof.Session
import Verif.Proof.Demo
import Verif.Proof.Fields
import Verif.Props.Leaf
/-!
# C55: the options for keys matter only for the keys they are about
-/
namespace Verif.Props
open Verif.Model Verif.Big Verif.Spec Verif.Proof Verif.Proof.Demo Verif.Proof.Outcome

/-- **C55**: DisableFieldNameUnescaping has no effect at all on documents whose keys have no escapes, for every type, history, destination and setting of the other options. -/
theorem C55_unescaping (x : Ext) (d : Decoder) {src : Bytes} {v : JVal} (hw : Wf src v) (hk : PlainKeys src v) (t : Option Block) (o : Options) (b b' : Bool) :
    decode x d src (.ok v) t (some { o with disableFieldNameUnescaping := b }) = decode x d src (.ok v) t (some { o with disableFieldNameUnescaping := b' }) := by
  refine Opts.decode_alike fun f hf => ⟨rfl, fun tk ht hkey => ?_⟩
  have hm := Opts.key_tokens v 0 tk ht hkey
  have hwk := Opts.key_wf v hw _ hm
  have hp := hk _ hm
  have hn : ∀ c, keyName { o with disableFieldNameUnescaping := c } (inner src tk.index tk.end_) = some (inner src tk.index tk.end_) := by
    intro c
    simp only [keyName]
    split
    · rfl
    · exact C09_plain _ hp
  simp only [Opts.pick, Doc.slice_inner hwk, Option.bind_some, hn, Option.map_some]
  rfl

theorem served_frames {x : Ext} {d₀ d : Decoder} (h : Served x d₀ d) : d.frames = d₀.frames := by
  induction h with
  | new => rfl
  | call _ hr ih => exact (Proof.Reads.decode_frames hr).trans ih

/-- **C55**: DisableCaseInsensitiveMatching has no effect at all on documents in which no key equals a field name up to case only, for every type (recursive ones included), history, destination and setting of the other
options. -/
theorem C55_case {x : Ext} {env : TypeEnv} {opts : Option InitOptions} {depth : Nat} {ty : TypeId} {d₀ d : Decoder} (hn : newDecoder env x.W opts depth (some ty) = .ok d₀) (hs : Served x d₀ d) {src : Bytes} {v : JVal}
    (hw : Wf src v) (o : Options) (hk : ExactKeys x src o env ty v) (t : Option Block) (b b' : Bool) :
    decode x d src (.ok v) t (some { o with disableCaseInsensitiveMatching := b }) = decode x d src (.ok v) t (some { o with disableCaseInsensitiveMatching := b' }) := by
  have hnames : Opts.AllNames (FieldName env ty) d₀.frames := by
    simp only [newDecoder] at hn
    split at hn <;> cases hn
    rename_i s hap
    exact Opts.append_names env x.W opts depth [] (some ty) s (fun t' ht n hf => by cases ht; exact hf) (fun f hf => by cases hf) hap
  rw [← served_frames hs] at hnames
  refine Opts.decode_alike fun f hf => ⟨rfl, fun tk ht hkey => ?_⟩
  have hm := Opts.key_tokens v 0 tk ht hkey
  have hwk := Opts.key_wf v hw _ hm
  obtain ⟨name, h1, h2⟩ := is_keyName (o := o) hwk
  have hkn : ∀ c, keyName { o with disableCaseInsensitiveMatching := c } (inner src tk.index tk.end_) = some name := fun c => h2
  have hff : ∀ c, findField x { o with disableCaseInsensitiveMatching := c } f.fields name = (f.fields.find? fun f => f.1 == name).map Prod.snd := by
    intro c
    simp only [findField]
    split
    · exact Fields.exactSearch_eq _ _
    · rw [Fields.byName_eq]
      cases he : f.fields.find? fun f => f.1 == name with
      | some e => rfl
      | none =>
        rw [List.find?_eq_none] at he
        have : (f.fields.find? fun f => f.1.length == name.length && x.equalFold f.1 name) = none := by
          rw [List.find?_eq_none]
          intro e he' hc
          simp only [Bool.and_eq_true, beq_iff_eq] at hc
          have := hk _ hm name h1 e.1 (hnames f hf e he') hc.1 hc.2
          exact he e he' (by simp [this])
        rw [this]; rfl
  simp only [Opts.pick, Doc.slice_inner hwk, Option.bind_some, hkn, Option.map_some, hff]

/-- The field names of `struct{X int; Y string}`. -/
theorem demo_names {n : Bytes} (h : FieldName demoEnv 4 n) : n = b!"X" ∨ n = b!"Y" := by
  obtain ⟨c, f, q, hr, hu, hk, hf, ht⟩ := h
  have hc : c = 4 ∨ c = 1 ∨ c = 2 := by
    clear hu hk hf ht
    induction hr with
    | self => exact .inl rfl
    | step _ hch ih =>
      rcases ih with rfl | rfl | rfl
      · cases hch with
        | field _ _ hm _ =>
          have hm : _ ∈ [(⟨b!"X", [], 1, 0⟩ : FieldInfo), ⟨b!"Y", [], 2, 8⟩] := hm
          simp only [List.mem_cons, List.not_mem_nil, or_false] at hm
          rcases hm with rfl | rfl
          · exact .inr (.inl rfl)
          · exact .inr (.inr rfl)
        | array _ h => cases h
        | slice _ h => cases h
        | key _ h => cases h
        | value _ h => cases h
        | pointer _ h => cases h
      · cases hch with
        | field _ h => cases h
        | array _ h => cases h
        | slice _ h => cases h
        | key _ h => cases h
        | value _ h => cases h
        | pointer _ h => cases h
      · cases hch with
        | field _ h => cases h
        | array _ h => cases h
        | slice _ h => cases h
        | key _ h => cases h
        | value _ h => cases h
        | pointer _ h => cases h
  rcases hc with rfl | rfl | rfl
  · have hm : f ∈ [(⟨b!"X", [], 1, 0⟩ : FieldInfo), ⟨b!"Y", [], 2, 8⟩] := hf
    simp only [List.mem_cons, List.not_mem_nil, or_false] at hm
    rcases hm with rfl | rfl
    · have := TypeGraph.tag_iff.1 ht; cases this; exact .inl rfl
    · have := TypeGraph.tag_iff.1 ht; cases this; exact .inr rfl
  · cases hk
  · cases hk

/-- `{"X":1,"zz":[2]}` into `struct{X int; Y string}`: neither option matters. -/
example (o : Options) (b c b' c' : Bool) : demoDec 4 |> fun d => decode demoX d b!"{\"X\":1,\"zz\":[2]}" (.ok (demoDoc b!"{\"X\":1,\"zz\":[2]}")) (some (zeros 24)) (some { o with disableFieldNameUnescaping := b, disableCaseInsensitiveMatching := c }) =
    decode demoX d b!"{\"X\":1,\"zz\":[2]}" (.ok (demoDoc b!"{\"X\":1,\"zz\":[2]}")) (some (zeros 24)) (some { o with disableFieldNameUnescaping := b', disableCaseInsensitiveMatching := c' }) := by
  have hw := (demo_doc (src := b!"{\"X\":1,\"zz\":[2]}") (by decide)).2
  have hp : PlainKeys b!"{\"X\":1,\"zz\":[2]}" (demoDoc b!"{\"X\":1,\"zz\":[2]}") := by
    change ∀ k ∈ [(1, 4), (7, 11)], ∀ c ∈ inner b!"{\"X\":1,\"zz\":[2]}" k.1 k.2, c ≠ 92
    decide
  refine (C55_unescaping demoX _ hw hp _ { o with disableCaseInsensitiveMatching := c } b false).trans ?_
  refine Eq.trans ?_ (C55_unescaping demoX _ hw hp _ { o with disableCaseInsensitiveMatching := c' } false b')
  refine C55_case (env := demoEnv) (ty := 4) (d₀ := demoDec 4) (opts := some defaultInitOptions) (depth := 20) rfl .new hw { o with disableFieldNameUnescaping := false } ?_ _ c c'
  intro k hk name hn n hf hl he
  change k ∈ [(1, 4), (7, 11)] at hk
  simp only [List.mem_cons, List.not_mem_nil, or_false] at hk
  have hd : Denotes (inner b!"{\"X\":1,\"zz\":[2]}" k.1 k.2) name := hn
  rcases hk with rfl | rfl
  · have := C09_denotes_unique _ _ _ hd (Proof.Unescape.denotes_plain _ (by decide))
    subst this
    rcases demo_names hf with rfl | rfl
    · rfl
    · exact absurd he (by decide)
  · have := C09_denotes_unique _ _ _ hd (Proof.Unescape.denotes_plain _ (by decide))
    subst this
    rcases demo_names hf with rfl | rfl <;> exact absurd hl (by decide)

end Verif.Props
