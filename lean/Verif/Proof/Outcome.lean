import Verif.Props.Decode
import Verif.Props.Fields
import Verif.Proof.Safe
import Verif.Spec.Keys
/-!
# From the reading of a document to the outcome of `Decode`
-/
namespace Verif.Proof.Outcome
open Verif.Model Verif.Spec Verif.Big Verif.Proof Verif.Props

theorem returns_ok {x : Ext} {ty : Ty} {d : Decoder} (hd : DecoderFor x ty d) {src : Bytes} {v : JVal} {mem : Block} {V V' : Val} (hm : Dest x ty mem V)
    {o : Option Options} (ht : TameDoc x src o ty v) (h : decTopV x src o ty v V = .ok V') :
    Returns x ty (decode x d src (.ok v) (some mem) o) (-1) none V' := by
  have := C25_reading_partial hd hm ht
  rwa [h] at this

theorem returns_err {x : Ext} {ty : Ty} {d : Decoder} (hd : DecoderFor x ty d) {src : Bytes} {v : JVal} {mem : Block} {V V' : Val} (hm : Dest x ty mem V)
    {o : Option Options} (ht : TameDoc x src o ty v) {i : Nat} {e : Err} (h : decTopV x src o ty v V = .err i e V') :
    Returns x ty (decode x d src (.ok v) (some mem) o) i (some e) V' := by
  have := C25_reading_partial hd hm ht
  rwa [h] at this

/-- A successful call comes from a successful reading. -/
theorem ok_inv {x : Ext} {ty : Ty} {d : Decoder} (hd : DecoderFor x ty d) {src : Bytes} {v : JVal} {mem : Block} {V : Val} (hm : Dest x ty mem V)
    {o : Option Options} (ht : TameDoc x src o ty v) {r : DecodeRes} (hr : decode x d src (.ok v) (some mem) o = some r) (he : r.err = none) :
    ∃ V' mem', decTopV x src o ty v V = .ok V' ∧ r.errIndex = -1 ∧ r.mem = some mem' ∧ Dest x ty mem' V' := by
  have := C25_reading_partial hd hm ht
  cases hv : decTopV x src o ty v V with
  | ok V' =>
    rw [hv] at this
    obtain ⟨r', m, h1, h2, h3, h4, h5⟩ := this
    rw [hr] at h1; cases h1
    exact ⟨V', m, rfl, h2, h4, h5⟩
  | err i e V' =>
    rw [hv] at this
    obtain ⟨r', m, h1, h2, h3, h4, h5⟩ := this
    rw [hr] at h1; cases h1
    rw [he] at h3; cases h3
  | crash => rw [hv] at this; rw [hr] at this; cases this
  | unsup => rw [hv] at this; exact this.elim

/-- A failing call comes from a failing reading. -/
theorem err_inv {x : Ext} {ty : Ty} {d : Decoder} (hd : DecoderFor x ty d) {src : Bytes} {v : JVal} {mem : Block} {V : Val} (hm : Dest x ty mem V)
    {o : Option Options} (ht : TameDoc x src o ty v) {r : DecodeRes} (hr : decode x d src (.ok v) (some mem) o = some r) {e : Err} (he : r.err = some e) :
    ∃ i V' mem', decTopV x src o ty v V = .err i e V' ∧ r.errIndex = (i : Nat) ∧ r.mem = some mem' ∧ Dest x ty mem' V' := by
  have := C25_reading_partial hd hm ht
  cases hv : decTopV x src o ty v V with
  | ok V' =>
    rw [hv] at this
    obtain ⟨r', m, h1, h2, h3, h4, h5⟩ := this
    rw [hr] at h1; cases h1
    rw [he] at h3; cases h3
  | err i e' V' =>
    rw [hv] at this
    obtain ⟨r', m, h1, h2, h3, h4, h5⟩ := this
    rw [hr] at h1; cases h1
    rw [he] at h3; cases h3
    exact ⟨i, V', m, rfl, h2, h4, h5⟩
  | crash => rw [hv] at this; rw [hr] at this; cases this
  | unsup => rw [hv] at this; exact this.elim

/-- Inside a destination a value is read as at the top, unless the document leaves the fragment there. -/
theorem top_eq {x : Ext} {src : Bytes} {o : Option Options} {ty : Ty} {v : JVal} (V : Val) (h : Tame x src o ty v) : decTopV x src o ty v V = decV x src o ty v V := by
  cases ty <;> first | rfl | skip
  · cases v <;> simp_all [Tame, decTopV]
  · cases v <;> simp_all [Tame, decTopV, decV]

theorem tameDoc_of {x : Ext} {src : Bytes} {o : Option Options} {ty : Ty} {v : JVal} (h : Tame x src o ty v) : TameDoc x src o ty v := by
  cases ty <;> first | exact h | trivial | skip
  cases v <;> simp_all [Tame, TameDoc]

/-! ## Keys -/

theorem keyName_is {o : Options} {raw name : Bytes} (h : KeyIs o raw name) : keyName o raw = some name := by
  unfold KeyIs at h
  unfold keyName
  split
  · rename_i ho; rw [if_pos ho] at h; rw [h]
  · rename_i ho; rw [if_neg ho] at h; exact Props.C09_unescape _ _ h

theorem is_keyName {src : Bytes} {o : Options} {i e : Nat} (hw : WfStr src i e) : ∃ name, KeyIs o (inner src i e) name ∧ keyName o (inner src i e) = some name := by
  by_cases ho : o.disableFieldNameUnescaping = true
  · exact ⟨inner src i e, by simp [KeyIs, ho], by simp [keyName, ho]⟩
  · obtain ⟨out, h⟩ := hw.2.2
    refine ⟨out, by simp [KeyIs, ho, h], ?_⟩
    simp [keyName, ho, Props.C09_unescape _ _ h]

theorem keyIs_unique {o : Options} {raw a b : Bytes} (h : KeyIs o raw a) (h' : KeyIs o raw b) : a = b := by
  have h := keyName_is h
  rw [keyName_is h'] at h
  cases h; rfl

theorem selects_iff {x : Ext} {o : Options} {names : List Bytes} {name : Bytes} {j : Nat} : findField x o names.zipIdx name = some j ↔ SelectsField x o names name j := by
  unfold SelectsField
  split
  · rename_i h; exact (C15_exact_matching x o h _ _).1 j
  · rename_i h; exact (C14_default_matching x o (by simpa using h) _ _).1 j

theorem unknown_iff {x : Ext} {o : Options} {names : List Bytes} {name : Bytes} : findField x o names.zipIdx name = none ↔ ∀ j, ¬ SelectsField x o names name j := by
  constructor
  · intro h j hj
    rw [selects_iff.2 hj] at h; cases h
  · intro h
    cases hf : findField x o names.zipIdx name with
    | none => rfl
    | some j => exact absurd (selects_iff.1 hf) (h j)

/-- What the decoder does with a key that selects a field. -/
theorem key_selects {x : Ext} {src : Bytes} {o : Options} {names : List Bytes} {k : Nat × Nat} {j : Nat} (hw : WfStr src k.1 k.2) (h : KeySelects x src o names k j) :
    ∃ name, (Model.slice src (k.1 + 1) (k.2 - 1)).bind (keyName o) = some name ∧ findField x o names.zipIdx name = some j := by
  obtain ⟨name, h1, h2⟩ := h
  exact ⟨name, by rw [Doc.slice_inner hw]; exact keyName_is h1, selects_iff.2 h2⟩

theorem key_unknown {x : Ext} {src : Bytes} {o : Options} {names : List Bytes} {k : Nat × Nat} (hw : WfStr src k.1 k.2) (h : KeyUnknown x src o names k) :
    ∃ name, (Model.slice src (k.1 + 1) (k.2 - 1)).bind (keyName o) = some name ∧ findField x o names.zipIdx name = none := by
  obtain ⟨name, h1, h2⟩ := h
  exact ⟨name, by rw [Doc.slice_inner hw]; exact keyName_is h1, unknown_iff.2 h2⟩

/-- Every key selects a field or is unknown. -/
theorem key_cases {src : Bytes} (x : Ext) (o : Options) (names : List Bytes) {k : Nat × Nat} (hw : WfStr src k.1 k.2) :
    (∃ j, KeySelects x src o names k j) ∨ KeyUnknown x src o names k := by
  obtain ⟨name, h1, -⟩ := is_keyName (o := o) hw
  by_cases h : ∃ j, SelectsField x o names name j
  · obtain ⟨j, hj⟩ := h
    exact .inl ⟨j, name, h1, hj⟩
  · exact .inr ⟨name, h1, fun j hj => h ⟨j, hj⟩⟩

/-! ## An object with one member into a struct -/

theorem one_ok {x : Ext} {src : Bytes} {o : Options} {n : Nat} {fs : List (Bytes × Nat × Ty)} {a z : Nat} {k : Nat × Nat} {v : JVal} {Ws : List Val} {j : Nat} {f : Bytes × Nat × Ty} {W : Val}
    (hw : WfStr src k.1 k.2) (hs : KeySelects x src o (fs.map (·.1)) k j) (hf : fs[j]? = some f) (hW : Ws[j]? = some W) :
    decV x src (some o) (.struct n fs) (.obj a [(k, v)] z) (.struct Ws) =
      match decV x src (some o) f.2.2 v W with
      | .ok W' => .ok (.struct (Ws.set j W'))
      | .err i e W' => .err i e (.struct (Ws.set j W'))
      | .crash => .crash
      | .unsup => .unsup := by
  obtain ⟨name, h1, h2⟩ := key_selects hw hs
  have hg : (decVF x src (some o) fs)[j]? = some (f.1, decV x src (some o) f.2.2) := by
    rw [Val.decVF_get, hf]; rfl
  simp only [decV, structV, h1, Val.decVF_names, h2, hg, hW, if_neg (List.cons_ne_nil _ _)]
  cases decV x src (some o) f.2.2 v W <;> simp [structV, R.map]

end Verif.Proof.Outcome
