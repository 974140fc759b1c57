import Verif.Spec.RecEncode
import Verif.Proof.Encode
import Verif.Proof.RecVal
/-!
# The JSON text of a value of a recursive struct type is within the fragment
-/
namespace Verif.Proof.Encode
open Verif.Model Verif.Big Verif.Spec Verif.Proof Verif.Proof.Outcome Verif.Proof.Json

theorem canF_get {x : Ext} {fmt : FKind → Flt → Bytes} : ∀ {fs : List (Bytes × Nat × Ty)} {Ws : List Val} {j : Nat} {f : Bytes × Nat × Ty} {W : Val}, CanEncodeF x fmt fs Ws → fs[j]? = some f → Ws[j]? = some W →
    CanEncode x fmt f.2.2 W
  | (n, a, t) :: fs, _, 0, f, W, ⟨V, Vs, rfl, h1, h2⟩, hf, hW => by cases hf; cases hW; exact h1
  | _ :: fs, _, j + 1, f, W, ⟨V, Vs, rfl, h1, h2⟩, hf, hW => canF_get h2 (by simpa using hf) (by simpa using hW)

theorem full_mem : ∀ {Vs : List Val}, fullMapsL Vs = true → ∀ V ∈ Vs, fullMaps V = true
  | V :: Vs, h, W, hW => by
    simp only [fullMapsL, Bool.and_eq_true] at h
    rcases List.mem_cons.1 hW with rfl | hW
    · exact h.1
    · exact full_mem h.2 W hW

theorem full_memE : ∀ {es : List (Key × Val)}, fullMapsE es = true → ∀ e ∈ es, fullMaps e.2 = true
  | (k, V) :: Vs, h, W, hW => by
    simp only [fullMapsE, Bool.and_eq_true] at h
    rcases List.mem_cons.1 hW with rfl | hW
    · exact h.1
    · exact full_memE h.2 W hW

/-- What is shown of the text of a value of the type. -/
def GoodR (x : Ext) (src : Bytes) (o : Options) (fs : RFields) (n : Nat) (v : JVal) : Prop :=
  (∃ i ms k, v = .obj i ms k) ∧ ∀ here top, (here = true ∧ top = true) ∨ RecursiveLast fs → TameR x src (some o) fs n here top v

/-- A field. -/
theorem field_written {x : Ext} {fmt : FKind → Flt → Bytes} {src : Bytes} {o : Options} {size : Nat} {fs : RFields} {n : Nat} {e e' : Ty} {rf : RField} (hmem : ∃ f ∈ fs, f.2.2 = rf) (hp : ∀ t, rf = .plain t → t.plain = true)
    (hl : rf ≠ .slice ∨ RecursiveLast fs) (hmap : ∀ k, rf = .map k → ¬ RecursiveLast fs) (hsub : ∀ W, CanEncode x fmt e W → CanEncode x fmt e' W → MapsFull fs W → Written src (encode fmt e' W) (GoodR x src o fs n))
    {W : Val} (h : CanEncode x fmt (rf.ty e) W) (h' : CanEncode x fmt (rf.ty e') W) (hf : MapsFull fs W) (hn : NamesOK o (rf.ty e')) :
    Written src (encode fmt (rf.ty e') W) fun v => ∀ here top, (here = true ∧ top = true) ∨ RecursiveLast fs → TameField x src (some o) (TameR x src (some o) fs n) here top rf v := by
  cases rf with
  | plain t => exact written_mono (written t W h' hn) fun v hv here top _ => hv.2.1 (hp t rfl)
  | ptr =>
    rcases h with rfl | ⟨V, rfl, h1, h2⟩
    · exact written_null fun i e here top _ => by rintro _ _ _ ⟨⟩
    · rcases h' with h' | ⟨V', h3, h4, h5⟩
      · cases h'
      cases h3
      refine written_mono (hsub V h2 h5 hf) fun v hv here top ha i ms k hvo => hv.2 true top ?_
      exact ha.imp (fun h => ⟨rfl, h.2⟩) id
  | slice =>
    have hl := hl.resolve_left (fun h => h rfl)
    rcases h with rfl | ⟨Ws, rfl, h1⟩
    · exact written_null fun i e here top _ => by rintro _ _ _ ⟨⟩
    · rcases h' with h' | ⟨Ws', h3, h4⟩
      · cases h'
      cases h3
      have hz : ∀ V ∈ Ws, MapsFull fs V := fun V hV => hf.imp id fun hf => full_mem (show fullMapsL Ws = true from hf) V hV
      refine written_arr (P := fun W v => GoodR x src o fs n v) (fun V hV => hsub V (h1 V hV) (h4 V hV) (hz V hV)) fun i vs k hlen hv here top ha => ?_
      rintro _ _ _ ⟨⟩ j w hj
      have hlt := (List.getElem?_eq_some_iff.1 hj).1
      have hW : Ws[j]? = some (Ws[j]'(by omega)) := by simp
      obtain ⟨⟨a, b, c, rfl⟩, h2⟩ := hv j w _ hj hW
      exact ⟨(fun ⟨_, _, h⟩ => by cases h), h2 _ _ (.inr hl)⟩
  | map k =>
    rcases h with rfl | ⟨es, rfl, h0, h1⟩
    · exact written_null fun i e here top _ => by rintro _ _ _ ⟨⟩
    · rcases h' with h' | ⟨Ws', h3, h4, h5⟩
      · cases h'
      cases h3
      have hf := hf.resolve_left fun h => by obtain ⟨f, hm, hfk⟩ := hmem; exact h f hm k hfk
      simp only [fullMaps, Bool.and_eq_true, Bool.not_eq_true', List.isEmpty_eq_false_iff] at hf
      have hz : ∀ a ∈ es, MapsFull fs a.2 := fun a ha => .inr (full_memE hf.2 a ha)
      refine written_obj (f := fun a => (encodeKey a.1, encode fmt e' a.2)) (P := fun a v => GoodR x src o fs n v)
        (fun a ha => ⟨(key_written (h1 a ha).1).1, hsub a.2 (h1 a ha).2 (h5 a ha).2 (hz a ha)⟩) ?_
      intro i ms z hlen hv here top ha
      have ha := ha.resolve_right (hmap k rfl)
      have hne : ms ≠ [] := by rintro rfl; exact hf.1 (List.length_eq_zero_iff.1 hlen.symm)
      rintro _ _ _ ⟨⟩
      refine ⟨ha.1, ha.2, ?_, hne, fun m hm => ?_⟩
      · rintro rfl
        obtain ⟨a, ha⟩ := List.exists_mem_of_ne_nil _ hf.1
        exact (h1 a ha).1.elim
      · obtain ⟨j, hj⟩ := List.getElem?_of_mem hm
        have hlt := (List.getElem?_eq_some_iff.1 hj).1
        have hW : es[j]? = some (es[j]'(by omega)) := by simp
        obtain ⟨-, ⟨a, b, c, hob⟩, h2⟩ := hv j m _ hj hW
        exact ⟨(fun ⟨_, _, h⟩ => by rw [hob] at h; cases h), h2 _ _ (.inl ⟨rfl, rfl⟩)⟩

theorem enters_rec {rf : RField} {v : JVal} (h : enters rf v) : RField.recursive rf = true := by
  cases rf with
  | plain t => cases v <;> exact h.elim
  | _ => rfl

theorem names_unroll {o : Options} {size : Nat} {fs : RFields} (h : NamesOKR o fs) : ∀ n, NamesOK o (unroll size fs n)
  | 0 => trivial
  | n + 1 => by
    refine ⟨by rw [Val.tyF_names]; exact h.1, ?_⟩
    have ih := names_unroll (size := size) h n
    replace h := h.2
    show NamesOKF o (tyF (unroll size fs n) fs)
    generalize unroll size fs n = e at ih
    clear n
    induction fs with
    | nil => trivial
    | cons f fs IH =>
      have hf := h f List.mem_cons_self
      refine ⟨hf.1, ?_, IH fun g hg => h g (List.mem_cons_of_mem _ hg)⟩
      obtain ⟨name, off, rf⟩ := f
      cases rf with
      | plain t => exact hf.2 t rfl
      | ptr => exact ih
      | slice => exact ih
      | map k => exact ih

theorem rec_written {x : Ext} {fmt : FKind → Flt → Bytes} {src : Bytes} {o : Options} {size : Nat} {fs : RFields} (hne : fs ≠ []) (hr : RoundR fs) (hno : NamesOKR o fs) : ∀ (n : Nat) (V : Val), CanEncode x fmt (unroll size fs n) V →
    CanEncode x fmt (unroll size fs (n + 1)) V → MapsFull fs V → Written src (encode fmt (unroll size fs (n + 1)) V) (GoodR x src o fs n)
  | 0, V, h, h', _ => by
    cases (h : V = .struct [])
    obtain ⟨Ws, hW, h'⟩ := h'
    cases hW
    have := (encodeF_eq h').2
    simp only [tyF, List.length_map, List.length_nil] at this
    exact (hne (List.length_eq_zero_iff.1 this.symm)).elim
  | n + 1, V, h, h', hf => by
    have ho := names_unroll (size := size) hno (n + 2)
    obtain ⟨Ws, rfl, h⟩ := h
    obtain ⟨Ws', hW', h'⟩ := h'
    cases hW'
    obtain ⟨he, hlen⟩ := encodeF_eq h'
    have hlen' : Ws.length = fs.length := by rw [hlen]; simp [tyF]
    show Written src (braces (encodeF fmt (tyF (unroll size fs (n + 1)) fs) Ws)) _
    have hzip : ((tyF (unroll size fs (n + 1)) fs).zip Ws).map (fun p => (escape p.1.1, encode fmt p.1.2.2 p.2)) =
        (fs.zip Ws).map fun p => (escape p.1.1, encode fmt (p.1.2.2.ty (unroll size fs (n + 1))) p.2) := by
      rw [tyF, List.zip_map_left, List.map_map]; rfl
    rw [he, hzip]
    refine written_obj (l := fs.zip Ws) (f := fun p => (escape p.1.1, encode fmt (p.1.2.2.ty (unroll size fs (n + 1))) p.2))
      (P := fun p v => ∀ here top, (here = true ∧ top = true) ∨ RecursiveLast fs → TameField x src (some o) (TameR x src (some o) fs n) here top p.1.2.2 v)
      (Q := GoodR x src o fs (n + 1)) (fun p hp => ⟨content_escape _, ?_⟩) fun i ms k hl hv => ⟨⟨i, ms, k, rfl⟩, fun here top ha => ?_⟩
    · obtain ⟨j, hj⟩ := List.getElem?_of_mem hp
      obtain ⟨h1, h2⟩ := List.getElem?_zip_eq_some.1 hj
      have hmem := List.mem_of_getElem? h1
      have g : ∀ e, (tyF e fs)[j]? = some (p.1.1, p.1.2.1, p.1.2.2.ty e) := fun e => by rw [Val.tyF_get, h1]; rfl
      refine field_written (size := size) ⟨p.1, hmem, rfl⟩ (fun t ht => hr.1 p.1 hmem t ht) (hr.2.imp (fun h => h p.1 hmem) id) (fun k hk hrl => ?_) (rec_written hne hr hno n)
        (canF_get h (g _) h2) (canF_get h' (g _) h2) (hf.imp id fun hf => full_mem (show fullMapsL Ws = true from hf) _ (List.mem_of_getElem? h2)) (namesF_get ho.2 (g _)).2
      exact (hrl j p.1 h1 (by rw [hk]; rfl)).2 k hk
    · have hlz : (fs.zip Ws).length = fs.length := by simp [hlen']
      rintro _ _ _ ⟨⟩ a m ha' o' ho' raw name hraw hkn
      cases ho'
      have hlt := (List.getElem?_eq_some_iff.1 ha').1
      have hf' : fs[a]? = some (fs[a]'(by omega)) := by simp
      have hW : Ws[a]? = some (Ws[a]'(by omega)) := by simp
      have hp : (fs.zip Ws)[a]? = some (fs[a]'(by omega), Ws[a]'(by omega)) := by rw [List.getElem?_zip_eq_some]; exact ⟨hf', hW⟩
      obtain ⟨h1, h2⟩ := hv a m _ ha' hp
      have g : (tyF (unroll size fs (n + 1)) fs)[a]? = some ((fs[a]'(by omega)).1, (fs[a]'(by omega)).2.1, (fs[a]'(by omega)).2.2.ty (unroll size fs (n + 1))) := by rw [Val.tyF_get, hf']; rfl
      obtain ⟨nm, hk, hs⟩ := field_selects (x := x) (src := src) ho.1 g (namesF_get ho.2 g).1 h1
      have hraw' : raw = inner src m.1.1 m.1.2 := by
        unfold Model.slice at hraw
        split at hraw
        · cases hraw; rfl
        · cases hraw
      subst hraw'
      have := keyName_is hk
      rw [hkn] at this; cases this
      rw [Val.tyF_names] at hs
      rw [selects_iff.2 hs]
      intro f hf
      rw [hf'] at hf; cases hf
      refine ⟨h2 here top ha, fun hh he => ?_⟩
      have hrl := ha.resolve_left fun h => by rw [hh] at h; cases h.1
      rw [hl, hlz]
      exact (hrl a _ hf' (enters_rec he)).1

/-- The document of a value of the type. -/
theorem rec_doc {x : Ext} {fmt : FKind → Flt → Bytes} {o : Options} {size : Nat} {fs : RFields} (hne : fs ≠ []) (hr : RoundR fs) (hno : NamesOKR o fs) {n : Nat} {V : Val} (h : CanEncodeR x fmt size fs n V)
    (hf : MapsFull fs V) : ∃ v, IsDoc (encode fmt (unroll size fs (n + 1)) V) v ∧ Means x (encode fmt (unroll size fs (n + 1)) V) o (unroll size fs (n + 1)) v V ∧
      noNegZero (encode fmt (unroll size fs (n + 1)) V) v ∧ TameR x (encode fmt (unroll size fs (n + 1)) V) (some o) fs n true true v := by
  obtain ⟨v, h1, h2, -, -, h3⟩ := encode_doc (o := o) (h (n + 1) (Nat.le_succ n)) (names_unroll hno _)
  obtain ⟨v', g1, -, g2⟩ := rec_written (src := encode fmt (unroll size fs (n + 1)) V) (o := o) hne hr hno n V (h n (Nat.le_refl n)) (h (n + 1) (Nat.le_succ n)) hf [] [] (by simp)
  cases Json.doc_unique h1 (padded_of g1)
  exact ⟨v, h1, h2, h3, g2 true true (.inl ⟨rfl, rfl⟩)⟩

end Verif.Proof.Encode
