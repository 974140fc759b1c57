import Verif.Proof.KeptAddr
import Verif.Proof.Cover
/-!
# What is written at an address is a value of its type
-/
namespace Verif.Proof.Kept
open Verif.Model Verif.Spec Verif.Big Verif.Proof Verif.Proof.Val
open Verif.Proof.Cover (esize esize_le)
open Verif.Proof.Sim (recurType)

/-- A value of the type may start with this cell. -/
def CellFits (x : Ext) (ty : Ty) (c : Cell) : Prop := ∀ blk off, off + ty.size x ≤ blk.length → blk[off]? = some c → ∃ W, Holds x ty blk off W

/-- Cells of scalar types. -/
def CellFor : EType → Cell → Prop
  | .any, c => ∃ a, c = .any a
  | .number, c => ∃ s, c = .str s
  | .scalar k, c | .quoted k, c => ∃ W, HoldsS k (some c) W
  | _, _ => False

variable {x : Ext}

theorem cellFor_fits {ty : Ty} {c : Cell} (h : CellFor ty.etype c) : CellFits x ty c := by
  intro blk off hl hc
  cases ty <;> simp only [Ty.etype, CellFor] at h <;> try exact h.elim
  case any => obtain ⟨a, rfl⟩ := h; exact ⟨.any a, by simp only [Holds]; exact ⟨hl, .inr ⟨a, hc, rfl⟩⟩⟩
  case number => obtain ⟨s, rfl⟩ := h; exact ⟨.str s, by simp only [Holds]; exact ⟨hl, .inr ⟨s, hc, rfl⟩⟩⟩
  case scalar k => obtain ⟨W, h⟩ := h; exact ⟨W, by simp only [Holds]; exact ⟨hl, by rw [hc]; exact h⟩⟩
  case quoted k => obtain ⟨W, h⟩ := h; exact ⟨W, by simp only [Holds]; exact ⟨hl, by rw [hc]; exact h⟩⟩

theorem zero_fits {ty : Ty} (h1 : ty.etype ≠ .struct) (h2 : ty.etype ≠ .array) : CellFits x ty .zero := by
  intro blk off hl hc
  cases ty
  case struct => exact absurd rfl h1
  case array => exact absurd rfl h2
  case jsonU a b c => exact ⟨_, hl, rfl⟩
  case textU a b c => exact ⟨_, hl, rfl⟩
  case array0 => exact ⟨_, by simpa [Ty.size] using hl, rfl⟩
  case emptyStruct => exact ⟨_, by simpa [Ty.size] using hl, rfl⟩
  all_goals
    exact ⟨_, hl, .inl ⟨hc, rfl⟩⟩

/-- A type with methods accepts every content. -/
theorem user_fits {ty : Ty} (h : ty.etype = .jsonUnmarshaler ∨ ty.etype = .textUnmarshaler) (c : Cell) : CellFits x ty c := by
  intro blk off hl hc
  cases ty <;> simp [Ty.etype] at h
  · exact ⟨_, hl, rfl⟩
  · exact ⟨_, hl, rfl⟩

theorem fit_cell {ty : Ty} {a : Addr} {b : Block} (h : ∀ c, b[0]? = some c → CellFits x ty c) {blk blk' : Block} {W : Val} (hW : Holds x ty blk a.off W) (hb : blit blk a.off b = some blk') : ∃ W', Holds x ty blk' a.off W' := by
  have hl := holds_len hW
  have hl' := Mem.blit_length hb
  cases b with
  | nil =>
    have : blk' = blk := by
      unfold blit at hb
      split at hb <;> cases hb
      simp
    subst this; exact ⟨W, hW⟩
  | cons c b =>
    refine h c rfl blk' a.off (by omega) ?_
    have := Mem.blit_get_in hb (i := a.off) (Nat.le_refl _) (by simp)
    rw [this]; simp

/-! ## Slices -/

theorem mk_slice {esz n c : Nat} {P : Block → Nat → Val → Prop} {a : Block} (hlen : a.length = c * esz) (hn : n ≤ c) (h : ∀ i, i < c → ∃ W, P a (i * esz) W) : ∃ V, HoldsSlice esz P (some (.slice n c a)) V := by
  have : ∃ Ws : List Val, Ws.length = c ∧ ∀ (i : Nat) (W : Val), Ws[i]? = some W → P a (i * esz) W := by
    refine ⟨List.ofFn (fun i : Fin c => Classical.choose (h i i.2)), by simp, fun i W hi => ?_⟩
    rw [List.getElem?_ofFn] at hi
    split at hi
    · rename_i hic
      cases hi
      exact Classical.choose_spec (h i hic)
    · cases hi
  obtain ⟨Ws, h1, h2⟩ := this
  refine ⟨.slice (Ws.take n) (Ws.drop n), .inr ⟨a, Ws.take n, Ws.drop n, ?_, rfl, ?_, ?_⟩⟩
  · rw [List.take_append_drop, List.length_take, h1, Nat.min_eq_left hn]
  · rw [List.take_append_drop, h1]; exact hlen
  · rw [List.take_append_drop]; exact h2

/-- An array of scalars. -/
def KArr (x : Ext) (k : SKind) (a : Block) : Prop := ∀ i, i * k.bytes x + k.bytes x ≤ a.length → ∃ W, HoldsS k a[i * k.bytes x]? W

theorem karr_zeros (k : SKind) (n : Nat) : KArr x k (zeros n) := by
  intro i hi
  have := bytes_pos x k
  rw [Mem.zeros_length] at hi
  exact ⟨zeroS k, .inl ⟨zeros_get (by omega), rfl⟩⟩

theorem karr_take {k : SKind} {a : Block} (h : KArr x k a) (n : Nat) : KArr x k (a.take n) := by
  intro i hi
  have := bytes_pos x k
  rw [List.length_take] at hi
  rw [List.getElem?_take, if_pos (by omega)]
  exact h i (by omega)

theorem karr_join {k : SKind} {a arr : Block} (h : KArr x k a) (h' : KArr x k arr) {n : Nat} (hl : arr.length = n * k.bytes x) : KArr x k (arr ++ a.drop (n * k.bytes x)) := by
  intro i hi
  have hp := bytes_pos x k
  rw [List.length_append, List.length_drop] at hi
  by_cases hin : i < n
  · have := mul_step (e := k.bytes x) hin
    rw [List.getElem?_append_left (by omega)]
    exact h' i (by omega)
  · have := Nat.mul_le_mul_right (k.bytes x) (Nat.le_of_not_lt hin)
    rw [List.getElem?_append_right (by omega), List.getElem?_drop, hl, show n * k.bytes x + (i * k.bytes x - n * k.bytes x) = i * k.bytes x by omega]
    exact h i (by omega)

theorem karr_blit {k : SKind} {a a' b : Block} {i : Nat} {c : Cell} {W : Val} (h : KArr x k a) (hb : blit a (i * k.bytes x) b = some a') (hl : b.length = k.bytes x) (hc : b[0]? = some c) (hW : HoldsS k (some c) W) : KArr x k a' := by
  intro j hj
  have hp := bytes_pos x k
  have hla := Mem.blit_length hb
  by_cases hij : i = j
  · subst hij
    rw [Mem.blit_get_in hb (Nat.le_refl _) (by omega), Nat.sub_self, hc]
    exact ⟨W, hW⟩
  · obtain ⟨W', hW'⟩ := h j (by omega)
    refine ⟨W', ?_⟩
    rcases mul_apart (e := k.bytes x) hij with h1 | h1
    · rw [Mem.blit_get_ge hb (by omega)]; exact hW'
    · rw [Mem.blit_get_lt hb (by omega)]; exact hW'

/-- The action stores a scalar of the kind. -/
def ActK (x : Ext) (k : SKind) : Act → Prop
  | .store n c => n = k.bytes x ∧ ∃ W, HoldsS k (some c) W
  | .clear n => n = k.bytes x
  | _ => True

theorem storeInt_k (k : IKind) (tv : Bytes) (e : Err) : ActK x (.int k) (storeInt x k tv e) := by
  unfold storeInt
  split
  · trivial
  · trivial
  · exact ⟨rfl, _, .inr ⟨_, rfl, rfl⟩⟩

theorem storeFlt_k (k : FKind) (r : Except Nat Flt) : ActK x (.flt k) (storeFlt ((SKind.flt k).bytes x) r) := by
  cases r
  · trivial
  · exact ⟨rfl, _, .inr ⟨_, rfl, rfl⟩⟩

theorem onInteger_k (k : IKind) (tv : Bytes) : ActK x (.int k) (onInteger x (.scalar (.int k)) tv) := by
  simp only [onInteger]
  split
  · split
    · trivial
    · split
      · trivial
      · exact storeInt_k _ _ _
  · exact storeInt_k _ _ _

theorem elemOf_k (src : Bytes) (k : SKind) (t : Token) : ActK x k (elemOf x src k t) := by
  unfold elemOf
  split
  · rfl
  · split
    · exact ⟨rfl, _, .inr ⟨_, rfl, rfl⟩⟩
    · trivial
  · split
    · exact ⟨rfl, _, .inr ⟨_, rfl, rfl⟩⟩
    · trivial
  · split
    · split
      · trivial
      · exact ⟨rfl, _, .inr ⟨_, rfl, rfl⟩⟩
    · trivial
  · split
    · split
      · trivial
      · exact onInteger_k _ _
    · split
      · trivial
      · exact storeFlt_k _ _
    · trivial
  · split
    · split
      · trivial
      · exact storeFlt_k _ _
    · trivial
  · trivial

theorem sliceElems_k (src : Bytes) (k : SKind) : ∀ (ts : List Token) (i : Nat) (arr : Block), KArr x k arr →
    match sliceElems x src k ts i arr with
    | .ok arr' | .err _ _ arr' => KArr x k arr' ∧ arr'.length = arr.length
    | .crash => True
  | [], i, arr, h => ⟨h, rfl⟩
  | t :: ts, i, arr, h => by
    have hp := bytes_pos x k
    have ha := elemOf_k (x := x) src k t
    simp only [sliceElems]
    cases hE : elemOf x src k t with
    | store n c =>
      rw [hE] at ha
      obtain ⟨hn, W, hW⟩ := ha
      simp only []
      cases hb : blit arr (i * k.bytes x) (seg n c) with
      | none => trivial
      | some arr1 =>
        simp only []
        have := sliceElems_k src k ts (i + 1) arr1 (karr_blit h hb (by rw [Mem.seg_length, hn]) (Mem.seg_head n c (by omega)) hW)
        rw [Mem.blit_length hb] at this
        exact this
    | clear n =>
      rw [hE] at ha
      have hn : n = k.bytes x := ha
      simp only []
      cases hb : blit arr (i * k.bytes x) (zeros n) with
      | none => trivial
      | some arr1 =>
        simp only []
        have := sliceElems_k src k ts (i + 1) arr1 (karr_blit (c := .zero) h hb (by rw [Mem.zeros_length, hn]) (zeros_get (by omega)) (.inl ⟨rfl, rfl⟩))
        rw [Mem.blit_length hb] at this
        exact this
    | err e => exact ⟨h, rfl⟩
    | nop | text _ | toPtr | toJSON | crash => trivial

/-- A slice cell over an array of scalars. -/
theorem karr_fits {k : SKind} {a : Block} {n c : Nat} (h : KArr x k a) (hl : a.length = c * k.bytes x) (hn : n ≤ c) : CellFits x (.sliceOf k) (.slice n c a) := by
  intro blk off hlen hc
  obtain ⟨V, hV⟩ := mk_slice (P := fun b off V => off + k.bytes x ≤ b.length ∧ HoldsS k b[off]? V) hl hn (fun i hi => by
    have hs := mul_step (e := k.bytes x) hi
    obtain ⟨W, hW⟩ := h i (by omega)
    exact ⟨W, by omega, hW⟩)
  refine ⟨V, ?_⟩
  simp only [Holds]
  rw [hc]
  exact ⟨hlen, hV⟩

theorem empty_fits {e : Ty} : CellFits x (.slice e) (.slice 0 0 []) := by
  intro blk off hlen hc
  refine ⟨.slice [] [], ?_⟩
  simp only [Holds]
  exact ⟨hlen, .inr ⟨[], [], [], hc, rfl, by simp, fun i W hi => by simp at hi⟩⟩

theorem emptyStructs_fits (n : Nat) : CellFits x .sliceES (.slice n n []) := by
  intro blk off hlen hc
  obtain ⟨V, hV⟩ := mk_slice (esz := 0) (n := n) (c := n) (a := []) (P := fun _ _ V => V = .struct []) (by simp) (Nat.le_refl _) (fun i _ => ⟨_, rfl⟩)
  refine ⟨V, ?_⟩
  simp only [Holds]
  rw [hc]
  exact ⟨hlen, hV⟩

/-! ## Maps -/

/-- The entries of a `map[string]string`. -/
def Entries (x : Ext) (es : List (Key × Block)) : Prop :=
  ∃ Vs, HoldsEntries (2 * x.W) (fun b off V => off + 2 * x.W ≤ b.length ∧ HoldsS .str b[off]? V) es Vs

theorem assign_entries {es : List (Key × Block)} (h : Entries x es) {k : Key} {b : Block} (hl : b.length = 2 * x.W) {c : Cell} {W : Val} (hc : b[0]? = some c) (hW : HoldsS .str (some c) W) :
    Entries x (mapSSLoop.mapAssign k b es) := by
  obtain ⟨Vs, h⟩ := h
  unfold mapSSLoop.mapAssign
  split
  · rename_i h1
    exact ⟨_, entries_put hl ⟨by omega, by rw [hc]; exact hW⟩ h (by rw [h1]; simp)⟩
  · rename_i h1
    exact ⟨_, entries_add hl ⟨by omega, by rw [hc]; exact hW⟩ h h1⟩

theorem mapSS_entries (src : Bytes) : ∀ (ts : List Token) (es es' : List (Key × Block)), Entries x es → mapSSLoop x src x.W ts es = some (.ok es') → Entries x es'
  | [], es, es', h, he => by simp only [mapSSLoop] at he; cases he; exact h
  | [_], es, es', h, he => by simp only [mapSSLoop] at he; cases he
  | k :: v :: ts, es, es', h, he => by
    have hp := W_pos x
    simp only [mapSSLoop] at he
    split at he
    · split at he
      · exact mapSS_entries src ts _ es' (assign_entries h (Mem.seg_length _ _) (Mem.seg_head _ _ (by omega)) (.inr ⟨_, rfl, rfl⟩)) he
      · cases he
    · split at he
      · exact mapSS_entries src ts _ es' (assign_entries h (Mem.zeros_length _) (zeros_get (by omega)) (.inl ⟨rfl, rfl⟩)) he
      · cases he
    · cases he

theorem mapSS_fits {es : List (Key × Block)} (h : Entries x es) : CellFits x .mapSS (.map es) := by
  intro blk off hlen hc
  obtain ⟨Vs, h⟩ := h
  refine ⟨.map Vs, ?_⟩
  simp only [Holds]
  exact ⟨hlen, .inr ⟨es, Vs, hc, rfl, h⟩⟩

theorem map_fits {kt : KeyTy} {e : Ty} {es : List (Key × Block)} {Vs : List (Key × Val)} (h : HoldsEntries (e.size x) (Holds x e) es Vs) : CellFits x (.map kt e) (.map es) := by
  intro blk off hlen hc
  refine ⟨.map Vs, ?_⟩
  simp only [Holds]
  exact ⟨hlen, .inr ⟨es, Vs, hc, rfl, h⟩⟩

theorem ptr_fits {e : Ty} (hok : OK x e) : CellFits x (.ptr e) (.ptr (zeros (e.size x))) := by
  intro blk off hlen hc
  refine ⟨.ptr (zeroV x e), ?_⟩
  simp only [Holds]
  exact ⟨hlen, .inr ⟨_, _, hc, rfl, Mem.zeros_length _, holds_zeros e hok (by omega)⟩⟩

/-! ## Actions -/

/-- The action stores a value of the type. -/
def ActFit (x : Ext) (et : EType) : Act → Prop
  | .store n c => n ≤ esize x et ∧ CellFor et c
  | .clear n => n ≤ esize x et ∧ et ≠ .struct ∧ et ≠ .array
  | .text _ => et = .textUnmarshaler
  | .toPtr => et = .ptr
  | .toJSON => et = .jsonUnmarshaler
  | _ => True

theorem actK_fit {k : SKind} {a : Act} (h : ActK x k a) (hs : ∀ b, a ≠ .text b) (h1 : a ≠ .toPtr) (h2 : a ≠ .toJSON) (q : Bool) : ActFit x (if q then .quoted k else .scalar k) a := by
  cases a with
  | store n c => obtain ⟨rfl, h⟩ := h; cases q <;> exact ⟨Nat.le_refl _, h⟩
  | clear n => have h : n = k.bytes x := h; subst h; cases q <;> exact ⟨Nat.le_refl _, by simp, by simp⟩
  | text b => exact absurd rfl (hs b)
  | toPtr => exact absurd rfl h1
  | toJSON => exact absurd rfl h2
  | nop | err _ | crash => trivial

theorem onBool_fit (et : EType) (v : Bool) : ActFit x et (onBool x et v) := by
  unfold onBool
  split
  · exact ⟨Nat.le_refl _, _, rfl⟩
  · exact ⟨Nat.le_refl _, _, .inr ⟨_, rfl, rfl⟩⟩
  · rfl
  · rfl
  · trivial

theorem storeInt_fit (k : IKind) (tv : Bytes) (e : Err) : ActFit x (.scalar (.int k)) (storeInt x k tv e) := by
  unfold storeInt
  split
  · trivial
  · trivial
  · exact ⟨Nat.le_refl _, _, .inr ⟨_, rfl, rfl⟩⟩

theorem storeFlt_fit (q : Bool) (k : FKind) (r : Except Nat Flt) : ActFit x (if q then .quoted (.flt k) else .scalar (.flt k)) (storeFlt ((SKind.flt k).bytes x) r) := by
  cases r
  · trivial
  · cases q <;> exact ⟨Nat.le_refl _, _, .inr ⟨_, rfl, rfl⟩⟩

theorem onInteger_fit (et : EType) (tv : Bytes) : ActFit x et (onInteger x et tv) := by
  unfold onInteger
  split
  · split
    · exact ⟨Nat.le_refl _, _, rfl⟩
    · trivial
  · split
    · split
      · trivial
      · split
        · trivial
        · exact storeInt_fit _ _ _
    · exact storeInt_fit _ _ _
  · exact storeFlt_fit false _ _
  · exact ⟨Nat.le_refl _, _, rfl⟩
  · rfl
  · rfl
  · trivial

theorem onNumber_fit (et : EType) (tv : Bytes) : ActFit x et (onNumber x et tv) := by
  unfold onNumber
  split
  · split
    · exact ⟨Nat.le_refl _, _, rfl⟩
    · trivial
  · exact storeFlt_fit false _ _
  · exact ⟨Nat.le_refl _, _, rfl⟩
  · rfl
  · rfl
  · trivial

theorem onString_fit (et : EType) (tv : Bytes) : ActFit x et (onString x et tv) := by
  unfold onString
  split
  · split
    · trivial
    · rfl
  · split
    · trivial
    · exact ⟨Nat.le_refl _, _, rfl⟩
  · split
    · trivial
    · exact ⟨Nat.le_refl _, _, .inr ⟨_, rfl, rfl⟩⟩
  · split
    · exact ⟨Nat.le_refl _, _, .inr ⟨_, rfl, rfl⟩⟩
    · split
      · exact ⟨Nat.le_refl _, _, .inr ⟨_, rfl, rfl⟩⟩
      · trivial
  · split
    · trivial
    · simp only []
      split
      · trivial
      · exact ⟨Nat.le_refl _, _, .inr ⟨_, rfl, rfl⟩⟩
  · split
    · trivial
    · split
      · trivial
      · exact ⟨Nat.le_refl _, _, rfl⟩
  · split
    · trivial
    · split
      · trivial
      · exact storeFlt_fit true _ _
  · split
    · trivial
    · trivial
    · exact ⟨Nat.le_refl _, _, .inr ⟨_, rfl, rfl⟩⟩
  · rfl
  · rfl
  · trivial

theorem onNull_fit {et : EType} (hn : recurType et = false) : ActFit x et (onNull x et) := by
  cases et <;> first | (exact absurd hn (by decide)) | simp [onNull, ActFit, esize]

end Verif.Proof.Kept
