import Verif.Proof.Val
/-!
# The reading on memory blocks agrees with the reading on values
-/
namespace Verif.Proof.Val
open Verif.Model Verif.Big Verif.Spec Verif.Proof.Mem

/-- The outcomes on memory and on values correspond: the new block satisfies `P` with the new value and differs from the old one at most in the given range. -/
def Rel {α : Type} (P : Block → α → Prop) (b : Block) (off n : Nat) : Res → R α → Prop
  | .ok b', .ok a => P b' a ∧ Frm b b' off n
  | .err i e b', .err i' e' a => i = i' ∧ e = e' ∧ P b' a ∧ Frm b b' off n
  | .crash, .crash => True
  | .unsup, _ => True
  | _, _ => False

theorem Rel.mapR {α β : Type} {P : Block → α → Prop} {Q : Block → β → Prop} {f : α → β} {b : Block} {off n : Nat} {r : Res} {r' : R α}
    (h : Rel P b off n r r') (hq : ∀ b' a, P b' a → Frm b b' off n → Q b' (f a)) : Rel Q b off n r (r'.map f) := by
  cases r <;> cases r' <;> simp only [Rel, R.map] at * <;> first | exact h | skip
  · exact ⟨hq _ _ h.1 h.2, h.2⟩
  · exact ⟨h.1, h.2.1, hq _ _ h.2.2.1 h.2.2.2, h.2.2.2⟩

/-- A predicate on values in memory that only depends on their `n` bytes. -/
structure Loc (n : Nat) (P : Block → Nat → Val → Prop) : Prop where
  len : ∀ {b off W}, P b off W → off + n ≤ b.length
  agree : ∀ {b b' off W}, P b off W → Agree b b' off n → off + n ≤ b'.length → P b' off W

theorem loc_holds {x : Ext} {ty : Ty} (h : OK x ty) : Loc (ty.size x) (Holds x ty) :=
  ⟨holds_len, fun h1 h2 h3 => holds_agree ty h h1 h2 h3⟩

theorem loc_scalar (x : Ext) (k : SKind) : Loc (k.bytes x) (fun b off V => off + k.bytes x ≤ b.length ∧ HoldsS k b[off]? V) := by
  have := loc_holds (x := x) (ty := .scalar k) trivial
  simpa only [Holds, Ty.size] using this

/-- Consecutive values in memory. -/
def HeldL (esz : Nat) (P : Block → Nat → Val → Prop) (b : Block) (off : Nat) (Ws : List Val) : Prop :=
  ∀ (i : Nat) (W : Val), Ws[i]? = some W → P b (off + i * esz) W

theorem HeldL.agree {esz : Nat} {P : Block → Nat → Val → Prop} (hP : Loc esz P) {b b' : Block} {off : Nat} {Ws : List Val} (h : HeldL esz P b off Ws)
    (ha : Agree b b' off (Ws.length * esz)) (hl : off + Ws.length * esz ≤ b'.length) : HeldL esz P b' off Ws := by
  intro i W hi
  have hlt := (List.getElem?_eq_some_iff.1 hi).1
  have hb : i * esz + esz ≤ Ws.length * esz := by
    have := Nat.mul_le_mul_right esz (Nat.succ_le_of_lt hlt)
    rw [Nat.succ_mul] at this; exact this
  exact hP.agree (h i W hi) (fun j h1 h2 => ha j (by omega) (by omega)) (by omega)

theorem elems_rel {esz : Nat} {P : Block → Nat → Val → Prop} (hP : Loc esz P) {f : JVal → Block → Nat → Res} {g : JVal → Val → R Val} :
    ∀ (vs : List JVal) (Ws : List Val) (b : Block) (off : Nat), vs.length ≤ Ws.length →
      (∀ v ∈ vs, ∀ b off W, P b off W → Rel (fun b' W' => P b' off W') b off esz (f v b off) (g v W)) →
      HeldL esz P b off Ws → off + Ws.length * esz ≤ b.length →
      Rel (fun b' Ws' => HeldL esz P b' off Ws' ∧ Ws'.length = Ws.length) b off (Ws.length * esz) (elemsB f esz vs b off) (elemsV g vs Ws)
  | [], Ws, b, off, _, _, hh, _ => by
    simp only [elemsB, elemsV, Rel]
    exact ⟨⟨hh, trivial⟩, Frm.refl _ _ _⟩
  | v :: vs, [], b, off, hl, _, _, _ => by simp at hl
  | v :: vs, W :: Ws, b, off, hl, hfg, hh, hlen => by
    simp only [List.length_cons, Nat.succ_mul] at hlen hl ⊢
    have h0 : P b off W := by simpa using hh 0 W rfl
    have htl : HeldL esz P b (off + esz) Ws := by
      intro i W' hi
      have := hh (i + 1) W' (by simpa using hi)
      rw [Nat.succ_mul] at this
      have e : off + esz + i * esz = off + (i * esz + esz) := by omega
      rw [e]; exact this
    have hcons : ∀ (b' : Block) (W' : Val) (Ws' : List Val), P b' off W' → HeldL esz P b' (off + esz) Ws' → HeldL esz P b' off (W' :: Ws') := by
      intro b' W' Ws' h1 h2 i W'' hi
      cases i with
      | zero => simp at hi; subst hi; simpa using h1
      | succ i =>
        have := h2 i W'' (by simpa using hi)
        rw [Nat.succ_mul]
        have e : off + esz + i * esz = off + (i * esz + esz) := by omega
        rw [← e]; exact this
    have hr := hfg v (by simp) b off W h0
    simp only [elemsB, elemsV]
    cases hf : f v b off with
    | ok b1 =>
      cases hg : g v W with
      | ok W1 =>
        rw [hf, hg] at hr
        simp only [Rel] at hr
        have htl1 : HeldL esz P b1 (off + esz) Ws := htl.agree hP (hr.2.agree (.inl (Nat.le_refl _))) (by have := hr.2.1; omega)
        have ih := elems_rel hP vs Ws b1 (off + esz) (by omega) (fun v hv => hfg v (by simp [hv])) htl1 (by have := hr.2.1; omega)
        simp only []
        cases hE : elemsB f esz vs b1 (off + esz) with
        | ok b2 =>
          cases hV : elemsV g vs Ws with
          | ok Ws2 =>
            rw [hE, hV] at ih
            simp only [Rel, R.map, List.length_cons] at ih ⊢
            exact ⟨⟨hcons _ _ _ (hP.agree hr.1 (ih.2.agree (.inr (Nat.le_refl _))) (by have := ih.2.1; have := hr.2.1; omega)) ih.1.1, by omega⟩,
              (hr.2.mono (Nat.le_refl _) (by omega)).trans (ih.2.mono (by omega) (by omega))⟩
          | err i e Ws2 => rw [hE, hV] at ih; exact ih.elim
          | crash => rw [hE, hV] at ih; exact ih.elim
          | unsup => rw [hE, hV] at ih; exact ih.elim
        | err i e b2 =>
          cases hV : elemsV g vs Ws with
          | err i' e' Ws2 =>
            rw [hE, hV] at ih
            simp only [Rel, R.map, List.length_cons] at ih ⊢
            obtain ⟨k1, k2, ⟨k3, k5⟩, k4⟩ := ih
            exact ⟨k1, k2, ⟨hcons _ _ _ (hP.agree hr.1 (k4.agree (.inr (Nat.le_refl _))) (by have := k4.1; have := hr.2.1; omega)) k3, by omega⟩,
              (hr.2.mono (Nat.le_refl _) (by omega)).trans (k4.mono (by omega) (by omega))⟩
          | ok Ws2 => rw [hE, hV] at ih; exact ih.elim
          | crash => rw [hE, hV] at ih; exact ih.elim
          | unsup => rw [hE, hV] at ih; exact ih.elim
        | crash =>
          cases hV : elemsV g vs Ws <;> rw [hE, hV] at ih <;> first | exact ih.elim | simp [R.map, Rel]
        | unsup =>
          cases hV : elemsV g vs Ws <;> rw [hE, hV] at ih <;> first | exact ih.elim | simp [R.map, Rel]
      | err i e W1 => rw [hf, hg] at hr; exact hr.elim
      | crash => rw [hf, hg] at hr; exact hr.elim
      | unsup => rw [hf, hg] at hr; exact hr.elim
    | err i e b1 =>
      cases hg : g v W with
      | err i' e' W1 =>
        rw [hf, hg] at hr
        simp only [Rel] at hr ⊢
        obtain ⟨k1, k2, k3, k4⟩ := hr
        exact ⟨k1, k2, ⟨hcons _ _ _ k3 (htl.agree hP (k4.agree (.inl (Nat.le_refl _))) (by have := k4.1; omega)), by simp⟩, k4.mono (Nat.le_refl _) (by omega)⟩
      | ok W1 => rw [hf, hg] at hr; exact hr.elim
      | crash => rw [hf, hg] at hr; exact hr.elim
      | unsup => rw [hf, hg] at hr; exact hr.elim
    | crash =>
      cases hg : g v W <;> rw [hf, hg] at hr <;> first | exact hr.elim | simp [Rel]
    | unsup =>
      cases hg : g v W <;> rw [hf, hg] at hr <;> first | exact hr.elim | simp [Rel]

/-! ## Scalars -/

/-- A store of `n` bytes at the offset. -/
theorem store_rel {α : Type} {P : Block → α → Prop} {b s : Block} {off n : Nat} {a : α} (hs : s.length = n) (hl : off + n ≤ b.length)
    (h : ∀ b', blit b off s = some b' → P b' a) {k : Block → Res} (hk : ∀ b', k b' = .ok b') :
    Rel P b off n (match blit b off s with | none => .crash | some b => k b) (.ok a) := by
  obtain ⟨b', hb⟩ := (blit_isSome (b := b) (off := off) (s := s)).2 (by omega)
  rw [hb]
  simp only [hk, Rel]
  exact ⟨h b' hb, by have := frm_blit hb; rwa [hs] at this⟩

/-- What an action does fits the type. -/
def Fits (x : Ext) (ty : Ty) : Act → Prop
  | .store n c => n = ty.size x ∧ ∀ b off, off + n ≤ b.length → b[off]? = some c → Holds x ty b off (cellV c)
  | .clear n => n = ty.size x ∧ OK x ty
  | .text _ => ∃ rt n impl, ty = .textU rt n impl
  | _ => True

theorem exec_rel {x : Ext} {ty : Ty} {b : Block} {off idx : Nat} {V : Val} {a : Act} (h : Holds x ty b off V) (hf : Fits x ty a) (hp : 0 < ty.size x ∨ ∀ n c, a ≠ .store n c)
    (ht : ∀ t, a ≠ .text t) (rt : Option TypeId) (size : Nat) (impl : Bool) (call : Option (Block → Bytes → Block × Option Nat)) :
    Rel (fun b' W => Holds x ty b' off W) b off (ty.size x) (execB x rt size impl b off idx a) (actV idx (zeroV x ty) call V a) := by
  have hl := holds_len h
  cases a with
  | store n c =>
    obtain ⟨hn, hc⟩ := hf
    simp only [execB, actV]
    refine store_rel (by rw [seg_length, hn]) hl (fun b' hb => ?_) (fun _ => rfl)
    have h0 : 0 < n := by rcases hp with hp | hp
                          · omega
                          · exact absurd rfl (hp n c)
    exact hc b' off (by have := blit_length hb; omega) (Sim.blit_seg_get h0 hb)
  | clear n =>
    obtain ⟨hn, hc⟩ := hf
    simp only [execB, actV]
    refine store_rel (by rw [zeros_length, hn]) hl (fun b' hb => ?_) (fun _ => rfl)
    refine holds_zeros_at hc (by have := blit_length hb; omega) (fun j h1 h2 => ?_)
    rw [blit_get_in hb h1 (by rw [zeros_length, hn]; exact h2)]
    exact zeros_get (by omega)
  | nop => exact ⟨h, Frm.refl _ _ _⟩
  | text t => exact absurd rfl (ht t)
  | toPtr => trivial
  | toJSON => trivial
  | err e => exact ⟨rfl, rfl, h, Frm.refl _ _ _⟩
  | crash => trivial

theorem fits_bool (x : Ext) (ty : Ty) (c : Bool) (hok : OK x ty) : Fits x ty (onBool x ty.etype c) := by
  cases ty <;> simp only [Ty.etype, onBool, Fits]
  case any => exact ⟨rfl, fun b off hl hc => ⟨hl, .inr ⟨_, hc, rfl⟩⟩⟩
  case scalar k =>
    cases k <;> simp only []
    exact ⟨rfl, fun b off hl hc => ⟨hl, .inr ⟨_, hc, rfl⟩⟩⟩

theorem fits_storeInt {x : Ext} {k : IKind} {tv : Bytes} {e : Err} {ty : Ty} (h : ty = .scalar (.int k) ∨ ty = .quoted (.int k)) :
    Fits x ty (storeInt x k tv e) := by
  unfold storeInt
  split
  · trivial
  · trivial
  · rcases h with h | h <;> subst h <;> exact ⟨rfl, fun b off hl hc => ⟨hl, .inr ⟨_, hc, rfl⟩⟩⟩

theorem fits_storeFlt {x : Ext} {k : FKind} {r : Except Nat Flt} {ty : Ty} (h : ty = .scalar (.flt k) ∨ ty = .quoted (.flt k)) :
    Fits x ty (storeFlt ((SKind.flt k).bytes x) r) := by
  unfold storeFlt
  split
  · rcases h with h | h <;> subst h <;> exact ⟨rfl, fun b off hl hc => ⟨hl, .inr ⟨_, hc, rfl⟩⟩⟩
  · trivial

theorem fits_integer (x : Ext) (ty : Ty) (tv : Bytes) : Fits x ty (onInteger x ty.etype tv) := by
  cases ty <;> simp only [Ty.etype, onInteger]
  case any => split
              · exact ⟨rfl, fun b off hl hc => ⟨hl, .inr ⟨_, hc, rfl⟩⟩⟩
              · trivial
  case number => exact ⟨rfl, fun b off hl hc => ⟨hl, .inr ⟨_, hc, rfl⟩⟩⟩
  case scalar k =>
    cases k with
    | int k =>
      simp only []
      split
      · split
        · trivial
        · split
          · trivial
          · exact fits_storeInt (.inl rfl)
      · exact fits_storeInt (.inl rfl)
    | flt k => exact fits_storeFlt (.inl rfl)
    | bool => trivial
    | str => trivial
  all_goals trivial

theorem fits_number (x : Ext) (ty : Ty) (tv : Bytes) : Fits x ty (onNumber x ty.etype tv) := by
  cases ty <;> simp only [Ty.etype, onNumber]
  case any => split
              · exact ⟨rfl, fun b off hl hc => ⟨hl, .inr ⟨_, hc, rfl⟩⟩⟩
              · trivial
  case number => exact ⟨rfl, fun b off hl hc => ⟨hl, .inr ⟨_, hc, rfl⟩⟩⟩
  case scalar k =>
    cases k with
    | flt k => exact fits_storeFlt (.inl rfl)
    | _ => trivial
  all_goals trivial

theorem fits_string (x : Ext) (ty : Ty) (tv : Bytes) : Fits x ty (onString x ty.etype tv) := by
  cases ty <;> simp only [Ty.etype, onString]
  case textU rt n impl => split
                          · trivial
                          · exact ⟨_, _, _, rfl⟩
  case any => split
              · trivial
              · exact ⟨rfl, fun b off hl hc => ⟨hl, .inr ⟨_, hc, rfl⟩⟩⟩
  case number => split
                 · trivial
                 · split
                   · trivial
                   · exact ⟨rfl, fun b off hl hc => ⟨hl, .inr ⟨_, hc, rfl⟩⟩⟩
  case scalar k =>
    cases k with
    | str => simp only []
             split
             · trivial
             · exact ⟨rfl, fun b off hl hc => ⟨hl, .inr ⟨_, hc, rfl⟩⟩⟩
    | _ => trivial
  case quoted k =>
    cases k with
    | bool => simp only []
              split
              · exact ⟨rfl, fun b off hl hc => ⟨hl, .inr ⟨_, hc, rfl⟩⟩⟩
              · split
                · exact ⟨rfl, fun b off hl hc => ⟨hl, .inr ⟨_, hc, rfl⟩⟩⟩
                · trivial
    | str => simp only []
             split
             · trivial
             · split
               · trivial
               · exact ⟨rfl, fun b off hl hc => ⟨hl, .inr ⟨_, hc, rfl⟩⟩⟩
    | flt k => simp only []
               split
               · trivial
               · split
                 · trivial
                 · exact fits_storeFlt (.inr rfl)
    | int k => simp only []
               split
               · trivial
               · trivial
               · exact ⟨rfl, fun b off hl hc => ⟨hl, .inr ⟨_, hc, rfl⟩⟩⟩
  all_goals trivial

theorem fits_null (x : Ext) (ty : Ty) (hok : OK x ty) : Fits x ty (onNull x ty.etype) := by
  cases ty <;> simp only [Ty.etype, onNull, Fits, Ty.size] <;> exact ⟨trivial, hok⟩

theorem fits_leaf (x : Ext) (src : Bytes) (ty : Ty) (v : JVal) (hok : OK x ty) : Fits x ty (leaf x src ty.etype v) := by
  cases v with
  | null i e => exact fits_null x ty hok
  | bool c i e => exact fits_bool x ty c hok
  | num c i e =>
    cases c <;> simp only [leaf]
    · split
      · trivial
      · exact fits_number x ty _
    · split
      · trivial
      · exact fits_integer x ty _
  | str i e =>
    simp only [leaf]
    split
    · trivial
    · exact fits_string x ty _
  | arr i es k => trivial
  | obj i es k => trivial

/-- A scalar document or an unexpected value. -/
theorem leaf_rel {x : Ext} {src : Bytes} {ty : Ty} {v : JVal} {b : Block} {off : Nat} {V : Val} (hok : OK x ty) (h : Holds x ty b off V)
    (hp : 0 < ty.size x ∨ ty = .array0 ∨ ty = .emptyStruct ∨ (∃ n e, ty = .array n e) ∨ ∃ n fs, ty = .struct n fs) (ht : ∀ rt n i, ty ≠ .textU rt n i) :
    Rel (fun b' W => Holds x ty b' off W) b off (ty.size x) (execB x none 0 false b off v.index (leaf x src ty.etype v))
      (leafV x src ty v V) := by
  unfold leafV
  have hf := fits_leaf x src ty v hok
  refine exec_rel h hf ?_ ?_ none 0 false none
  · rcases hp with hp | hp
    · exact .inl hp
    · right
      intro n c hc
      rcases hp with rfl | rfl | ⟨m, e, rfl⟩ | ⟨m, fs, rfl⟩
      all_goals
        cases v <;> simp only [leaf, Ty.etype] at hc
        all_goals first | (cases hc; done) | (simp only [onNull, onBool] at hc; cases hc; done) | skip
        · rename_i cc _ _
          cases cc <;> simp only [leaf] at hc <;> (split at hc <;> simp [onInteger, onNumber] at hc)
        · split at hc <;> simp [onString] at hc
  · intro t hc
    rw [hc] at hf
    obtain ⟨rt, n, i, hty⟩ := hf
    exact ht _ _ _ hty

end Verif.Proof.Val
