import Verif.Proof.FootTok
/-!
# Every step of the token loop pays for the memory it takes
-/
namespace Verif.Proof.Foot
open Verif.Model Verif.Spec Verif.Big Verif.Proof.Term

/-- What is known of the program. -/
structure Ctx (pr : Prog) (c : Nat) : Prop where
  frugal : Frugal pr.x c
  ord : Ordered pr.src pr.toks
  tok : TokOK pr.toks
  sub : ∀ (i : Nat) (t : Token), pr.toks[i]? = some t → (t.type = .array ∨ t.type = .object) → SubAt i (pr.toks.drop i)

/-- The price of a unit of the input. -/
def price (pr : Prog) (c : Nat) : Nat := 32 + c + maxSize pr.frames

/-- What remains of the input at a token. -/
def left (pr : Prog) (ti : Nat) : Nat := Phi pr.src (pr.toks.drop ti)

/-- The memory taken by a step is paid by the input it consumes, or by the step itself. -/
def Good (pr : Prog) (c : Nat) (s : St) : Out → Prop
  | .run s' => footprint s'.mem + price pr c * left pr s'.ti ≤ footprint s.mem + price pr c * left pr s.ti + price pr c ∧ s'.mem.length = s.mem.length
  | .done s' => s' = s
  | .err _ _ s' => footprint s'.mem ≤ footprint s.mem + price pr c * left pr s.ti + price pr c ∧ s'.mem.length = s.mem.length
  | .crash => True

variable {pr : Prog} {c : Nat} {s : St}

theorem max_size {frames : List Frame} {i : Nat} {f : Frame} (h : frames[i]? = some f) : f.size ≤ maxSize frames ∧ f.mapValueSize ≤ maxSize frames := by
  induction frames generalizing i with
  | nil => simp at h
  | cons g fs ih =>
    cases i with
    | zero => simp at h; subst h; simp only [maxSize]; omega
    | succ i => simp at h; have := ih h; simp only [maxSize]; omega

/-- Consuming `d`. -/
theorem pay {m m' g d ti ti' : Nat} (hm : m' ≤ m + g) (hg : g ≤ price pr c * (d + 1)) (hd : d + left pr ti' ≤ left pr ti) :
    m' + price pr c * left pr ti' ≤ m + price pr c * left pr ti + price pr c := by
  have h1 := Nat.mul_le_mul_left (price pr c) hd
  rw [Nat.mul_add] at h1 hg
  omega

theorem pay_err {m m' g d ti : Nat} (hm : m' ≤ m + g) (hg : g ≤ price pr c * (d + 1)) (hd : d ≤ left pr ti) :
    m' ≤ m + price pr c * left pr ti + price pr c := by
  have h1 := Nat.mul_le_mul_left (price pr c) hd
  rw [Nat.mul_add] at hg
  omega

theorem left_mono (h : Ctx pr c) {i j : Nat} (hij : i ≤ j) : left pr j ≤ left pr i := phi_mono h.ord hij

/-- Nothing happens to the memory. -/
theorem still (h : Ctx pr c) {s' : St} (hm : s'.mem = s.mem) (hti : s.ti ≤ s'.ti) : Good pr c s (.run s') := by
  refine ⟨pay (g := 0) (d := 0) (by rw [hm]; omega) (by omega) ?_, by rw [hm]⟩
  have := left_mono h hti; omega

theorem still_err (i : Nat) (e : Err) : Good pr c s (.err i e s) := ⟨by omega, rfl⟩

/-- The current token and the next `n`. -/
theorem spend (h : Ctx pr c) {t : Token} (ht : pr.toks[s.ti]? = some t) (n : Nat) :
    (1 + t.elements + (stopOf t - t.index) + cost ((pr.toks.drop (s.ti + 1)).take n)) + left pr (s.ti + 1 + n) ≤ left pr s.ti := by
  have hd : pr.toks.drop s.ti = t :: pr.toks.drop (s.ti + 1) := by
    have hl := lt_of_get ht
    rw [List.drop_eq_getElem_cons hl]
    rw [List.getElem?_eq_getElem hl] at ht
    cases ht; rfl
  have h1 := ord_drop s.ti h.ord
  rw [hd] at h1
  have h2 := phi_cons h1
  have h3 := phi_take n h1.2.2
  rw [List.drop_drop] at h3
  unfold left
  rw [hd]
  omega

theorem spend_to (h : Ctx pr c) {t : Token} (ht : pr.toks[s.ti]? = some t) {ti' : Nat} (hti : s.ti + 1 ≤ ti') :
    (1 + t.elements + (stopOf t - t.index)) + left pr ti' ≤ left pr s.ti := by
  have h1 := spend h ht 0
  have h2 := left_mono h hti
  simp only [List.take_zero, cost, Nat.add_zero] at h1
  omega

theorem spend_all (h : Ctx pr c) {t : Token} (ht : pr.toks[s.ti]? = some t) : 1 + t.elements + (stopOf t - t.index) ≤ left pr s.ti := by
  have := spend_to h ht (Nat.le_refl _); omega

/-- Writing `g` bytes and going on behind the token. -/
theorem write_good (h : Ctx pr c) {t : Token} (ht : pr.toks[s.ti]? = some t) {s' : St} {b : Block} {p : Ptr} {g : Nat} (hw : writeSeg s.mem p b = some s'.mem) (hb : footprint b ≤ g)
    (hg : g ≤ price pr c * (1 + t.elements + (stopOf t - t.index) + 1)) (hti : s.ti + 1 ≤ s'.ti) : Good pr c s (.run s') := by
  obtain ⟨old, -, h1, h2⟩ := write_foot hw
  exact ⟨pay (by omega) hg (spend_to h ht hti), h2⟩

theorem price_32 (a d : Nat) (h : a ≤ 32 * d) : a ≤ price pr c * d := by
  have : 32 * d ≤ price pr c * d := Nat.mul_le_mul_right d (by unfold price; omega)
  omega

theorem price_c (a d : Nat) (h : a ≤ c * d) : a ≤ price pr c * d := by
  have : c * d ≤ price pr c * d := Nat.mul_le_mul_right d (by unfold price; omega)
  omega

theorem price_size (a d : Nat) (h : a ≤ maxSize pr.frames * d) : a ≤ price pr c * d := by
  have : maxSize pr.frames * d ≤ price pr c * d := Nat.mul_le_mul_right d (by unfold price; omega)
  omega

/-! ## Scalars -/

/-- What an action keeps is not longer than the token. -/
def ActOK (t : Token) : Act → Prop
  | .store _ cl => cellBytes cl ≤ 16 + (stopOf t - t.index)
  | .text b => b.length ≤ stopOf t - t.index
  | _ => True

theorem exec_good (h : Ctx pr c) {f : Frame} {t : Token} (ht : pr.toks[s.ti]? = some t) {a : Act} (ha : ActOK t a) : Good pr c s (exec pr s f t a) := by
  cases a with
  | store n cl =>
    simp only [exec]
    split
    · trivial
    · rename_i m hm
      refine write_good h ht hm (g := 16 + (stopOf t - t.index)) ?_ (price_32 _ _ (by omega)) (Nat.le_refl _)
      exact Nat.le_trans (foot_seg n cl) ha
  | clear n =>
    simp only [exec]
    split
    · trivial
    · rename_i m hm
      exact write_good h ht hm (g := 0) (by rw [foot_zeros]; exact Nat.le_refl _) (Nat.zero_le _) (Nat.le_refl _)
  | nop => exact still h rfl (by simp)
  | text b =>
    simp only [exec]
    split
    · rename_i rt old _ _ hold
      split
      · trivial
      · rename_i m hm
        obtain ⟨old', h1, h2, h3⟩ := write_foot hm
        have hl : (fit f.size (pr.x.unmarshalText rt old b).1).length = f.size := by simp [fit, zeros]
        rw [hl, hold] at h1
        cases h1
        have h4 := foot_fit f.size (pr.x.unmarshalText rt old b).1
        have h5 := h.frugal.text rt old b
        have hg : c * (b.length + 1) ≤ price pr c * (1 + t.elements + (stopOf t - t.index) + 1) :=
          price_c _ _ (Nat.mul_le_mul_left c (by simp only [ActOK] at ha; omega))
        split
        · exact ⟨pay_err (g := c * (b.length + 1)) (by show footprint m ≤ _; omega) hg (spend_all h ht), h3⟩
        · exact ⟨pay (g := c * (b.length + 1)) (by show footprint m ≤ _; omega) hg (spend_to h ht (Nat.le_refl _)), h3⟩
    · trivial
  | toPtr => exact still h rfl (by simp)
  | toJSON => exact still h rfl (by simp)
  | err e => exact still_err _ _
  | crash => trivial

theorem flt_ok (t : Token) (n : Nat) (r : Except Nat Flt) : ActOK t (storeFlt n r) := by
  cases r <;> simp [storeFlt, ActOK, cellBytes]

theorem int_ok (t : Token) (x : Ext) (k : IKind) (tv : Bytes) (e : Err) : ActOK t (storeInt x k tv e) := by
  unfold storeInt
  split <;> simp [ActOK, cellBytes]

theorem bool_ok (t : Token) (x : Ext) (ty : EType) (b : Bool) : ActOK t (onBool x ty b) := by
  unfold onBool
  split <;> simp [ActOK, cellBytes, anyBytes]

theorem integer_ok {t : Token} (x : Ext) (ty : EType) {tv : Bytes} (hl : tv.length ≤ stopOf t - t.index) : ActOK t (onInteger x ty tv) := by
  unfold onInteger
  split
  · split <;> simp [ActOK, cellBytes, anyBytes]
  · split
    · split
      · trivial
      · split
        · trivial
        · exact int_ok _ _ _ _ _
    · exact int_ok _ _ _ _ _
  · exact flt_ok _ _ _
  · simp only [ActOK, cellBytes, Ext.mkStr]; omega
  all_goals trivial

theorem number_ok {t : Token} (x : Ext) (ty : EType) {tv : Bytes} (hl : tv.length ≤ stopOf t - t.index) : ActOK t (onNumber x ty tv) := by
  unfold onNumber
  split
  · split <;> simp [ActOK, cellBytes, anyBytes]
  · exact flt_ok _ _ _
  · simp only [ActOK, cellBytes, Ext.mkStr]; omega
  all_goals trivial

theorem string_ok {t : Token} (x : Ext) (ty : EType) {tv : Bytes} (hl : tv.length ≤ stopOf t - t.index) : ActOK t (onString x ty tv) := by
  unfold onString
  split
  · split
    · trivial
    · rename_i b hb
      have := valid_short hb
      simp only [ActOK]; omega
  · split
    · trivial
    · rename_i b hb
      have := unesc_short hb
      simp only [ActOK, cellBytes, anyBytes]; omega
  · split
    · trivial
    · rename_i b hb
      have := unesc_short hb
      simp only [ActOK, cellBytes]; omega
  · split
    · simp [ActOK, cellBytes]
    · split <;> simp [ActOK, cellBytes]
  · split
    · trivial
    · simp only []
      split
      · trivial
      · simp only [ActOK, cellBytes, Ext.mkStr, List.length_take, List.length_drop]; omega
  · split
    · trivial
    · split
      · trivial
      · simp only [ActOK, cellBytes, Ext.mkStr]; omega
  · split
    · trivial
    · split
      · trivial
      · exact flt_ok _ _ _
  · split
    · trivial
    · trivial
    · simp [ActOK, cellBytes]
  all_goals trivial

theorem null_ok (t : Token) (x : Ext) (ty : EType) : ActOK t (onNull x ty) := by
  unfold onNull
  split <;> trivial

/-! ## Slices of scalars -/

theorem elem_ok (x : Ext) (src : Bytes) (k : SKind) (t : Token) : ActOK t (elemOf x src k t) := by
  unfold elemOf
  split
  · trivial
  · split
    · simp [ActOK, cellBytes]
    · trivial
  · split
    · simp [ActOK, cellBytes]
    · trivial
  · rename_i hty
    split
    · split
      · trivial
      · rename_i st hs
        have := inner_short hs
        simp only [ActOK, cellBytes, stopOf, hty, reduceCtorEq, or_self, if_false]; omega
    · trivial
  · rename_i hty
    split
    · split
      · trivial
      · rename_i tv hs
        exact integer_ok _ _ (tok_text (by rw [hty]; simp) hs)
    · split
      · trivial
      · exact flt_ok _ _ _
    · trivial
  · split
    · split
      · trivial
      · exact flt_ok _ _ _
    · trivial
  · trivial

/-- The array after the element loop. -/
def SliceOK (ts : List Token) (a : Block) : SliceRes → Prop
  | .ok a' => footprint a' ≤ footprint a + 32 * cost ts ∧ a'.length = a.length
  | .err _ _ a' => footprint a' ≤ footprint a + 32 * cost ts ∧ a'.length = a.length
  | .crash => True

theorem elems_ok (x : Ext) (src : Bytes) (k : SKind) : ∀ (ts : List Token) (i : Nat) (a : Block), SliceOK ts a (sliceElems x src k ts i a)
  | [], i, a => by simp [sliceElems, SliceOK]
  | t :: ts, i, a => by
    have he := elem_ok x src k t
    have lift : ∀ a', footprint a' ≤ footprint a + (16 + (stopOf t - t.index)) → a'.length = a.length → SliceOK (t :: ts) a (sliceElems x src k ts (i + 1) a') := by
      intro a' h1 h2
      have ih := elems_ok x src k ts (i + 1) a'
      revert ih
      cases sliceElems x src k ts (i + 1) a' with
      | ok a'' => simp only [SliceOK, cost]; intro ih; exact ⟨by omega, by omega⟩
      | err _ _ a'' => simp only [SliceOK, cost]; intro ih; exact ⟨by omega, by omega⟩
      | crash => exact fun _ => trivial
    simp only [sliceElems]
    split
    · rename_i n cl heq
      rw [heq] at he
      split
      · trivial
      · rename_i a' hb
        have h1 := foot_blit hb
        have h2 := foot_seg n cl
        exact lift a' (by simp only [ActOK] at he; omega) (Mem.blit_length hb)
    · split
      · trivial
      · rename_i a' hb
        have h1 := foot_blit hb
        rw [foot_zeros] at h1
        exact lift a' (by omega) (Mem.blit_length hb)
    · simp only [SliceOK, cost, and_true]; omega
    · trivial

theorem bytes_le (x : Ext) (k : SKind) : k.bytes x ≤ 16 := by
  have := W_le x
  cases k with
  | bool => simp [SKind.bytes]
  | str => simp only [SKind.bytes]; omega
  | int k => cases k <;> simp only [SKind.bytes, IKind.bits] <;> (try split) <;> omega
  | flt k => cases k <;> simp [SKind.bytes]

theorem hdr_inv {cl : Option Cell} {l n : Nat} {a : Block} (h : sliceHdr cl = some (l, n, a)) : ∃ c0, cl = some c0 ∧ a.length + footprint a ≤ cellBytes c0 := by
  cases cl with
  | none => simp [sliceHdr] at h
  | some c0 =>
    refine ⟨c0, rfl, ?_⟩
    cases c0 <;> simp [sliceHdr] at h
    · obtain ⟨-, -, rfl⟩ := h; simp [footprint, cellBytes]
    · obtain ⟨-, -, rfl⟩ := h; simp [cellBytes]

theorem read_some {m : Block} {p : Ptr} {o : Option Cell} {c0 : Cell} (h : o = some c0) (e : readCell m p = o) : readCell m p = some c0 := by rw [e, h]

theorem seg_ne {n : Nat} (h : 0 < n) (cl : Cell) : seg n cl ≠ [] := by
  cases n with
  | zero => omega
  | succ n => simp [seg]

theorem W_pos (x : Ext) : 0 < x.W := by unfold Ext.W; split <;> omega

theorem sliceOf_good (h : Ctx pr c) {t : Token} (ht : pr.toks[s.ti]? = some t) (k : SKind) : Good pr c s (onSliceOf pr s t k) := by
  have hW := W_pos pr.x
  simp only [onSliceOf]
  split
  · split
    · trivial
    · rename_i m hm
      refine write_good h ht hm (g := 0) ?_ (Nat.zero_le _) (by simp only []; omega)
      have := foot_seg (3 * pr.x.W) (.slice 0 0 [])
      simp only [cellBytes, footprint, List.length_nil, Nat.add_zero] at this
      exact this
  · split
    · trivial
    · rename_i l n a hh
      obtain ⟨c0, hc0, hca⟩ := hdr_inv hh
      split
      · trivial
      · rename_i hin
        have hend : s.ti + 1 ≤ t.end_ ∧ t.end_ ≤ pr.toks.length := by omega
        have hinner : (pr.toks.take t.end_).drop (s.ti + 1) = (pr.toks.drop (s.ti + 1)).take (t.end_ - (s.ti + 1)) := by rw [List.drop_take]
        have hlen : ((pr.toks.take t.end_).drop (s.ti + 1)).length = t.end_ - (s.ti + 1) := by
          simp only [List.length_drop, List.length_take]; omega
        have hsp := spend h ht (t.end_ - (s.ti + 1))
        rw [← hinner] at hsp
        have hmono : left pr (s.ti + (((pr.toks.take t.end_).drop (s.ti + 1)).length + 2)) ≤ left pr (s.ti + 1 + (t.end_ - (s.ti + 1))) := left_mono h (by rw [hlen]; omega)
        generalize hI : (pr.toks.take t.end_).drop (s.ti + 1) = inner at *
        have hb := bytes_le pr.x k
        have hnb : t.elements * k.bytes pr.x ≤ t.elements * 16 := Nat.mul_le_mul_left _ hb
        split
        · have ho := elems_ok pr.x pr.src k inner 0 (zeros (t.elements * k.bytes pr.x))
          revert ho
          cases sliceElems pr.x pr.src k inner 0 (zeros (t.elements * k.bytes pr.x)) with
          | crash => exact fun _ => trivial
          | err i e a' => exact fun _ => still_err _ _
          | ok arr =>
            intro ho
            simp only [SliceOK, foot_zeros, Nat.zero_add] at ho
            simp only []
            split
            · trivial
            · rename_i m hm
              obtain ⟨old, -, h1, h2⟩ := write_foot hm
              have h3 := foot_seg (3 * pr.x.W) (.slice t.elements t.elements arr)
              have h4 : arr.length = t.elements * k.bytes pr.x := by rw [ho.2]; simp [zeros]
              simp only [cellBytes] at h3
              refine ⟨pay (g := 16 * t.elements + 32 * cost inner) (by simp only []; omega) (price_32 _ _ (by omega)) (Nat.le_trans (Nat.add_le_add_left hmono _) hsp), h2⟩
        · have ho := elems_ok pr.x pr.src k inner 0 (a.take (t.elements * k.bytes pr.x))
          have hta := foot_take_drop a (t.elements * k.bytes pr.x)
          have write : ∀ (arr : Block) (n' : Nat) (m : Block), footprint arr ≤ footprint (a.take (t.elements * k.bytes pr.x)) + 32 * cost inner →
              arr.length = (a.take (t.elements * k.bytes pr.x)).length →
              writeSeg s.mem s.p (seg (3 * pr.x.W) (.slice n' n (arr ++ a.drop (t.elements * k.bytes pr.x)))) = some m →
              footprint m ≤ footprint s.mem + 32 * cost inner ∧ m.length = s.mem.length := by
            intro arr n' m h1 h2 hm
            have h3 := write_cell hm hc0 (seg_ne (by omega) _)
            obtain ⟨-, -, -, h4⟩ := write_foot hm
            have h5 := foot_seg (3 * pr.x.W) (.slice n' n (arr ++ a.drop (t.elements * k.bytes pr.x)))
            simp only [cellBytes, foot_append, List.length_append, List.length_drop] at h5
            simp only [List.length_take] at h2
            exact ⟨by omega, h4⟩
          revert ho
          cases sliceElems pr.x pr.src k inner 0 (a.take (t.elements * k.bytes pr.x)) with
          | crash => exact fun _ => trivial
          | err i e arr =>
            intro ho
            simp only [SliceOK] at ho
            simp only []
            split
            · trivial
            · rename_i m hm
              obtain ⟨h1, h2⟩ := write _ _ m ho.1 ho.2 hm
              exact ⟨pay_err (d := 1 + t.elements + (stopOf t - t.index) + cost inner) h1 (price_32 _ _ (by omega)) (by omega), h2⟩
          | ok arr =>
            intro ho
            simp only [SliceOK] at ho
            simp only []
            split
            · trivial
            · rename_i m hm
              obtain ⟨h1, h2⟩ := write _ _ m ho.1 ho.2 hm
              exact ⟨pay h1 (price_32 _ _ (by omega)) (Nat.le_trans (Nat.add_le_add_left hmono _) hsp), h2⟩

/-! ## Arrays -/

theorem grow_bytes (esz n : Nat) (cp : Bool) (l cap : Nat) (a : Block) : cellBytes (growSlice esz n cp l cap a) ≤ n * esz + a.length + footprint a := by
  unfold growSlice
  split
  · split
    · have h0 := foot_take a (l * esz)
      have h1 : footprint (zeros (n * esz - l * esz)) = 0 := foot_zeros _
      have h2 : (zeros (n * esz - l * esz)).length = n * esz - l * esz := by simp [zeros]
      simp only [cellBytes, foot_append, h1, h2, List.length_append, List.length_take]
      rcases Nat.le_total (n * esz) (l * esz) with h | h <;> omega
    · have h1 : footprint (zeros (n * esz)) = 0 := foot_zeros _
      have h2 : (zeros (n * esz)).length = n * esz := by simp [zeros]
      simp only [cellBytes, h1, h2]; omega
  · simp only [cellBytes]; omega

theorem grow_good (h : Ctx pr c) {t : Token} (ht : pr.toks[s.ti]? = some t) {s' : St} {esz l cap : Nat} {cp : Bool} {a : Block} (hsz : esz ≤ maxSize pr.frames)
    (hh : sliceHdr (readCell s.mem s.p) = some (l, cap, a)) (hm : writeSeg s.mem s.p (seg (3 * pr.x.W) (growSlice esz t.elements cp l cap a)) = some s'.mem)
    (hti : s.ti + 1 ≤ s'.ti) : Good pr c s (.run s') := by
  have hW := W_pos pr.x
  obtain ⟨c0, hc0, hca⟩ := hdr_inv hh
  have h1 := write_cell hm hc0 (seg_ne (by omega) _)
  obtain ⟨-, -, -, h2⟩ := write_foot hm
  have h3 := foot_seg (3 * pr.x.W) (growSlice esz t.elements cp l cap a)
  have h4 := grow_bytes esz t.elements cp l cap a
  have h5 : t.elements * esz ≤ maxSize pr.frames * (1 + t.elements + (stopOf t - t.index) + 1) := by
    rw [Nat.mul_comm]
    exact Nat.mul_le_mul hsz (by omega)
  exact ⟨pay (g := t.elements * esz) (by omega) (price_size _ _ h5) (spend_to h ht hti), h2⟩

theorem empty_good (h : Ctx pr c) {t : Token} (ht : pr.toks[s.ti]? = some t) {s' : St} {n : Nat} {cl : Cell} (hc : cellBytes cl = 0)
    (hm : writeSeg s.mem s.p (seg n cl) = some s'.mem) (hti : s.ti + 1 ≤ s'.ti) : Good pr c s (.run s') :=
  write_good h ht hm (g := 0) (by rw [← hc]; exact foot_seg n cl) (Nat.zero_le _) hti

theorem any_good (h : Ctx pr c) {t : Token} (ht : pr.toks[s.ti]? = some t) (hty : t.type = .array ∨ t.type = .object) {s' : St} {n : Nat} {v : AnyVal} {tail : List Token}
    (hv : decodeAny pr.x pr.src (pr.toks.length + 1) (pr.toks.drop s.ti) = .ok v tail) (hm : writeSeg s.mem s.p (seg n (.any v)) = some s'.mem)
    (hti : s'.ti = pr.toks.length - tail.length) : Good pr c s (.run s') := by
  obtain ⟨w, r, hw⟩ := h.sub _ _ ht hty
  have hl := lt_of_get ht
  have hlen : (flatten s.ti w).length + r.length = pr.toks.length - s.ti := by
    rw [← List.length_append, ← hw, List.length_drop]
  rw [hw, Any.decodeAny_flatten pr.x pr.src w _ _ _ (by omega)] at hv
  cases ha : anyOf pr.x pr.src w with
  | none => rw [ha] at hv; cases hv
  | some q =>
    rw [ha] at hv
    cases q with
    | error e => cases hv
    | ok v' =>
      cases hv
      have h1 := any_cost pr.x pr.src w s.ti v ha
      obtain ⟨old, -, h2, h3⟩ := write_foot hm
      have h4 := foot_seg n (.any v)
      have h5 := phi_take (src := pr.src) (flatten s.ti w).length (ord_drop s.ti h.ord)
      rw [hw, List.take_left, ← hw, List.drop_drop] at h5
      have h6 : s'.ti = s.ti + (flatten s.ti w).length := by omega
      simp only [cellBytes] at h4
      refine ⟨pay (g := anyBytes v) (d := cost (flatten s.ti w)) (by omega) (price_32 _ _ (by omega)) ?_, h3⟩
      rw [h6]
      exact h5

theorem array_good (h : Ctx pr c) {f : Frame} (hf : pr.frames[s.si]? = some f) {t : Token} (ht : pr.toks[s.ti]? = some t) (hty : t.type = .array) :
    Good pr c s (onArray pr s f t) := by
  have hend := h.tok _ _ ht (.inl hty)
  simp only [onArray]
  split
  · cases ha : decodeAny pr.x pr.src (pr.toks.length + 1) (pr.toks.drop s.ti) with
    | ok v tail =>
      simp only []
      split
      · trivial
      · rename_i m hm
        exact any_good h ht (.inl hty) ha hm rfl
    | err e => exact still_err _ _
    | crash => trivial
  · exact still h rfl (by simp only []; omega)
  · split
    · exact still h rfl (by simp only []; omega)
    · exact still h rfl (by simp only []; omega)
  · split
    · trivial
    · rename_i fe hfe
      split
      · split
        · trivial
        · rename_i m hm
          exact empty_good h ht (by simp [cellBytes, footprint]) hm (by simp only []; omega)
      · split
        · rename_i l cap a ad hh hp
          split
          · trivial
          · rename_i m hm
            exact grow_good h ht (max_size hfe).1 hh hm (by simp only []; omega)
        · trivial
  · split
    · trivial
    · rename_i fr hfr
      split
      · split
        · trivial
        · rename_i m hm
          split
          · exact empty_good h ht (by simp [cellBytes, footprint]) hm (by simp only []; omega)
          · exact empty_good h ht (by simp [cellBytes, footprint]) hm (by simp only []; omega)
      · split
        · rename_i l cap a ad hh hp
          split
          · trivial
          · rename_i m hm
            exact grow_good h ht (max_size hfr).1 hh hm (by simp only []; omega)
        · trivial
  · split
    · trivial
    · rename_i m hm
      exact empty_good h ht (by simp [cellBytes, footprint]) hm (by simp only []; omega)
  · exact sliceOf_good h ht _
  · exact still h rfl (Nat.le_refl _)
  · exact still h rfl (Nat.le_refl _)
  · exact still_err _ _

/-! ## Objects -/

theorem ensure_good (h : Ctx pr c) {t : Token} (ht : pr.toks[s.ti]? = some t) {s' : St} (hm : ensureMap pr.x.W s.mem s.p = some s'.mem) (hti : s.ti + 1 ≤ s'.ti) :
    Good pr c s (.run s') := by
  unfold ensureMap at hm
  split at hm
  · cases hm
  · have hm' : s'.mem = s.mem := (Option.some.inj hm).symm
    exact still h hm' (by omega)
  · exact empty_good h ht (by simp [cellBytes, entryBytes]) hm hti

theorem object_good (h : Ctx pr c) {f : Frame} (hf : pr.frames[s.si]? = some f) {t : Token} (ht : pr.toks[s.ti]? = some t) (hty : t.type = .object) :
    Good pr c s (onObject pr s f t) := by
  have hend := h.tok _ _ ht (.inr hty)
  have hW := W_pos pr.x
  simp only [onObject]
  split
  · exact still h rfl (by simp only []; omega)
  · cases ha : decodeAny pr.x pr.src (pr.toks.length + 1) (pr.toks.drop s.ti) with
    | ok v tail =>
      simp only []
      split
      · trivial
      · rename_i m hm
        exact any_good h ht (.inr hty) ha hm rfl
    | err e => exact still_err _ _
    | crash => trivial
  · -- ptrRecur
    split
    · rename_i fr ad hfr hp
      have hm : ∀ m, (match readCell s.mem s.p with
          | some (.ptr _) => some s.mem
          | some .zero => writeSeg s.mem s.p (seg pr.x.W (.ptr (zeros fr.size)))
          | _ => none) = some m → ∀ s' : St, s'.mem = m → s.ti + 1 ≤ s'.ti → Good pr c s (.run s') := by
        intro m hm s' hs' hti
        subst hs'
        split at hm
        · have hm' : s'.mem = s.mem := (Option.some.inj hm).symm
          exact still h hm' (by omega)
        · have h1 : cellBytes (.ptr (zeros fr.size)) ≤ fr.size := by
            simp only [cellBytes, foot_zeros]
            simp [zeros]
          refine write_good h ht hm (g := fr.size) (Nat.le_trans (foot_seg _ _) h1) (price_size _ _ ?_) hti
          have h2 := (max_size hfr).1
          have h3 : maxSize pr.frames * 1 ≤ maxSize pr.frames * (1 + t.elements + (stopOf t - t.index) + 1) := Nat.mul_le_mul_left _ (by omega)
          omega
        · cases hm
      split
      · trivial
      · rename_i m hmm
        split
        · exact hm m hmm _ rfl (by simp only []; omega)
        · exact hm m hmm _ rfl (by simp only []; omega)
    · trivial
  · -- mapRecur
    split
    · trivial
    · split
      · trivial
      · rename_i m hm
        split
        · exact ensure_good h ht hm (by simp only []; omega)
        · exact ensure_good h ht hm (by simp only []; omega)
  · -- map
    split
    · trivial
    · rename_i m hm
      split
      · exact ensure_good h ht hm (by simp only []; omega)
      · exact ensure_good h ht hm (by simp only []; omega)
  · -- mapStringString
    split
    · split
      · trivial
      · rename_i m hm
        exact empty_good h ht (by simp [cellBytes, entryBytes]) hm (by simp only []; omega)
    · split
      · trivial
      · obtain ⟨w, r, hw⟩ := h.sub _ _ ht (.inr hty)
        have hhead : (flatten s.ti w ++ r)[0]? = some t := by rw [← hw, List.getElem?_drop]; exact ht
        have hobj : ∃ i ms k, w = .obj i ms k := by
          cases w with
          | obj i ms k => exact ⟨i, ms, k, rfl⟩
          | bool b => simp [flatten] at hhead; rw [← hhead] at hty; cases b <;> simp at hty
          | num b => simp [flatten] at hhead; rw [← hhead] at hty; cases b <;> simp at hty
          | _ => simp [flatten] at hhead; rw [← hhead] at hty; simp at hty
        obtain ⟨a, ms, k, rfl⟩ := hobj
        have he : t.end_ = s.ti + 1 + (flattenM (s.ti + 1) ms).length := by
          simp [flatten] at hhead
          rw [← hhead]
        have hrest : pr.toks.drop (s.ti + 1) = flattenM (s.ti + 1) ms ++ (⟨.objectEnd, k, k + 1, 0⟩ :: r) := by
          rw [← List.drop_drop, hw]; simp [flatten]
        have hin : (pr.toks.take t.end_).drop (s.ti + 1) = flattenM (s.ti + 1) ms := by
          rw [List.drop_take, hrest, he, show s.ti + 1 + (flattenM (s.ti + 1) ms).length - (s.ti + 1) = (flattenM (s.ti + 1) ms).length by omega, List.take_left]
        rw [hin, Sim.mapSS_flatten]
        split
        · trivial
        · exact still_err _ _
        · rename_i es hes
          split
          · trivial
          · rename_i m hm
            have h1 := mapSS_cost pr.x pr.src ms (s.ti + 1) [] es hes
            obtain ⟨old, -, h2, h3⟩ := write_foot hm
            have h4 := foot_seg pr.x.W (.map es)
            have h5 := spend h ht (flattenM (s.ti + 1) ms).length
            rw [hrest, List.take_left] at h5
            have h6 : left pr (t.end_ + 1) ≤ left pr (s.ti + 1 + (flattenM (s.ti + 1) ms).length) := left_mono h (by omega)
            simp only [cellBytes, entryBytes] at h4 h1
            exact ⟨pay (g := 32 * cost (flattenM (s.ti + 1) ms)) (by show footprint m ≤ _; omega) (price_32 _ _ (by omega)) (Nat.le_trans (Nat.add_le_add_left h6 _) h5), h3⟩
  · split
    · exact still h rfl (by simp only []; omega)
    · exact still h rfl (by simp only []; omega)
  · split
    · exact still h rfl (by simp only []; omega)
    · exact still h rfl (by simp only []; omega)
  · exact still h rfl (Nat.le_refl _)
  · exact still h rfl (Nat.le_refl _)
  · exact still_err _ _

/-! ## Keys -/

theorem key_bytes (h : Ctx pr c) {fk : Frame} {t : Token} {key : Bytes} {k : Key} (hl : key.length ≤ stopOf t - t.index) (hk : mapKeyOf pr.x fk key = some (.ok (some k))) :
    keyBytes k ≤ (16 + c) * (1 + (stopOf t - t.index)) := by
  have hmul : c * (key.length + 1) ≤ c * (1 + (stopOf t - t.index)) := Nat.mul_le_mul_left _ (by omega)
  rw [Nat.add_mul]
  unfold mapKeyOf at hk
  split at hk
  · split at hk
    · rename_i rt b _ _ hv
      split at hk <;> cases hk
      rename_i kb hkb
      have h1 := h.frugal.key rt b kb hkb
      have h2 := valid_short hv
      have h3 : c * (b.length + 1) ≤ c * (key.length + 1) := Nat.mul_le_mul_left _ (by omega)
      simp only [keyBytes]; omega
    · cases hk
  · rw [Option.map_eq_some_iff] at hk
    obtain ⟨st, hs, hk⟩ := hk
    cases hk
    have := unesc_short hs
    simp only [keyBytes]; omega
  · split at hk <;> cases hk
    simp only [keyBytes]; omega
  · cases hk

theorem assign_foot {W vsz : Nat} {m m' : Block} {a : Addr} {k : Key} (hW : 0 < W) (h : assignEntry W vsz m a k = some m') :
    footprint m' ≤ footprint m + (keyBytes k + vsz) ∧ m'.length = m.length := by
  unfold assignEntry at h
  split at h
  · rename_i es hh
    split at h
    · cases h; exact ⟨by omega, rfl⟩
    · have hc : readCell m (.at a) = some (.map es) := by
        revert hh
        cases readCell m (.at a) with
        | none => simp [mapHdr]
        | some cl => cases cl <;> simp [mapHdr]
      have h1 := write_cell h hc (seg_ne hW _)
      obtain ⟨-, -, -, h2⟩ := write_foot h
      have h3 := foot_seg W (.map (es ++ [(k, zeros vsz)]))
      have h4 : footprint (zeros vsz) = 0 := foot_zeros _
      have h5 : (zeros vsz).length = vsz := by simp [zeros]
      simp only [cellBytes, entry_append, entryBytes, h4, h5] at h1 h3
      exact ⟨by omega, h2⟩
  · cases h

theorem mapKey_good (h : Ctx pr c) {f : Frame} (hf : pr.frames[s.si]? = some f) {t : Token} (ht : pr.toks[s.ti]? = some t) {key : Bytes} {fk : Frame} {ad : Addr} {k? : Option Key}
    (hl : key.length ≤ stopOf t - t.index) (hk : mapKeyOf pr.x fk key = some (.ok k?)) :
    Good pr c s (match (match k? with
        | none => some (s.mem, Ptr.nil)
        | some k => (mapAssign pr.x.W f fk s.mem ad k).map fun m => (m, .at (ad.into (.entry k)))) with
      | none => .crash
      | some (m, pNew) =>
        match pr.frames[if f.type = .mapRecur then f.recurFrame else s.si + 2]? with
        | none => .crash
        | some fv =>
          if fv.type = .struct ∨ fv.type = .structRecur then
            match writeSeg m pNew (zeros f.mapValueSize) with
            | none => .crash
            | some m => .run { s with mem := m, dyn := upd s.dyn (if f.type = .mapRecur then f.recurFrame else s.si + 2) fun y => { y with dest := pNew },
                                      si := (if f.type = .mapRecur then f.recurFrame else s.si + 2), ti := s.ti + 1 }
          else .run { s with mem := m, dyn := upd s.dyn (if f.type = .mapRecur then f.recurFrame else s.si + 2) fun y => { y with dest := pNew },
                             si := (if f.type = .mapRecur then f.recurFrame else s.si + 2), ti := s.ti + 1 }) := by
  have hW := W_pos pr.x
  have hv := (max_size hf).2
  have key : ∀ m pNew, (match k? with
        | none => some (s.mem, Ptr.nil)
        | some k => (mapAssign pr.x.W f fk s.mem ad k).map fun m => (m, .at (ad.into (.entry k)))) = some (m, pNew) →
      footprint m ≤ footprint s.mem + ((16 + c) * (1 + (stopOf t - t.index)) + maxSize pr.frames) ∧ m.length = s.mem.length := by
    intro m pNew hm
    cases k? with
    | none => cases hm; exact ⟨by omega, rfl⟩
    | some k =>
      simp only [Option.map_eq_some_iff] at hm
      obtain ⟨m', hm', h'⟩ := hm
      cases h'
      have h1 := key_bytes h hl hk
      unfold mapAssign at hm'
      split at hm'
      · cases hm'
      · obtain ⟨h2, h3⟩ := assign_foot hW hm'
        exact ⟨by omega, h3⟩
  have price : (16 + c) * (1 + (stopOf t - t.index)) + maxSize pr.frames ≤ price pr c * (1 + t.elements + (stopOf t - t.index) + 1) := by
    have h1 : (16 + c) * (1 + (stopOf t - t.index)) ≤ (32 + c) * (1 + t.elements + (stopOf t - t.index) + 1) := Nat.mul_le_mul (by omega) (by omega)
    have h2 : maxSize pr.frames * 1 ≤ maxSize pr.frames * (1 + t.elements + (stopOf t - t.index) + 1) := Nat.mul_le_mul_left _ (by omega)
    unfold Foot.price
    rw [Nat.add_mul (32 + c)]
    omega
  split
  · trivial
  · rename_i m pNew hm
    obtain ⟨h1, h2⟩ := key m pNew hm
    split
    · trivial
    · split
      · split
        · trivial
        · rename_i m' hm'
          obtain ⟨old, -, h3, h4⟩ := write_foot hm'
          rw [foot_zeros] at h3
          exact ⟨pay (by show footprint m' ≤ _; exact Nat.le_trans (by omega) h1) price (spend_to h ht (Nat.le_refl _)), h4.trans h2⟩
      · exact ⟨pay h1 price (spend_to h ht (Nat.le_refl _)), h2⟩

theorem key_good (h : Ctx pr c) {f : Frame} (hf : pr.frames[s.si]? = some f) {t : Token} (ht : pr.toks[s.ti]? = some t) (hty : t.type = .key) :
    Good pr c s (onKey pr s f t) := by
  have hrun : ∀ s', onKey pr s f t = .run s' → s.ti ≤ s'.ti := by
    intro s' h'
    rcases onKey_adv h' with h1 | h1
    · omega
    · omega
  revert hrun
  simp only [onKey]
  have scan : ∀ o : Options, (∀ s', (match scanKeys pr.x pr.src o f.fields none (pr.toks.drop s.ti) s.ti with
      | .crash => Out.crash
      | .unknown i => .err i .unknownField s
      | .brk ti => .run { s with ti := ti + 1 }
      | .found ti fi => .run { s with ti := ti + 1, si := fi }) = .run s' → s.ti ≤ s'.ti) → Good pr c s (match scanKeys pr.x pr.src o f.fields none (pr.toks.drop s.ti) s.ti with
      | .crash => Out.crash
      | .unknown i => .err i .unknownField s
      | .brk ti => .run { s with ti := ti + 1 }
      | .found ti fi => .run { s with ti := ti + 1, si := fi }) := by
    intro o hr
    cases hs : scanKeys pr.x pr.src o f.fields none (pr.toks.drop s.ti) s.ti with
    | crash => trivial
    | unknown i => exact still_err _ _
    | brk ti => rw [hs] at hr; exact still h rfl (hr _ rfl)
    | found ti fi => rw [hs] at hr; exact still h rfl (hr _ rfl)
  split
  · split
    · exact fun _ => trivial
    · exact scan _
  · split
    · exact fun _ => trivial
    · exact scan _
  · intro _
    split
    · rename_i key fk ad hs hfk hp
      have hl := tok_inner (by rw [hty]; simp) hs
      split
      · trivial
      · exact still_err _ _
      · rename_i k? hk
        exact mapKey_good h hf ht hl hk
    · trivial
  · intro _
    split
    · rename_i key fk ad hs hfk hp
      have hl := tok_inner (by rw [hty]; simp) hs
      split
      · trivial
      · exact still_err _ _
      · rename_i k? hk
        exact mapKey_good h hf ht hl hk
    · trivial
  · exact fun _ => still_err _ _

/-! ## The loop -/

theorem dispatch_good (h : Ctx pr c) {f : Frame} (hf : pr.frames[s.si]? = some f) {t : Token} (ht : pr.toks[s.ti]? = some t) : Good pr c s (dispatch pr s f t) := by
  simp only [dispatch]
  split
  · exact exec_good h ht (bool_ok _ _ _ _)
  · exact exec_good h ht (bool_ok _ _ _ _)
  · rename_i hty
    split
    · trivial
    · rename_i tv hs
      exact exec_good h ht (integer_ok _ _ (tok_text (by rw [hty]; simp) hs))
  · rename_i hty
    split
    · trivial
    · rename_i tv hs
      exact exec_good h ht (number_ok _ _ (tok_text (by rw [hty]; simp) hs))
  · rename_i hty
    split
    · trivial
    · rename_i tv hs
      exact exec_good h ht (string_ok _ _ (tok_inner (by rw [hty]; simp) hs))
  · exact exec_good h ht (null_ok _ _ _)
  · rename_i hty; exact array_good h hf ht hty
  · rename_i hty; exact object_good h hf ht hty
  · rename_i hty; exact key_good h hf ht hty
  · simp only [onObjectEnd]
    split
    · exact still h rfl (by simp)
    · split
      · trivial
      · split
        · exact still h rfl (by simp)
        · exact still h rfl (by simp)
    · exact still h rfl (by simp)
  · simp only [onArrayEnd]
    split
    · split
      · exact still h rfl (by simp)
      · split
        · trivial
        · exact still h rfl (by simp)
    · exact still h rfl (by simp)

theorem step_good (h : Ctx pr c) : Good pr c s (step pr s) := by
  unfold step
  split
  · split
    · rfl
    · rename_i t ht
      split
      · trivial
      · rename_i f hf
        exact dispatch_good h hf ht
  · split
    · trivial
    · simp only [onRecurObjEnd]
      split
      · exact still h rfl (Nat.le_refl _)
      · split
        · trivial
        · split <;> exact still h rfl (Nat.le_refl _)
  · split
    · trivial
    · simp only [onValEnd]
      split
      · exact still h rfl (Nat.le_refl _)
      · split
        · trivial
        · split
          · exact still h rfl (Nat.le_refl _)
          · split
            · split
              · trivial
              · exact still h rfl (by simp)
            · exact still h rfl (Nat.le_refl _)
          all_goals exact still h rfl (Nat.le_refl _)
  · simp only [onPtr]
    split
    · trivial
    · rename_i fe hfe
      split
      · trivial
      · rename_i m hm
        have main : ∀ s' : St, s'.mem = m → s'.ti = s.ti → Good pr c s (.run s') := by
          intro s' hm' hti
          subst hm'
          obtain ⟨old, -, h1, h2⟩ := write_foot hm
          have h3 := foot_seg pr.x.W (.ptr (zeros fe.size))
          have h4 : footprint (zeros fe.size) = 0 := foot_zeros _
          have h5 : (zeros fe.size).length = fe.size := by simp [zeros]
          have h6 := (max_size hfe).1
          simp only [cellBytes, h4, h5] at h3
          refine ⟨pay (g := maxSize pr.frames) (d := 0) (by omega) (by unfold price; omega) (by rw [hti]; omega), h2⟩
        split
        · exact main _ rfl rfl
        · split
          · exact main _ rfl rfl
          · trivial
  · split
    · rename_i t f ht hf
      simp only [onJSONUnmarshaler]
      split
      · rename_i raw ti rt old hraw _ _ hold
        have hspan : raw.length + left pr ti ≤ left pr s.ti := by
          simp only [rawValue] at hraw
          split at hraw
          · rename_i hty
            have hend := h.tok _ _ ht hty.symm
            split at hraw
            · cases hraw
            · rename_i te hte
              simp only [Option.map_eq_some_iff, Prod.mk.injEq] at hraw
              obtain ⟨r, hr, rfl, rfl⟩ := hraw
              have h1 := slice_short hr
              have hd : pr.toks.drop s.ti = t :: pr.toks.drop (s.ti + 1) := by
                have hl := lt_of_get ht
                rw [List.drop_eq_getElem_cons hl]
                rw [List.getElem?_eq_getElem hl] at ht
                cases ht; rfl
              have hde : pr.toks.drop t.end_ = te :: pr.toks.drop (t.end_ + 1) := by
                have hl := lt_of_get hte
                rw [List.drop_eq_getElem_cons hl]
                rw [List.getElem?_eq_getElem hl] at hte
                cases hte; rfl
              have h2 := ord_drop t.end_ h.ord
              rw [hde] at h2
              have h3 := ord_pos h2.2.2
              have h4 : count (pr.toks.drop (t.end_ + 1)) ≤ count (pr.toks.drop s.ti) := by
                have : pr.toks.drop (t.end_ + 1) = (pr.toks.drop s.ti).drop (t.end_ + 1 - s.ti) := by rw [List.drop_drop]; congr 1; omega
                rw [this]
                have h5 := count_append ((pr.toks.drop s.ti).take (t.end_ + 1 - s.ti)) ((pr.toks.drop s.ti).drop (t.end_ + 1 - s.ti))
                rw [List.take_append_drop] at h5
                omega
              have h5 := h2.1
              have h6 := h2.2.1
              have h7 := pos_drop (t.end_ - s.ti) (ord_drop s.ti h.ord)
              rw [List.drop_drop, show s.ti + (t.end_ - s.ti) = t.end_ by omega, hde, hd] at h7
              unfold left Phi
              rw [hd] at h4 ⊢
              simp only [posL] at *
              omega
          · simp only [Option.map_eq_some_iff, Prod.mk.injEq] at hraw
            rename_i hty
            obtain ⟨r, hr, rfl, rfl⟩ := hraw
            have h1 := tok_text (by constructor <;> (intro hc; exact hty (by simp [hc]))) hr
            have h2 := spend_to h ht (Nat.le_refl (s.ti + 1))
            omega
        split
        · trivial
        · rename_i m hm
          obtain ⟨old', h1, h2, h3⟩ := write_foot hm
          have hl : (fit f.size (pr.x.unmarshalJSON rt old raw).1).length = f.size := by simp [fit, zeros]
          rw [hl, hold] at h1
          cases h1
          have h4 := foot_fit f.size (pr.x.unmarshalJSON rt old raw).1
          have h5 := h.frugal.json rt old raw
          split
          · exact ⟨pay_err (g := c * (raw.length + 1)) (d := raw.length) (by show footprint m ≤ _; omega) (price_c _ _ (Nat.le_refl _)) (by omega), h3⟩
          · exact ⟨pay (g := c * (raw.length + 1)) (d := raw.length) (by show footprint m ≤ _; omega) (price_c _ _ (Nat.le_refl _)) hspan, h3⟩
      · trivial
    · trivial

/-- A whole run. -/
theorem run_good (h : Ctx pr c) : ∀ (n : Nat) (s : St),
    (∀ s', run pr n s = .done s' → footprint s'.mem ≤ footprint s.mem + price pr c * (left pr s.ti + measure pr s + 1) ∧ s'.mem.length = s.mem.length) ∧
    (∀ i e s', run pr n s = .err i e s' → footprint s'.mem ≤ footprint s.mem + price pr c * (left pr s.ti + measure pr s + 1) ∧ s'.mem.length = s.mem.length)
  | 0, s => by simp [run]
  | n + 1, s => by
    have hg := step_good (s := s) h
    simp only [run]
    simp only [Nat.mul_add, Nat.mul_one]
    cases hs : step pr s with
    | run s1 =>
      rw [hs] at hg
      have hm := step_measure h.tok hs
      have h1 := Nat.mul_le_mul_left (price pr c) hm
      obtain ⟨ih1, ih2⟩ := run_good h n s1
      simp only [Nat.mul_add, Nat.mul_succ] at ih1 ih2 h1
      simp only [Good] at hg
      refine ⟨fun s' h' => ?_, fun i e s' h' => ?_⟩
      · have := ih1 s' h'
        exact ⟨by omega, by omega⟩
      · have := ih2 i e s' h'
        exact ⟨by omega, by omega⟩
    | done s1 =>
      rw [hs] at hg
      have : s1 = s := hg
      subst this
      exact ⟨fun s' h' => by cases h'; exact ⟨by omega, rfl⟩, fun i e s' h' => by cases h'⟩
    | err i e s1 =>
      rw [hs] at hg
      simp only [Good] at hg
      exact ⟨fun s' h' => (by cases h'), fun i e s' h' => by cases h'; exact ⟨by omega, hg.2⟩⟩
    | crash => exact ⟨fun s' h' => (by cases h'), fun i e s' h' => by cases h'⟩

/-- The context of a decoding. -/
theorem ctx_doc {x : Ext} (hF : Frugal x c) {src : Bytes} {v : JVal} (hv : IsDoc src v) (frames : List Frame) (o : Option Options) (ep : Nat) :
    Ctx { x := x, src := src, toks := flatten 0 v, frames := frames, options := o, epoch := ep } c where
  frugal := hF
  ord := doc_ord hv
  tok := tokOK_flatten v
  sub := by
    intro i t ht hc
    have := sub_at v 0 [] i t ht hc
    simpa using this

/-- The whole of `Decode`. -/
theorem decode_foot {x : Ext} (hF : Frugal x c) {src : Bytes} {v : JVal} (hv : IsDoc src v) {d : Decoder} {mem : Block} {o : Option Options} {r : DecodeRes}
    (hm : ∀ f0, d.frames.head? = some f0 → mem.length = f0.size) (h : decode x d src (.ok v) (some mem) o = some r) :
    ∃ m, r.mem = some m ∧ footprint m ≤ footprint mem + factor c d.frames * (src.length + 1) ∧ m.length = mem.length := by
  simp only [decode] at h
  split at h
  · cases h
  · rename_i f0 rest hfr
    have hm' := hm f0 (by rw [hfr]; rfl)
    have hctx := ctx_doc hF hv d.frames o d.calls
    generalize hpr : ({ x := x, src := src, toks := flatten 0 v, frames := d.frames, options := o, epoch := d.calls } : Prog) = pr at *
    obtain ⟨h1, h2⟩ := run_good hctx (fuelFor pr) (initSt d.dyn mem)
    have hb : price pr c * (left pr (initSt d.dyn mem).ti + measure pr (initSt d.dyn mem) + 1) ≤ factor c (f0 :: rest) * (src.length + 1) := by
      have e1 : left pr (initSt d.dyn mem).ti ≤ 3 * src.length := by
        subst hpr; exact doc_phi hv
      have e2 : pr.toks.length ≤ src.length := by subst hpr; exact doc_len hv
      have e3 : pr.frames = f0 :: rest := by subst hpr; exact hfr
      have e4 : measure pr (initSt d.dyn mem) ≤ src.length * (2 * (f0 :: rest).length + 3) + 2 * (f0 :: rest).length := by
        simp only [Term.measure, initSt, rank, e3]
        have := Nat.mul_le_mul_right (2 * (f0 :: rest).length + 3) (show pr.toks.length - 0 ≤ src.length by omega)
        omega
      unfold factor price
      rw [e3, Nat.mul_assoc]
      refine Nat.mul_le_mul_left _ ?_
      rw [Nat.mul_comm src.length] at e4
      rw [Nat.mul_add, Nat.mul_one]
      have e5 : (2 * (f0 :: rest).length + 7) * src.length = (2 * (f0 :: rest).length + 3) * src.length + 4 * src.length := by
        rw [← Nat.add_mul]
      omega
    rw [hfr]
    split at h
    · rename_i i e s hs
      cases h
      obtain ⟨g1, g2⟩ := h2 i e s hs
      exact ⟨s.mem, rfl, Nat.le_trans g1 (Nat.add_le_add_left hb _), g2⟩
    · rename_i s hs
      obtain ⟨g1, g2⟩ := h1 s hs
      split at h
      · cases h
      · rename_i m hmm
        cases h
        cases hr : readSeg s.mem (s.dyn 0).dest f0.size with
        | none => rw [hr] at hmm; cases hmm
        | some b =>
          rw [hr] at hmm
          simp only [Option.bind_some] at hmm
          have k1 := read_foot hr
          have k2 := foot_blit hmm
          have k3 : b.length = f0.size := readSeg_len hr
          have k4 : s.mem.length = f0.size := g2.trans hm'
          rw [List.drop_zero, List.take_of_length_le (by omega)] at k2
          refine ⟨m, rfl, ?_, (Mem.blit_length hmm).trans g2⟩
          have := Nat.le_trans g1 (Nat.add_le_add_left hb _)
          have e : footprint (initSt d.dyn mem).mem = footprint mem := rfl
          omega
    · cases h

end Verif.Proof.Foot
