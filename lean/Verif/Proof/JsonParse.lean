import Verif.Proof.Json
import Verif.Spec.Parse
/-!
# The parser of `Spec/Parse.lean` finds the tree of every JSON text; so a text has only one
-/
namespace Verif.Proof.Json
open Verif.Model Verif.Spec

theorem isWs_iff (c : UInt8) : isWs c = true ↔ c = 32 ∨ c = 9 ∨ c = 10 ∨ c = 13 := by
  simp [isWs, Bool.or_eq_true, or_assoc]

theorem skip_space {w : Bytes} (h : IsSpace w) (s : Bytes) (i : Nat) : skipWs (w ++ s) i = skipWs s (i + w.length) := by
  induction w generalizing i with
  | nil => rfl
  | cons c w ih =>
    have hc := (isWs_iff c).2 (h c List.mem_cons_self)
    simp only [List.cons_append, skipWs, hc, if_true, List.length_cons]
    rw [ih (fun d hd => h d (List.mem_cons_of_mem _ hd)), Nat.add_assoc, Nat.add_comm 1]

theorem skip_stop {c : UInt8} {s : Bytes} {i : Nat} (h : isWs c = false) : skipWs (c :: s) i = (c :: s, i) := by
  simp [skipWs, h]

/-- The text is over, or goes on with something that is not part of a number. -/
def Ends (t : Bytes) : Prop := ∀ c, t.head? = some c → isNumChar c = false

theorem num_chars {s : Bytes} (h : IsNumber s) : ∀ c ∈ s, isNumChar c = true := by
  have hd : ∀ c : UInt8, IsDigit c → isNumChar c = true := by
    intro c ⟨h1, h2⟩
    have : (48 : UInt8) ≤ c ∧ c ≤ 57 := ⟨by rw [UInt8.le_iff_toNat_le]; exact h1, by rw [UInt8.le_iff_toNat_le]; exact h2⟩
    simp [isNumChar, this.1, this.2]
  have hn : ∀ {s}, IsNatLit s → ∀ c ∈ s, isNumChar c = true := by
    intro s h c hc
    cases h with
    | zero => rcases List.mem_singleton.1 hc with rfl; decide
    | cons h1 _ h2 => rcases List.mem_cons.1 hc with rfl | hc
                      · exact hd _ h1
                      · exact hd _ (h2 _ hc)
  obtain ⟨sg, i, f, e, rfl, hs, hi, hf, he⟩ := h
  intro c hc
  simp only [List.mem_append] at hc
  rcases hc with ((hc | hc) | hc) | hc
  · rcases hs with rfl | rfl
    · cases hc
    · rcases List.mem_singleton.1 hc with rfl; decide
  · exact hn hi c hc
  · rcases hf with rfl | ⟨ds, rfl, -, hds⟩
    · cases hc
    · rcases List.mem_cons.1 hc with rfl | hc
      · decide
      · exact hd _ (hds c hc)
  · rcases he with rfl | ⟨x, sg, ds, rfl, hx, hsg, -, hds⟩
    · cases hc
    · rcases List.mem_cons.1 hc with rfl | hc
      · rcases hx with rfl | rfl <;> decide
      · rcases List.mem_append.1 hc with hc | hc
        · rcases hsg with rfl | rfl | rfl
          · cases hc
          · rcases List.mem_singleton.1 hc with rfl; decide
          · rcases List.mem_singleton.1 hc with rfl; decide
        · exact hd _ (hds c hc)

/-- Characters that make a number something other than an integer. -/
def notInt (c : UInt8) : Bool := c == 46 || c == 101 || c == 69

theorem int_chars {s : Bytes} (h : IsInteger s) : ∀ c ∈ s, notInt c = false := by
  have hd : ∀ c : UInt8, IsDigit c → notInt c = false := by
    intro c ⟨h1, h2⟩
    have a : c ≠ 46 := by rintro rfl; revert h1; decide
    have b : c ≠ 101 := by rintro rfl; revert h2; decide
    have d : c ≠ 69 := by rintro rfl; revert h2; decide
    simp [notInt, a, b, d]
  obtain ⟨sg, i, rfl, hs, hi⟩ := h
  intro c hc
  rcases List.mem_append.1 hc with hc | hc
  · rcases hs with rfl | rfl
    · cases hc
    · rcases List.mem_singleton.1 hc with rfl; decide
  · cases hi with
    | zero => rcases List.mem_singleton.1 hc with rfl; decide
    | cons h1 _ h2 => rcases List.mem_cons.1 hc with rfl | hc
                      · exact hd _ h1
                      · exact hd _ (h2 _ hc)

theorem chars_int {s : Bytes} (h : IsNumber s) (hc : ∀ c ∈ s, notInt c = false) : IsInteger s := by
  obtain ⟨sg, i, f, e, rfl, hs, hi, hf, he⟩ := h
  rcases hf with rfl | ⟨ds, rfl, -⟩
  · rcases he with rfl | ⟨x, g, ds, rfl, hx, -⟩
    · exact ⟨sg, i, by simp, hs, hi⟩
    · have := hc x (by simp)
      rcases hx with rfl | rfl <;> simp [notInt] at this
  · have := hc 46 (by simp)
    simp [notInt] at this

theorem scan_num {t : Bytes} (ht : Ends t) : ∀ (s : Bytes) (i : Nat) (b : Bool), (∀ c ∈ s, isNumChar c = true) →
    scanNum (s ++ t) i b = (b && s.all fun c => !notInt c, t, i + s.length)
  | [], i, b, _ => by
    cases t with
    | nil => simp [scanNum]
    | cons c t => simp [scanNum, ht c rfl]
  | c :: s, i, b, h => by
    simp only [List.cons_append, scanNum, h c List.mem_cons_self, if_true]
    rw [scan_num ht s _ _ (fun d hd => h d (List.mem_cons_of_mem _ hd))]
    simp only [List.all_cons, notInt, List.length_cons]
    congr 1
    · rw [Bool.and_assoc]
    · congr 1; omega

theorem scan_str {raw : Bytes} (h : IsContent raw) (t : Bytes) (i : Nat) : scanStr (raw ++ 34 :: t) i = some (t, i + raw.length + 1) := by
  have step : ∀ {c : UInt8} {s : Bytes} {i : Nat}, c ≠ 34 → c ≠ 92 → scanStr (c :: s) i = scanStr s (i + 1) := by
    intro c s i h1 h2
    rw [scanStr]
    · simpa using h1
    · intro a b hab _; exact h2 hab
  have hex : ∀ {c : UInt8} {n : Nat}, hexVal c = some n → c ≠ 34 ∧ c ≠ 92 := by
    intro c n h
    constructor <;> (rintro rfl; simp [hexVal] at h)
  induction h generalizing i with
  | nil => rfl
  | plain h1 h2 _ _ ih =>
    rw [List.cons_append, step h1 h2, ih]
    simp only [List.length_cons]; congr 2; omega
  | esc _ _ ih =>
    simp only [List.cons_append, scanStr]
    rw [ih]
    simp only [List.length_cons]; congr 2; omega
  | uni ha hb hc hd _ ih =>
    simp only [List.cons_append]
    rw [scanStr, step (hex ha).1 (hex ha).2, step (hex hb).1 (hex hb).2, step (hex hc).1 (hex hc).2, step (hex hd).1 (hex hd).2, ih]
    simp only [List.length_cons]; congr 2; omega

/-- The first character of a JSON value. -/
theorem json_head {v : JVal} {a : Nat} {s : Bytes} (h : IsJson v a s) : ∃ c s', s = c :: s' ∧ isWs c = false ∧ c ≠ 93 ∧ c ≠ 125 := by
  cases v with
  | null => obtain ⟨rfl, -⟩ := h; exact ⟨_, _, rfl, by decide⟩
  | bool b => obtain ⟨rfl, -⟩ := h; cases b <;> exact ⟨_, _, rfl, by decide⟩
  | num b =>
    obtain ⟨hn, -⟩ := h
    have hc := num_chars hn
    cases s with
    | nil =>
      obtain ⟨sg, i, f, e, h, hs, hi, hf, he⟩ := hn
      cases hi <;> simp at h
    | cons c s =>
      refine ⟨c, s, rfl, ?_⟩
      have := hc c List.mem_cons_self
      have hw : isWs c = false := by
        rw [Bool.eq_false_iff]
        intro hw
        rcases (isWs_iff c).1 hw with rfl | rfl | rfl | rfl <;> simp [isNumChar] at this
      exact ⟨hw, by rintro rfl; simp [isNumChar] at this, by rintro rfl; simp [isNumChar] at this⟩
  | str => obtain ⟨raw, rfl, -⟩ := h; exact ⟨_, _, rfl, by decide⟩
  | arr => obtain ⟨raw, rfl, -⟩ := h; exact ⟨_, _, rfl, by decide⟩
  | obj => obtain ⟨raw, rfl, -⟩ := h; exact ⟨_, _, rfl, by decide⟩

theorem val_skip {w : Bytes} (h : IsSpace w) (f : Nat) (s : Bytes) (a : Nat) : parseVal f (w ++ s) a = parseVal f s (a + w.length) := by
  cases f with
  | zero => rfl
  | succ f => simp only [parseVal, skip_space h]

theorem members_skip {w : Bytes} (h : IsSpace w) (f : Nat) (s : Bytes) (a i0 : Nat) (acc : List ((Nat × Nat) × JVal)) :
    parseMembers f (w ++ s) a i0 acc = parseMembers f s (a + w.length) i0 acc := by
  cases f with
  | zero => rfl
  | succ f => simp only [parseMembers, skip_space h]

theorem elems_skip {w : Bytes} (h : IsSpace w) (f : Nat) (s : Bytes) (a i0 : Nat) (acc : List JVal) :
    parseElems f (w ++ s) a i0 acc = parseElems f s (a + w.length) i0 acc := by
  cases f with
  | zero => rfl
  | succ f => simp only [parseElems, val_skip h]

theorem val_num {f : Nat} {c : UInt8} {cs : Bytes} {a : Nat} (h : isNumChar c = true) :
    parseVal (f + 1) (c :: cs) a = some (.num (scanNum (c :: cs) a true).1 a (scanNum (c :: cs) a true).2.2, (scanNum (c :: cs) a true).2) := by
  have hw : isWs c = false := by
    rw [Bool.eq_false_iff]
    intro hw
    rcases (isWs_iff c).1 hw with rfl | rfl | rfl | rfl <;> simp [isNumChar] at h
  rw [parseVal, skip_stop hw]
  dsimp only
  split
  · rename_i heq; cases heq; simp [isNumChar] at h
  · rename_i heq; cases heq; simp [isNumChar] at h
  · rename_i heq; cases heq; simp [isNumChar] at h
  · rename_i heq; cases heq; simp [isNumChar] at h
  · rename_i heq; cases heq; simp [isNumChar] at h
  · rename_i heq; cases heq; simp [isNumChar] at h
  · rename_i heq; cases heq; rw [if_pos h]
  · rename_i heq; cases heq

theorem ends_space {w t : Bytes} (hw : IsSpace w) (ht : Ends t) : Ends (w ++ t) := by
  cases w with
  | nil => exact ht
  | cons c w =>
    rintro d ⟨⟩
    rcases hw c List.mem_cons_self with rfl | rfl | rfl | rfl <;> decide

theorem ends_of {c : UInt8} {t : Bytes} (h : isNumChar c = false) : Ends (c :: t) := by rintro d ⟨⟩; exact h

/-- The tree of the value is found. -/
def Finds (v : JVal) : Prop := ∀ (a : Nat) (s t : Bytes) (f : Nat), IsJson v a s → Ends t → s.length < f → parseVal f (s ++ t) a = some (v, t, a + s.length)

theorem finds_padded {v : JVal} (hv : Finds v) {a : Nat} {s t : Bytes} {f : Nat} (h : Padded (IsJson v) a s) (ht : Ends t) (hf : s.length < f) :
    ∃ r j, parseVal f (s ++ t) a = some (v, r, j) ∧ skipWs r j = skipWs t (a + s.length) := by
  obtain ⟨w, u, w', rfl, h1, h2, h3⟩ := h
  refine ⟨w' ++ t, a + w.length + u.length, ?_, ?_⟩
  · rw [List.append_assoc, List.append_assoc, val_skip h1]
    exact hv _ _ _ _ h3 (ends_space h2 ht) (by simp at hf; omega)
  · rw [skip_space h2]; congr 1; simp; omega

theorem head_skip {P : Nat → Bytes → Prop} {a : Nat} {s : Bytes} (h : Padded P a s) (hP : ∀ a t, P a t → ∃ c t', t = c :: t' ∧ isWs c = false ∧ c ≠ 93 ∧ c ≠ 125) (t : Bytes) :
    ∃ w c s', IsSpace w ∧ s = w ++ c :: s' ∧ isWs c = false ∧ c ≠ 93 ∧ c ≠ 125 := by
  obtain ⟨w, u, w', rfl, h1, h2, h3⟩ := h
  obtain ⟨c, u', rfl, h4⟩ := hP _ _ h3
  exact ⟨w, c, u' ++ w', h1, by simp, h4⟩

theorem string_head {k : Nat × Nat} {a : Nat} {s : Bytes} (h : IsString k a s) : ∃ c t', s = c :: t' ∧ isWs c = false ∧ c ≠ 93 ∧ c ≠ 125 := by
  obtain ⟨raw, rfl, -⟩ := h
  exact ⟨_, _, rfl, by decide⟩

mutual
theorem finds : ∀ v : JVal, Finds v
  | .null i e, a, s, t, f + 1, h, _, _ => by obtain ⟨rfl, rfl, rfl⟩ := h; rfl
  | .bool b i e, a, s, t, f + 1, h, _, _ => by obtain ⟨rfl, rfl, rfl⟩ := h; cases b <;> rfl
  | .num b i e, a, s, t, f + 1, h, ht, _ => by
    obtain ⟨hn, hi, rfl, rfl⟩ := h
    have hc := num_chars hn
    have hs := scan_num ht s i true hc
    have hb : (true && s.all fun c => !notInt c) = b := by
      rw [Bool.eq_iff_iff, hi, Bool.true_and, List.all_eq_true]
      constructor
      · intro h; exact chars_int hn fun c hc => by simpa using h c hc
      · intro h c hc; simpa using int_chars h c hc
    rw [hb] at hs
    cases s with
    | nil =>
      obtain ⟨sg, i, f, e, h, hs, hi, hf, he⟩ := hn
      cases hi <;> simp at h
    | cons c s =>
      rw [List.cons_append, val_num (hc c List.mem_cons_self)]
      rw [List.cons_append] at hs
      rw [hs]
  | .str i e, a, s, t, f + 1, h, _, _ => by
    obtain ⟨raw, rfl, hc, hk⟩ := h
    cases hk
    have := scan_str hc t (i + 1)
    rw [show 34 :: (raw ++ [34]) ++ t = 34 :: (raw ++ 34 :: t) by simp, parseVal, skip_stop (by decide)]
    simp only [this, Option.map_some]
    simp only [List.length_cons, List.length_append, List.length_nil]
    rw [show i + 1 + raw.length + 1 = i + (raw.length + (0 + 1) + 1) by omega]
  | .arr i vs k, a, s, t, f + 1, h, ht, hf => by
    obtain ⟨body, rfl, rfl, rfl, hb⟩ := h
    rw [show 91 :: (body ++ [93]) ++ t = 91 :: (body ++ 93 :: t) by simp, parseVal, skip_stop (by decide)]
    simp only [List.length_cons, List.length_append, List.length_nil] at hf ⊢
    cases vs with
    | nil =>
      rw [skip_space (show IsSpace body from hb), skip_stop (by decide)]
      simp only
      rw [show i + 1 + body.length + 1 = i + (body.length + (0 + 1) + 1) by omega]
    | cons v vs =>
      have hp : ∃ w c s', IsSpace w ∧ body = w ++ c :: s' ∧ isWs c = false ∧ c ≠ 93 ∧ c ≠ 125 := by
        rcases hb with ⟨-, hp⟩ | ⟨-, s₁, s₂, rfl, hp, -⟩
        · exact head_skip hp (fun _ _ => json_head) []
        · obtain ⟨w, c, s', h1, rfl, h2⟩ := head_skip hp (fun _ _ => json_head) []
          exact ⟨w, c, s' ++ 44 :: s₂, h1, by simp, h2⟩
      have hfind := finds_elems (v :: vs) (i + 1) body t i [] f (by simp) hb (by omega)
      obtain ⟨w, c, s', h1, rfl, h2, h3, -⟩ := hp
      rw [List.append_assoc, elems_skip h1] at hfind
      rw [List.append_assoc, skip_space h1, List.cons_append, skip_stop h2]
      split
      · rename_i heq; cases heq; exact absurd rfl h3
      · rw [← List.cons_append, hfind]
        simp
        omega
  | .obj i ms k, a, s, t, f + 1, h, ht, hf => by
    obtain ⟨body, rfl, rfl, rfl, hb⟩ := h
    rw [show 123 :: (body ++ [125]) ++ t = 123 :: (body ++ 125 :: t) by simp, parseVal, skip_stop (by decide)]
    simp only [List.length_cons, List.length_append, List.length_nil] at hf ⊢
    cases ms with
    | nil =>
      rw [skip_space (show IsSpace body from hb), skip_stop (by decide)]
      simp only
      rw [show i + 1 + body.length + 1 = i + (body.length + (0 + 1) + 1) by omega]
    | cons m ms =>
      have hfind := finds_members (m :: ms) (i + 1) body t i [] f (by simp) hb (by omega)
      have hp : ∃ w c s', IsSpace w ∧ body = w ++ c :: s' ∧ isWs c = false ∧ c ≠ 93 ∧ c ≠ 125 := by
        obtain ⟨key, val, rest, rfl, hk, -⟩ := hb
        obtain ⟨w, c, s', h1, rfl, h2⟩ := head_skip hk (fun _ _ => string_head) []
        exact ⟨w, c, s' ++ 58 :: (val ++ rest), h1, by simp, h2⟩
      obtain ⟨w, c, s', h1, rfl, h2, -, h3⟩ := hp
      rw [List.append_assoc, members_skip h1] at hfind
      rw [List.append_assoc, skip_space h1, List.cons_append, skip_stop h2]
      split
      · rename_i heq; cases heq; exact absurd rfl h3
      · rw [← List.cons_append, hfind]
        simp
        omega
theorem finds_elems : ∀ (vs : List JVal) (a : Nat) (s t : Bytes) (i0 : Nat) (acc : List JVal) (f : Nat), vs ≠ [] → IsElems vs a s → s.length + 1 < f →
    parseElems f (s ++ 93 :: t) a i0 acc = some (.arr i0 (acc ++ vs) (a + s.length), t, a + s.length + 1)
  | v :: vs, a, s, t, i0, acc, f + 1, _, h, hf => by
    rcases h with ⟨rfl, hp⟩ | ⟨hvs, s₁, s₂, rfl, hp, hr⟩
    · obtain ⟨r, j, h1, h2⟩ := finds_padded (finds v) (t := 93 :: t) (f := f) hp (ends_of (by decide)) (by omega)
      rw [skip_stop (by decide)] at h2
      rw [parseElems, h1]
      simp only [h2]
    · simp only [List.length_append, List.length_cons] at hf ⊢
      obtain ⟨r, j, h1, h2⟩ := finds_padded (finds v) (t := 44 :: (s₂ ++ 93 :: t)) (f := f) hp (ends_of (by decide)) (by omega)
      rw [skip_stop (by decide)] at h2
      rw [parseElems, List.append_assoc, List.cons_append, h1]
      simp only [h2]
      rw [finds_elems vs _ s₂ t i0 _ f hvs hr (by omega)]
      simp
      omega
theorem finds_members : ∀ (ms : List ((Nat × Nat) × JVal)) (a : Nat) (s t : Bytes) (i0 : Nat) (acc : List ((Nat × Nat) × JVal)) (f : Nat),
    ms ≠ [] → IsMembers ms a s → s.length + 1 < f →
    parseMembers f (s ++ 125 :: t) a i0 acc = some (.obj i0 (acc ++ ms) (a + s.length), t, a + s.length + 1)
  | (k, v) :: ms, a, s, t, i0, acc, f + 1, _, h, hf => by
    obtain ⟨key, val, rest, rfl, ⟨w, u, w', rfl, h1, h2, raw, rfl, hc, hk⟩, hv, hr⟩ := h
    have hk' : k = (a + w.length, a + w.length + 1 + raw.length + 1) := by
      have hk' : k = _ := hk
      rw [hk']; simp; omega
    subst hk'
    have hs := scan_str hc (w' ++ 58 :: (val ++ (rest ++ 125 :: t))) (a + w.length + 1)
    simp only [List.append_assoc, List.cons_append, List.nil_append, List.length_append, List.length_cons] at hf ⊢
    rw [members_skip h1, parseMembers, skip_stop (by decide)]
    simp only [hs]
    rw [skip_space h2, skip_stop (by decide)]
    simp only
    have hv' : Padded (IsJson v) (a + w.length + 1 + raw.length + 1 + w'.length + 1) val := by
      refine (congrArg (fun p => Padded (IsJson v) p val) ?_).mp hv
      simp; omega
    rcases hr with ⟨rfl, rfl⟩ | ⟨hms, s₂, rfl, hr⟩
    · obtain ⟨r, j, h3, h4⟩ := finds_padded (finds v) (t := 125 :: t) (f := f) hv' (ends_of (by decide)) (by omega)
      rw [skip_stop (by decide)] at h4
      rw [List.nil_append, h3]
      simp only [h4]
      simp
      omega
    · simp only [List.length_cons] at hf ⊢
      obtain ⟨r, j, h3, h4⟩ := finds_padded (finds v) (t := 44 :: (s₂ ++ 125 :: t)) (f := f) hv' (ends_of (by decide)) (by omega)
      rw [skip_stop (by decide)] at h4
      rw [List.cons_append, h3]
      simp only [h4]
      have := finds_members ms _ s₂ t i0 (acc ++ [((a + w.length, a + w.length + 1 + raw.length + 1), v)]) f hms hr (by omega)
      rw [show a + List.length (w ++ 34 :: (raw ++ [34]) ++ w') + 1 + val.length + 1 = a + w.length + 1 + raw.length + 1 + w'.length + 1 + val.length + 1 by simp; omega] at this
      rw [this]
      simp
      omega
end

/-- Every JSON text is parsed to its tree. -/
theorem parse_doc {src : Bytes} {v : JVal} (h : IsDoc src v) : parseDoc src = some v := by
  obtain ⟨w, s, w', rfl, h1, h2, h3⟩ := h
  have he : Ends (w' ++ []) := ends_space h2 (by rintro c ⟨⟩)
  rw [List.append_nil] at he
  have := finds v _ s w' ((w ++ s ++ w').length + 1) h3 he (by simp; omega)
  rw [parseDoc, List.append_assoc, val_skip h1, ← List.append_assoc, this]
  have hs := skip_space h2 [] (0 + w.length + s.length)
  rw [List.append_nil] at hs
  simp only [hs]
  rfl

/-- A text has at most one tree. -/
theorem doc_unique {src : Bytes} {v v' : JVal} (h : IsDoc src v) (h' : IsDoc src v') : v = v' :=
  Option.some.inj ((parse_doc h).symm.trans (parse_doc h'))

end Verif.Proof.Json
