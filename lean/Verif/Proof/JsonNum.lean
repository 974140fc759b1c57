import Verif.Model.JsonNum
import Verif.Spec.Number
import Verif.Proof.Atoi
/-!
# The number scanner implements maximal munch of the JSON number grammar

Proof device: the minimal automaton of the grammar.
-/
namespace Verif.Proof.JsonNum
open Verif Verif.Spec Verif.Model.JsonNum

/-- States of the automaton. -/
inductive St
  | start | minus | zero | int | dot | frac | e | esign | exp
  deriving DecidableEq, Repr

def dig (c : UInt8) : Bool := !notDigit c

theorem dig_iff (c : UInt8) : dig c = true ↔ IsDigit c := by
  simp only [dig, notDigit, IsDigit, Bool.not_eq_true', Bool.or_eq_false_iff, decide_eq_false_iff_not, gt_iff_lt,
    UInt8.lt_iff_toNat_lt, Nat.not_lt]
  exact Iff.rfl

def isE (c : UInt8) : Bool := Model.JsonNum.isE c

theorem isE_iff (c : UInt8) : isE c = true ↔ (c = 101 ∨ c = 69) := by
  simp [isE, Model.JsonNum.isE]

def step : St → UInt8 → Option St
  | .start, c => if c = 45 then some .minus else if c = 48 then some .zero else if dig c then some .int else none
  | .minus, c => if c = 48 then some .zero else if dig c then some .int else none
  | .zero, c => if c = 46 then some .dot else if isE c then some .e else none
  | .int, c => if dig c then some .int else if c = 46 then some .dot else if isE c then some .e else none
  | .dot, c => if dig c then some .frac else none
  | .frac, c => if dig c then some .frac else if isE c then some .e else none
  | .e, c => if c = 45 ∨ c = 43 then some .esign else if dig c then some .exp else none
  | .esign, c => if dig c then some .exp else none
  | .exp, c => if dig c then some .exp else none

def acc : St → Bool
  | .zero | .int | .frac | .exp => true
  | _ => false

def run : St → Bytes → Option St
  | q, [] => some q
  | q, c :: cs => match step q c with | none => none | some q' => run q' cs

theorem run_append (q : St) (a b : Bytes) : run q (a ++ b) = (run q a).bind fun q' => run q' b := by
  induction a generalizing q with
  | nil => rfl
  | cons c cs ih =>
    simp only [List.cons_append, run]
    cases step q c with
    | none => rfl
    | some q' => exact ih q'

theorem dig48 : dig 48 = true := by decide
theorem not_dig_of_eq45 {c : UInt8} (h : c = 45) : dig c = false := by subst h; decide
theorem digit_ne {c : UInt8} (h : IsDigit c) : c ≠ 45 ∧ c ≠ 46 ∧ c ≠ 43 := by
  refine ⟨?_, ?_, ?_⟩ <;> (rintro rfl; simp [IsDigit] at h)

theorem run_digits (q : St) (hq : q = .int ∨ q = .frac ∨ q = .exp) (ds : Bytes) (h : ∀ c ∈ ds, IsDigit c) :
    run q ds = some q := by
  induction ds with
  | nil => rfl
  | cons c cs ih =>
    have hc := (dig_iff c).mpr (h c (by simp))
    have := ih fun c hc => h c (by simp [hc])
    rcases hq with rfl | rfl | rfl <;> simp [run, step, hc, this]

theorem natLit_run {i : Bytes} (h : IsNatLit i) (q : St) (hq : q = .start ∨ q = .minus) :
    run q i = some .zero ∨ run q i = some .int := by
  cases h with
  | zero => left; rcases hq with rfl | rfl <;> rfl
  | @cons c cs h1 h2 h3 =>
    right
    have hc := (dig_iff c).mpr h1
    have h45 := (digit_ne h1).1
    have := run_digits .int (by simp) cs h3
    rcases hq with rfl | rfl <;> simp [run, step, hc, h45, h2, this]

theorem isE_ne {c : UInt8} (h : isE c = true) : dig c = false ∧ c ≠ 46 := by
  rcases (isE_iff c).mp h with rfl | rfl <;> decide

theorem exp_run {e : Bytes} (h : IsExp e) (q : St) (hq : q = .zero ∨ q = .int ∨ q = .frac) :
    run q e = some q ∨ run q e = some .exp := by
  rcases h with rfl | ⟨c, sg, ds, rfl, hc, hsg, hds⟩
  · left; rfl
  · right
    have hc' := (isE_iff c).mpr hc
    obtain ⟨h1, h2⟩ := isE_ne hc'
    have hs : step q c = some .e := by rcases hq with rfl | rfl | rfl <;> simp [step, hc', h1, h2]
    obtain ⟨hne, hd⟩ := hds
    obtain ⟨d, ds', rfl⟩ := List.exists_cons_of_ne_nil hne
    have h1 := hd d (by simp)
    have hd1 := (dig_iff d).mpr h1
    obtain ⟨n1, n2, n3⟩ := digit_ne h1
    have h3 := run_digits .exp (by simp) ds' fun c hc => hd c (by simp [hc])
    simp only [run, hs]
    rcases hsg with rfl | rfl | rfl <;> simp [run, step, hd1, n1, n3, h3]

theorem isNumber_run {s : Bytes} (h : IsNumber s) : ∃ q, run .start s = some q ∧ acc q = true := by
  obtain ⟨sg, i, f, e, rfl, hsg, hi, hf, he⟩ := h
  have h1 : ∃ q, run .start sg = some q ∧ (q = .start ∨ q = .minus) := by
    rcases hsg with rfl | rfl
    · exact ⟨.start, rfl, by simp⟩
    · exact ⟨.minus, rfl, by simp⟩
  obtain ⟨q1, e1, hq1⟩ := h1
  have h2 : ∃ q, run q1 i = some q ∧ (q = .zero ∨ q = .int) := by
    rcases natLit_run hi q1 hq1 with h | h <;> exact ⟨_, h, by simp⟩
  obtain ⟨q2, e2, hq2⟩ := h2
  have h3 : ∃ q, run q2 f = some q ∧ (q = .zero ∨ q = .int ∨ q = .frac) := by
    rcases hf with rfl | ⟨ds, rfl, hne, hd⟩
    · exact ⟨q2, rfl, by rcases hq2 with rfl | rfl <;> simp⟩
    · refine ⟨.frac, ?_, by simp⟩
      obtain ⟨d, ds', rfl⟩ := List.exists_cons_of_ne_nil hne
      have hd1 := (dig_iff d).mpr (hd d (by simp))
      have h3 := run_digits .frac (by simp) ds' fun c hc => hd c (by simp [hc])
      have : dig 46 = false := by decide
      rcases hq2 with rfl | rfl <;> simp [run, step, hd1, h3, this]
  obtain ⟨q3, e3, hq3⟩ := h3
  rw [run_append, run_append, run_append, e1]
  simp only [Option.bind_some, e2, e3]
  rcases exp_run he q3 hq3 with h | h
  · exact ⟨q3, h, by rcases hq3 with rfl | rfl | rfl <;> rfl⟩
  · exact ⟨_, h, rfl⟩

/-- The words leading from the start to each state. -/
def Lang : St → Bytes → Prop
  | .start, p => p = []
  | .minus, p => p = [45]
  | .zero, p => ∃ sg, IsSign sg ∧ p = sg ++ [48]
  | .int, p => ∃ sg i, IsSign sg ∧ IsNatLit i ∧ i ≠ [48] ∧ p = sg ++ i
  | .dot, p => ∃ sg i, IsSign sg ∧ IsNatLit i ∧ p = sg ++ i ++ [46]
  | .frac, p => ∃ sg i ds, IsSign sg ∧ IsNatLit i ∧ IsDigits ds ∧ p = sg ++ i ++ (46 :: ds)
  | .e, p => ∃ sg i f c, IsSign sg ∧ IsNatLit i ∧ IsFrac f ∧ (c = 101 ∨ c = 69) ∧ p = sg ++ i ++ f ++ [c]
  | .esign, p => ∃ sg i f c s, IsSign sg ∧ IsNatLit i ∧ IsFrac f ∧ (c = 101 ∨ c = 69) ∧ (s = 45 ∨ s = 43) ∧
      p = sg ++ i ++ f ++ [c, s]
  | .exp, p => ∃ sg i f e, IsSign sg ∧ IsNatLit i ∧ IsFrac f ∧ IsExp e ∧ e ≠ [] ∧ p = sg ++ i ++ f ++ e

theorem isDigits_snoc {ds : Bytes} {c : UInt8} (h : IsDigits ds) (hc : IsDigit c) : IsDigits (ds ++ [c]) := by
  refine ⟨by simp, ?_⟩
  intro x hx
  rcases List.mem_append.mp hx with hx | hx
  · exact h.2 x hx
  · rw [List.mem_singleton.mp hx]; exact hc

theorem natLit_snoc {i : Bytes} {c : UInt8} (h : IsNatLit i) (hi : i ≠ [48]) (hc : IsDigit c) :
    IsNatLit (i ++ [c]) ∧ i ++ [c] ≠ [48] := by
  cases h with
  | zero => exact absurd rfl hi
  | @cons d ds h1 h2 h3 =>
    refine ⟨.cons h1 h2 ?_, by simp⟩
    intro x hx
    rcases List.mem_append.mp hx with hx | hx
    · exact h3 x hx
    · rw [List.mem_singleton.mp hx]; exact hc

theorem lang_step {q q' : St} {p : Bytes} {c : UInt8} (h : Lang q p) (hs : step q c = some q') :
    Lang q' (p ++ [c]) := by
  cases q <;> simp only [step] at hs
  case start =>
    simp only [Lang] at h; subst h
    split at hs
    · next h => subst h; cases hs; simp [Lang]
    · split at hs
      · next h => subst h; cases hs; exact ⟨[], Or.inl rfl, rfl⟩
      · split at hs
        · next h0 h => cases hs; exact ⟨[], [c], Or.inl rfl, .cons ((dig_iff c).mp h) h0 (by simp), by simpa using h0, rfl⟩
        · cases hs
  case minus =>
    simp only [Lang] at h; subst h
    split at hs
    · next h => subst h; cases hs; exact ⟨[45], Or.inr rfl, rfl⟩
    · split at hs
      · next h0 h => cases hs; exact ⟨[45], [c], Or.inr rfl, .cons ((dig_iff c).mp h) h0 (by simp), by simpa using h0, rfl⟩
      · cases hs
  case zero =>
    obtain ⟨sg, hsg, rfl⟩ := h
    split at hs
    · next h => subst h; cases hs; exact ⟨sg, [48], hsg, .zero, rfl⟩
    · split at hs
      · next h => cases hs; exact ⟨sg, [48], [], c, hsg, .zero, Or.inl rfl, (isE_iff c).mp h, by simp⟩
      · cases hs
  case int =>
    obtain ⟨sg, i, hsg, hi, hne, rfl⟩ := h
    split at hs
    · next h =>
      cases hs
      obtain ⟨a, b⟩ := natLit_snoc hi hne ((dig_iff c).mp h)
      exact ⟨sg, i ++ [c], hsg, a, b, by simp⟩
    · split at hs
      · next h => subst h; cases hs; exact ⟨sg, i, hsg, hi, rfl⟩
      · split at hs
        · next h => cases hs; exact ⟨sg, i, [], c, hsg, hi, Or.inl rfl, (isE_iff c).mp h, by simp⟩
        · cases hs
  case dot =>
    obtain ⟨sg, i, hsg, hi, rfl⟩ := h
    split at hs
    · next h => cases hs; exact ⟨sg, i, [c], hsg, hi, ⟨by simp, by simpa using (dig_iff c).mp h⟩, by simp⟩
    · cases hs
  case frac =>
    obtain ⟨sg, i, ds, hsg, hi, hds, rfl⟩ := h
    split at hs
    · next h => cases hs; exact ⟨sg, i, ds ++ [c], hsg, hi, isDigits_snoc hds ((dig_iff c).mp h), by simp⟩
    · split at hs
      · next h =>
        cases hs
        exact ⟨sg, i, 46 :: ds, c, hsg, hi, Or.inr ⟨ds, rfl, hds⟩, (isE_iff c).mp h, by simp⟩
      · cases hs
  case e =>
    obtain ⟨sg, i, f, d, hsg, hi, hf, hd, rfl⟩ := h
    split at hs
    · next h => cases hs; exact ⟨sg, i, f, d, c, hsg, hi, hf, hd, h, by simp⟩
    · split at hs
      · next h =>
        cases hs
        exact ⟨sg, i, f, [d, c], hsg, hi, hf,
          Or.inr ⟨d, [], [c], rfl, hd, Or.inl rfl, by simp, by simpa using (dig_iff c).mp h⟩, by simp, by simp⟩
      · cases hs
  case esign =>
    obtain ⟨sg, i, f, d, s, hsg, hi, hf, hd, hs', rfl⟩ := h
    split at hs
    · next h =>
      cases hs
      exact ⟨sg, i, f, [d, s, c], hsg, hi, hf,
        Or.inr ⟨d, [s], [c], rfl, hd, by rcases hs' with rfl | rfl <;> simp, by simp,
          by simpa using (dig_iff c).mp h⟩, by simp, by simp⟩
    · cases hs
  case exp =>
    obtain ⟨sg, i, f, e, hsg, hi, hf, he, hne, rfl⟩ := h
    split at hs
    · next h =>
      cases hs
      rcases he with rfl | ⟨d, s, ds, rfl, hd, hs', hds⟩
      · exact absurd rfl hne
      · exact ⟨sg, i, f, d :: (s ++ (ds ++ [c])), hsg, hi, hf,
          Or.inr ⟨d, s, ds ++ [c], rfl, hd, hs', isDigits_snoc hds ((dig_iff c).mp h)⟩, by simp, by simp⟩
    · cases hs

theorem lang_run {q q' : St} {p s : Bytes} (h : Lang q p) (hs : run q s = some q') : Lang q' (p ++ s) := by
  induction s generalizing q p with
  | nil => cases hs; simpa using h
  | cons c cs ih =>
    simp only [run] at hs
    cases hq : step q c with
    | none => rw [hq] at hs; cases hs
    | some q1 =>
      rw [hq] at hs
      have := ih (lang_step h hq) hs
      simpa using this

theorem lang_number {q : St} {p : Bytes} (h : Lang q p) (ha : acc q = true) : IsNumber p := by
  cases q <;> simp [acc] at ha
  case zero => obtain ⟨sg, hsg, rfl⟩ := h; exact ⟨sg, [48], [], [], by simp, hsg, .zero, Or.inl rfl, Or.inl rfl⟩
  case int => obtain ⟨sg, i, hsg, hi, _, rfl⟩ := h; exact ⟨sg, i, [], [], by simp, hsg, hi, Or.inl rfl, Or.inl rfl⟩
  case frac =>
    obtain ⟨sg, i, ds, hsg, hi, hds, rfl⟩ := h
    exact ⟨sg, i, 46 :: ds, [], by simp, hsg, hi, Or.inr ⟨ds, rfl, hds⟩, Or.inl rfl⟩
  case exp => obtain ⟨sg, i, f, e, hsg, hi, hf, he, _, rfl⟩ := h; exact ⟨sg, i, f, e, rfl, hsg, hi, hf, he⟩

theorem number_iff (s : Bytes) : IsNumber s ↔ ∃ q, run .start s = some q ∧ acc q = true := by
  refine ⟨isNumber_run, ?_⟩
  rintro ⟨q, h, ha⟩
  have := lang_run (q := .start) (p := []) rfl h
  exact lang_number this ha

/-- A shortest completion for each state. -/
def completion : St → Bytes
  | .start | .minus | .dot | .e | .esign => [48]
  | _ => []

theorem completion_acc (q : St) : ∃ q', run q (completion q) = some q' ∧ acc q' = true := by
  cases q <;> simp [completion, run, step, dig48, acc]

theorem viable_iff (p : Bytes) : Viable p ↔ (run .start p).isSome := by
  constructor
  · rintro ⟨t, h⟩
    obtain ⟨q, h, _⟩ := isNumber_run h
    rw [run_append] at h
    cases hr : run .start p with
    | none => rw [hr] at h; cases h
    | some _ => rfl
  · intro h
    obtain ⟨q, hq⟩ := Option.isSome_iff_exists.mp h
    obtain ⟨q', h1, h2⟩ := completion_acc q
    exact ⟨completion q, (number_iff _).mpr ⟨q', by rw [run_append, hq]; exact h1, h2⟩⟩

theorem integer_state {s : Bytes} {q : St} (h : run .start s = some q) (ha : acc q = true) :
    IsInteger s ↔ (q = .zero ∨ q = .int) := by
  constructor
  · rintro ⟨sg, i, rfl, hsg, hi⟩
    have h1 : ∃ q, run .start sg = some q ∧ (q = .start ∨ q = .minus) := by
      rcases hsg with rfl | rfl
      · exact ⟨.start, rfl, by simp⟩
      · exact ⟨.minus, rfl, by simp⟩
    obtain ⟨q1, e1, hq1⟩ := h1
    rw [run_append, e1, Option.bind_some] at h
    rcases natLit_run hi q1 hq1 with h' | h' <;> (rw [h'] at h; cases h; simp)
  · have := lang_run (q := .start) (p := []) rfl h
    rw [List.nil_append] at this
    rintro (rfl | rfl)
    · obtain ⟨sg, hsg, rfl⟩ := this; exact ⟨sg, [48], rfl, hsg, .zero⟩
    · obtain ⟨sg, i, hsg, hi, _, rfl⟩ := this; exact ⟨sg, i, rfl, hsg, hi⟩

/-- Run as far as possible. -/
def munch : St → Bytes → St × Bytes
  | q, [] => (q, [])
  | q, c :: cs => match step q c with | none => (q, c :: cs) | some q' => munch q' cs

theorem munch_run (q : St) (s : Bytes) : ∃ p, s = p ++ (munch q s).2 ∧ run q p = some (munch q s).1 ∧
    ∀ c cs, (munch q s).2 = c :: cs → step (munch q s).1 c = none := by
  induction s generalizing q with
  | nil => exact ⟨[], rfl, rfl, by intro c cs h; cases h⟩
  | cons c cs ih =>
    simp only [munch]
    cases h : step q c with
    | none =>
      refine ⟨[], rfl, rfl, ?_⟩
      intro c' cs' e; cases e; exact h
    | some q' =>
      obtain ⟨p, h1, h2, h3⟩ := ih q'
      refine ⟨c :: p, ?_, ?_, h3⟩
      · simp only [List.cons_append]; rw [← h1]
      · simp only [run, h, h2]

/-- The return code belonging to a state. -/
def rcOf : St → RC
  | .zero | .int => .integer
  | .frac | .exp => .number
  | _ => .err

/-- Agreement of a scanner result with the automaton: same return code, and the same rest on success. -/
def Agree (r : Bytes × RC) (m : St × Bytes) : Prop := r.2 = rcOf m.1 ∧ (acc m.1 = true → r.1 = m.2)


theorem nd_iff (c : UInt8) : notDigit c = !dig c := by simp [dig]

theorem munch_dig {q : St} (hq : q = .int ∨ q = .frac ∨ q = .exp) {c : UInt8} {cs : Bytes}
    (h : notDigit c = false) : munch q (c :: cs) = munch q cs := by
  have : dig c = true := by simp [dig, h]
  rcases hq with rfl | rfl | rfl <;> simp [munch, step, this]

theorem munch_exp_stop {c : UInt8} {cs : Bytes} (h : notDigit c = true) :
    munch .exp (c :: cs) = (.exp, c :: cs) := by
  have : dig c = false := by simp [dig, h]
  simp [munch, step, this]

theorem munch_frac_e {c : UInt8} {cs : Bytes} (h : notDigit c = true) (he : Model.JsonNum.isE c = true) :
    munch .frac (c :: cs) = munch .e cs := by
  have : dig c = false := by simp [dig, h]
  simp [munch, step, this, isE, he]

theorem munch_frac_stop {c : UInt8} {cs : Bytes} (h : notDigit c = true)
    (he : ¬ Model.JsonNum.isE c = true) : munch .frac (c :: cs) = (.frac, c :: cs) := by
  have : dig c = false := by simp [dig, h]
  simp [munch, step, this, isE, he]

theorem munch_int_e {c : UInt8} {cs : Bytes} (h : notDigit c = true) (he : Model.JsonNum.isE c = true) :
    munch .int (c :: cs) = munch .e cs := by
  have : dig c = false := by simp [dig, h]
  have h46 := (isE_ne (c := c) he).2
  simp [munch, step, this, isE, he, h46]

theorem munch_int_dot {c : UInt8} {cs : Bytes} (h : (c == 46) = true) :
    munch .int (c :: cs) = munch .dot cs := by
  have : c = 46 := by simpa using h
  subst this
  simp [munch, step, show dig 46 = false by decide]

theorem munch_int_stop {c : UInt8} {cs : Bytes} (h : notDigit c = true)
    (he : ¬ Model.JsonNum.isE c = true) (h46 : ¬ (c == 46) = true) : munch .int (c :: cs) = (.int, c :: cs) := by
  have : dig c = false := by simp [dig, h]
  have h46' : c ≠ 46 := by simpa using h46
  simp [munch, step, this, isE, he, h46']

theorem agree_refl {q : St} {t : Bytes} {rc : RC} (h : rc = rcOf q) : Agree (t, rc) (q, t) := ⟨h, fun _ => rfl⟩

theorem expTail_agree (s cs : Bytes) (i : Nat) (h : s.drop i = cs) :
    Agree (expTail s cs i) (munch .exp cs) := by
  induction cs generalizing i with
  | nil => simp only [expTail, munch, h]; exact agree_refl rfl
  | cons c cs ih =>
    simp only [expTail]
    split
    · next hd => rw [munch_exp_stop hd, h]; exact agree_refl rfl
    · next hd =>
      rw [munch_dig (by simp) (by simpa using hd)]
      refine ih (i + 1) ?_
      rw [← List.drop_drop, h]; rfl

theorem expLoop_agree (s : Bytes) : Agree (expLoop s) (munch .exp s) := by
  fun_induction expLoop s
  all_goals first
    | exact expTail_agree _ _ 0 rfl
    | skip
  all_goals
    simp_all only [Bool.not_eq_true, munch_dig (q := .exp) (by simp), munch_exp_stop]
  all_goals exact agree_refl rfl

theorem exponentSign_agree (s : Bytes) : Agree (exponentSign s) (munch .e s) := by
  have key : ∀ t : Bytes, ∀ q, (q = .e ∧ (∀ c cs, t = c :: cs → ¬ (c = 45 ∨ c = 43)) ∨ q = .esign) →
      Agree (match t with
        | [] => (t, RC.err)
        | d :: ds => if notDigit d then (t, .err) else expLoop ds) (munch q t) := by
    intro t q hq
    cases t with
    | nil => rcases hq with ⟨rfl, _⟩ | rfl <;> exact ⟨rfl, by simp [munch, acc]⟩
    | cons d ds =>
      dsimp only
      split
      · next h =>
        have hd : dig d = false := by simp [dig, h]
        rcases hq with ⟨rfl, h2⟩ | rfl
        · have := h2 d ds rfl
          refine ⟨?_, ?_⟩ <;> simp [munch, step, hd, this, rcOf, acc]
        · refine ⟨?_, ?_⟩ <;> simp [munch, step, hd, rcOf, acc]
      · next h =>
        have hd : dig d = true := by simpa [dig] using h
        have : munch q (d :: ds) = munch .exp ds := by
          rcases hq with ⟨rfl, h2⟩ | rfl
          · have := h2 d ds rfl
            simp [munch, step, hd, this]
          · simp [munch, step, hd]
        rw [this]; exact expLoop_agree ds
  unfold exponentSign
  cases s with
  | nil => exact ⟨rfl, by simp [munch, acc]⟩
  | cons c cs =>
    dsimp only
    by_cases h : (c == 45 || c == 43) = true
    · rw [if_pos h]
      have hc : c = 45 ∨ c = 43 := by simpa using h
      have : munch .e (c :: cs) = munch .esign cs := by simp [munch, step, hc]
      rw [this]; exact key cs .esign (Or.inr rfl)
    · rw [if_neg h]
      have hc : ¬ (c = 45 ∨ c = 43) := by simpa using h
      refine key (c :: cs) .e (Or.inl ⟨rfl, ?_⟩)
      intro c' cs' e; cases e; exact hc

theorem fracTail_agree (s cs : Bytes) (i : Nat) (h : s.drop i = cs) :
    Agree (fracTail s cs i) (munch .frac cs) := by
  induction cs generalizing i with
  | nil => simp only [fracTail, munch, h]; exact agree_refl rfl
  | cons c cs ih =>
    have h' : s.drop (i + 1) = cs := by rw [← List.drop_drop, h]; rfl
    simp only [fracTail]
    split
    · next hd =>
      split
      · next he => rw [munch_frac_e hd he, h']; exact exponentSign_agree cs
      · next he => rw [munch_frac_stop hd he, h]; exact agree_refl rfl
    · next hd =>
      rw [munch_dig (by simp) (by simpa using hd)]
      exact ih (i + 1) h'

theorem fracLoop_agree (s : Bytes) : Agree (fracLoop s) (munch .frac s) := by
  fun_induction fracLoop s
  all_goals first
    | exact fracTail_agree _ _ 0 rfl
    | skip
  all_goals
    try simp_all only [Bool.not_eq_true, munch_dig (q := .frac) (by simp)]
  all_goals first
    | (rw [munch_frac_e (by assumption) (by assumption)]; exact exponentSign_agree _)
    | (rw [munch_frac_stop (by assumption) (by simp; assumption)]; exact agree_refl rfl)

theorem fraction_agree (s : Bytes) : Agree (fraction s) (munch .dot s) := by
  unfold fraction
  cases s with
  | nil => exact ⟨rfl, by simp [munch, acc]⟩
  | cons c cs =>
    dsimp only
    split
    · next h =>
      have hd : dig c = false := by simp [dig, h]
      refine ⟨?_, ?_⟩ <;> simp [munch, step, hd, rcOf, acc]
    · next h =>
      have hd : dig c = true := by simpa [dig] using h
      have : munch .dot (c :: cs) = munch .frac cs := by simp [munch, step, hd]
      rw [this]; exact fracLoop_agree cs

theorem intTail_agree (s cs : Bytes) (i : Nat) (h : s.drop i = cs) :
    Agree (intTail s cs i) (munch .int cs) := by
  induction cs generalizing i with
  | nil => simp only [intTail, munch, h]; exact agree_refl rfl
  | cons c cs ih =>
    have h' : s.drop (i + 1) = cs := by rw [← List.drop_drop, h]; rfl
    simp only [intTail]
    split
    · next hd =>
      split
      · next he => rw [munch_int_e hd he, h']; exact exponentSign_agree cs
      · next he =>
        split
        · next h46 => rw [munch_int_dot h46, h']; exact fraction_agree cs
        · next h46 => rw [munch_int_stop hd he h46, h]; exact agree_refl rfl
    · next hd =>
      rw [munch_dig (by simp) (by simpa using hd)]
      exact ih (i + 1) h'

theorem intLoop_agree (s : Bytes) : Agree (intLoop s) (munch .int s) := by
  fun_induction intLoop s
  all_goals first
    | exact intTail_agree _ _ 0 rfl
    | skip
  all_goals
    try simp only [Bool.not_eq_true] at *
    try simp only [munch_dig (q := .int) (by simp), *]
  all_goals first
    | (rw [munch_int_e (by assumption) (by assumption)]; exact exponentSign_agree _)
    | (rw [munch_int_dot (by assumption)]; exact fraction_agree _)
    | (rw [munch_int_stop (by assumption) (by simp only [Bool.not_eq_true]; assumption) (by simp only [Bool.not_eq_true]; assumption)]; exact agree_refl rfl)

theorem unsigned_agree (c : UInt8) (cs : Bytes) (q : St) (hq : q = .minus ∨ (q = .start ∧ c ≠ 45)) :
    ∃ r, unsignedNumber (c :: cs) = some r ∧ Agree r (munch q (c :: cs)) := by
  unfold unsignedNumber
  dsimp only
  split
  · next h =>
    have hc : c = 48 := by simpa using h
    subst hc
    have hm : munch q (48 :: cs) = munch .zero cs := by
      rcases hq with rfl | ⟨rfl, _⟩ <;> simp [munch, step]
    rw [hm]
    cases cs with
    | nil => exact ⟨_, rfl, agree_refl rfl⟩
    | cons d ds =>
      dsimp only
      split
      · next h =>
        have : d = 46 := by simpa using h
        subst this
        have : munch .zero (46 :: ds) = munch .dot ds := by simp [munch, step]
        exact ⟨_, rfl, this ▸ fraction_agree ds⟩
      · next h46 =>
        have h46' : d ≠ 46 := by simpa using h46
        split
        · next h =>
          have : munch .zero (d :: ds) = munch .e ds := by simp [munch, step, h46', isE, h]
          exact ⟨_, rfl, this ▸ exponentSign_agree ds⟩
        · next h =>
          have : munch .zero (d :: ds) = (.zero, d :: ds) := by simp [munch, step, h46', isE, h]
          exact ⟨_, rfl, this ▸ agree_refl rfl⟩
  · next h48 =>
    have h48' : c ≠ 48 := by simpa using h48
    have hd : (decide (c < 49) || decide (c > 57)) = !dig c := by
      have : c.toNat ≠ 48 := fun e => h48' (UInt8.toNat_inj.mp (by simpa using e))
      rw [Bool.eq_iff_iff]
      simp only [dig, notDigit, Bool.or_eq_true, decide_eq_true_eq, gt_iff_lt, UInt8.lt_iff_toNat_lt, Bool.not_not]
      simp; omega
    rw [hd]
    split
    · next h =>
      have hd : dig c = false := by simpa using h
      refine ⟨_, rfl, ?_⟩
      rcases hq with rfl | ⟨rfl, h45⟩ <;> refine ⟨?_, ?_⟩ <;> simp [munch, step, hd, *, rcOf, acc]
    · next h =>
      have hd : dig c = true := by simpa using h
      have : munch q (c :: cs) = munch .int cs := by
        rcases hq with rfl | ⟨rfl, h45⟩ <;> simp [munch, step, hd, h48', *]
      exact ⟨_, rfl, this ▸ intLoop_agree cs⟩

theorem readNumber_agree (s : Bytes) (hs : s ≠ []) :
    ∃ r, readNumber s = some r ∧ Agree r (munch .start s) := by
  obtain ⟨c, cs, rfl⟩ := List.exists_cons_of_ne_nil hs
  unfold readNumber
  dsimp only
  split
  · next h =>
    have hc : c = 45 := by simpa using h
    subst hc
    have hm : munch .start (45 :: cs) = munch .minus cs := by simp [munch, step]
    rw [hm]
    cases cs with
    | nil => exact ⟨_, rfl, rfl, by simp [munch, acc]⟩
    | cons d ds => simpa using unsigned_agree d ds .minus (Or.inl rfl)
  · next h =>
    have hc : c ≠ 45 := by simpa using h
    exact unsigned_agree c cs .start (Or.inr ⟨rfl, hc⟩)

theorem rcOf_err (q : St) : rcOf q = .err ↔ acc q = false := by cases q <;> simp [rcOf, acc]

/-- The scanner computes the longest viable prefix and judges it. -/
theorem readNumber_longest (s : Bytes) (hs : s ≠ []) :
    ∃ q t rc r, readNumber s = some (r, rc) ∧ s = q ++ t ∧ LongestViable q s ∧
      (rc = .err ↔ ¬ IsNumber q) ∧ (rc = .integer ↔ IsInteger q) ∧ (IsNumber q → r = t) := by
  obtain ⟨⟨r, rc⟩, h1, h2, h3⟩ := readNumber_agree s hs
  obtain ⟨p, e1, e2, e3⟩ := munch_run .start s
  have hnum : IsNumber p ↔ acc (munch .start s).1 = true := by
    rw [number_iff]
    constructor
    · rintro ⟨q, hq, ha⟩; rw [e2] at hq; cases hq; exact ha
    · intro ha; exact ⟨_, e2, ha⟩
  refine ⟨p, (munch .start s).2, rc, r, h1, e1, ⟨⟨_, e1.symm⟩, ?_, ?_⟩, ?_, ?_, ?_⟩
  · rw [viable_iff, e2]; rfl
  · intro q' hq' hv
    rcases Nat.lt_or_ge p.length q'.length with hl | hl
    · exfalso
      obtain ⟨t', ht'⟩ := hq'
      have hp : p <+: q' := by
        refine List.prefix_of_prefix_length_le ⟨_, e1.symm⟩ ⟨t', ht'⟩ (by omega)
      obtain ⟨u, hu⟩ := hp
      cases u with
      | nil => simp at hu; subst hu; omega
      | cons c cs =>
        rw [viable_iff, ← hu, run_append, e2, Option.bind_some] at hv
        have h5 : p ++ (munch .start s).2 = p ++ (c :: (cs ++ t')) := by
          rw [← e1, ← ht', ← hu]; simp
        have h6 := List.append_cancel_left h5
        simp only [run, e3 _ _ h6] at hv
        cases hv
    · exact hl
  · simp only at h2; rw [h2, rcOf_err, hnum]; simp
  · simp only at h2
    rw [h2]
    by_cases ha : acc (munch .start s).1 = true
    · rw [integer_state e2 ha]
      revert ha; cases (munch .start s).1 <;> simp [rcOf, acc]
    · constructor
      · intro h; exfalso; revert h ha; cases (munch .start s).1 <;> simp [rcOf, acc]
      · rintro ⟨sg, i, rfl, hsg, hi⟩
        exact absurd (hnum.mp ⟨sg, i, [], [], by simp, hsg, hi, Or.inl rfl, Or.inl rfl⟩) ha
  · intro hn; exact h3 (hnum.mp hn)

theorem longest_unique {q q' s : Bytes} (h : LongestViable q s) (h' : LongestViable q' s) : q = q' := by
  have l1 := h.2.2 q' h'.1 h'.2.1
  have l2 := h'.2.2 q h.1 h.2.1
  exact (List.prefix_of_prefix_length_le h.1 h'.1 l2).eq_of_length (by omega)

theorem number_viable {q : Bytes} (h : IsNumber q) : Viable q := ⟨[], by simpa using h⟩

end Verif.Proof.JsonNum
