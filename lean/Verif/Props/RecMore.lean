import Verif.Proof.RecOutcome
import Verif.Proof.NoUnknown
import Verif.Props.RecTypes
import Verif.Props.Twice
import Verif.Props.Reorder
/-!
# Recursive struct types: C24, C25, C32, C48 and C57

Documents within `TameR`, of any depth, into a recursive struct type (see `Props/RecTypes`).
-/
namespace Verif.Props
open Verif.Model Verif.Spec Verif.Big Verif.Proof Verif.Proof.Reads Verif.Proof.Demo Verif.Proof.Means

/-- **C25** for recursive struct types: `Decode` reads the document as it is read for the type unrolled to the depth of the document, a finite tree of structs: the same value, or an error of the same kind at
the same byte. -/
theorem C25_recursive_partial {x : Ext} {size : Nat} {fs : RFields} {d : Decoder} (hd : RecDecoder x size fs d) {src : Bytes} {v : JVal} {mem : Block} {V : Val} {n : Nat}
    (hm : Dest x (unroll size fs (n + 1)) mem V) {o : Option Options} (ht : TameR x src o fs n true true v) :
    match decV x src o (unroll size fs (n + 1)) v V with
    | .ok V' => Returns x (unroll size fs (n + 1)) (decode x d src (.ok v) (some mem) o) (-1) none V'
    | .err i e _ => ∃ V', Returns x (unroll size fs (n + 1)) (decode x d src (.ok v) (some mem) o) i (some e) V'
    | .crash => decode x d src (.ok v) (some mem) o = none
    | .unsup => False := RecIdeal.outcome hd hm ht

/-- **C24** for recursive struct types: on a well-formed document `Decode` returns and leaves a value of the type. -/
theorem C24_recursive_partial {x : Ext} {size : Nat} {fs : RFields} {d : Decoder} (hd : RecDecoder x size fs d) {src : Bytes} {v : JVal} (hw : Wf src v) {mem : Block} {V : Val} {n : Nat}
    (hm : Dest x (unroll size fs (n + 1)) mem V) {o : Options} (ht : TameR x src (some o) fs n true true v)
    (hc : callableR fs = true) (hq : noQuotedNumR fs = true ∨ noEmptyStr v = true) :
    ∃ i e V', Returns x (unroll size fs (n + 1)) (decode x d src (.ok v) (some mem) (some o)) i e V' := by
  have h := RecIdeal.outcome hd hm ht
  have hs := Safe.decV_safe (x := x) (o := o) _ (Safe.holds_typed _ hm.2) hw (RecIdeal.callable_unroll hc (n + 1)) (hq.imp (fun h => RecIdeal.noQuoted_unroll h (n + 1)) id)
  cases hr : decV x src (some o) (unroll size fs (n + 1)) v V <;> rw [hr] at h hs
  · exact ⟨_, _, _, h⟩
  · obtain ⟨V', h⟩ := h; exact ⟨_, _, _, h⟩
  · exact hs.elim
  · exact h.elim

/-- **C48** for recursive struct types: decoding the document again into its result changes nothing. -/
theorem C48_recursive_partial {x : Ext} (hx : MethodsTwice x) {size : Nat} {fs : RFields} {d : Decoder} (hd : RecDecoder x size fs d) {src : Bytes} {v : JVal} (hw : Wf src v) {mem : Block} {V : Val} {n : Nat}
    (hm : Dest x (unroll size fs (n + 1)) mem V) {o : Options} (ht : TameR x src (some o) fs n true true v) (ho : Once x src o (unroll size fs (n + 1)) v) (hk : Keyed x src o (unroll size fs (n + 1)) v)
    {r : DecodeRes} (hr : decode x d src (.ok v) (some mem) (some o) = some r) (he : r.err = none) :
    ∃ mem' V', r.mem = some mem' ∧ Dest x (unroll size fs (n + 1)) mem' V' ∧ Returns x (unroll size fs (n + 1)) (decode x r.dec src (.ok v) (some mem') (some o)) (-1) none V' := by
  obtain ⟨V', mem', h1, -, h3, h4⟩ := RecIdeal.ok_inv hd hm ht hr he
  exact ⟨mem', V', h3, h4, RecIdeal.returns_ok (.call hd ht hm hr he) h4 ht (Twice.dec_twice hx _ hw ho hk (Safe.holds_typed _ hm.2) h1)⟩

/-- **C57** for recursive struct types: the order of the members of objects does not matter, if the reordered document does not reach what `TameR` excludes either. -/
theorem C57_recursive_partial {x : Ext} {size : Nat} {fs : RFields} {d d' : Decoder} (hd : RecDecoder x size fs d) (hd' : RecDecoder x size fs d') {src src' : Bytes} {v v' : JVal} (hw : Wf src v) (hw' : Wf src' v')
    {n : Nat} (hr : Reordered src src' v v') {o : Options} (hn : NoDuplicates x src o (unroll size fs (n + 1)) v) (ht : TameR x src (some o) fs n true true v) (ht' : TameR x src' (some o) fs n true true v')
    (hx : ∀ rt, JsonIn rt (unroll size fs (n + 1)) → Unordered x src src' rt) {mem mem' : Block} {V W : Val} (hm : Dest x (unroll size fs (n + 1)) mem V) (hm' : Dest x (unroll size fs (n + 1)) mem' V)
    (h : Returns x (unroll size fs (n + 1)) (decode x d src (.ok v) (some mem) (some o)) (-1) none W) :
    ∃ W', Returns x (unroll size fs (n + 1)) (decode x d' src' (.ok v') (some mem') (some o)) (-1) none W' ∧ GoEq W W' := by
  obtain ⟨hn, ho, hk⟩ := hn
  obtain ⟨W', g1, g2⟩ := Reorder.dec_re _ hx hw hw' hr hn ho hk (Safe.holds_typed _ hm.2) (RecIdeal.returns_inv hd hm ht h)
  exact ⟨W', RecIdeal.returns_ok hd' hm' ht' g1, g2⟩

/-- **C32** for recursive struct types, some unknown key: `Decode` returns ErrUnknownField at the first of them, unless it fails (with another error) or panics before that, exactly as without DisallowUnknownFields. -/
theorem C32_recursive_partial {x : Ext} {size : Nat} {fs : RFields} {d d' : Decoder} (hd : RecDecoder x size fs d) (hd' : RecDecoder x size fs d') {src : Bytes} {v : JVal} (hw : Wf src v) {mem : Block} {V : Val}
    {n : Nat} (hm : Dest x (unroll size fs (n + 1)) mem V) {o : Options} {k : Nat} {L : List Nat} (hL : UnknownKeys x src o (unroll size fs (n + 1)) v (k :: L)) (ht : TameR x src (some (lenient o)) fs n true true v) :
    (∃ V', Returns x (unroll size fs (n + 1)) (decode x d src (.ok v) (some mem) (some (strict o))) k (some .unknownField) V') ∨
    (∃ (i : Int) (e : Err), e ≠ .unknownField ∧ (∃ V', Returns x (unroll size fs (n + 1)) (decode x d src (.ok v) (some mem) (some (strict o))) i (some e) V') ∧
      ∃ V', Returns x (unroll size fs (n + 1)) (decode x d' src (.ok v) (some mem) (some (lenient o))) i (some e) V') ∨
    (decode x d src (.ok v) (some mem) (some (strict o)) = none ∧ decode x d' src (.ok v) (some mem) (some (lenient o)) = none) := by
  have ht' := RecIdeal.tameR_to_strict n true true v ht
  have h : Unknown.Lax (k :: L) _ _ := Unknown.dec_lax _ (Safe.holds_typed _ hm.2) hw hL
  have h1 := RecIdeal.outcome hd hm ht'
  have h2 := RecIdeal.outcome hd' hm ht
  rcases h with ⟨V', h⟩ | ⟨h, hn⟩
  · rw [h] at h1; exact .inl h1
  · have hu := Unknown.decV_nu (x := x) (src := src) (o := lenient o) rfl (unroll size fs (n + 1)) (v := v) (V := V)
    rw [h] at h1
    cases hr : decV x src (some (lenient o)) (unroll size fs (n + 1)) v V with
    | ok a => exact (hn a hr).elim
    | err i e a =>
      rw [hr] at h1 h2 hu
      exact .inr (.inl ⟨i, e, hu, h1, h2⟩)
    | crash => rw [hr] at h1 h2; exact .inr (.inr ⟨h1, h2⟩)
    | unsup => rw [hr] at h1; exact h1.elim

/-- **C32** for recursive struct types, no unknown key: success, the value, the error and its index, and panics are the same with and without DisallowUnknownFields. -/
theorem C32_recursive_known_partial {x : Ext} {size : Nat} {fs : RFields} {d d' : Decoder} (hd : RecDecoder x size fs d) (hd' : RecDecoder x size fs d') {src : Bytes} {v : JVal} (hw : Wf src v) {mem : Block}
    {V : Val} {n : Nat} (hm : Dest x (unroll size fs (n + 1)) mem V) {o : Options} (hL : UnknownKeys x src o (unroll size fs (n + 1)) v []) (ht : TameR x src (some (lenient o)) fs n true true v) :
    (∀ V', Returns x (unroll size fs (n + 1)) (decode x d src (.ok v) (some mem) (some (strict o))) (-1) none V' ↔
      Returns x (unroll size fs (n + 1)) (decode x d' src (.ok v) (some mem) (some (lenient o))) (-1) none V') ∧
    (∀ i e, (∃ V', Returns x (unroll size fs (n + 1)) (decode x d src (.ok v) (some mem) (some (strict o))) i (some e) V') ↔
      ∃ V', Returns x (unroll size fs (n + 1)) (decode x d' src (.ok v) (some mem) (some (lenient o))) i (some e) V') ∧
    (decode x d src (.ok v) (some mem) (some (strict o)) = none ↔ decode x d' src (.ok v) (some mem) (some (lenient o)) = none) := by
  have ht' := RecIdeal.tameR_to_strict n true true v ht
  have h : decV x src (some (strict o)) (unroll size fs (n + 1)) v V = decV x src (some (lenient o)) (unroll size fs (n + 1)) v V := Unknown.dec_lax _ (Safe.holds_typed _ hm.2) hw hL
  have h1 := RecIdeal.outcome hd hm ht'
  have h2 := RecIdeal.outcome hd' hm ht
  rw [h] at h1
  have hno : ∀ {r : Option DecodeRes} {i e V'}, Returns x (unroll size fs (n + 1)) r i e V' → r ≠ none := by
    rintro r i e V' ⟨r', m, h, -⟩ h'; rw [h] at h'; cases h'
  cases hr : decV x src (some (lenient o)) (unroll size fs (n + 1)) v V with
  | ok a =>
    rw [hr] at h1 h2
    refine ⟨fun V' => ⟨fun g => ?_, fun g => ?_⟩, fun i e => ⟨?_, ?_⟩, iff_of_false (hno h1) (hno h2)⟩
    · obtain ⟨-, -, rfl⟩ := Unique.returns_unique g h1; exact h2
    · obtain ⟨-, -, rfl⟩ := Unique.returns_unique g h2; exact h1
    · rintro ⟨V', g⟩; cases (Unique.returns_unique g h1).2.1
    · rintro ⟨V', g⟩; cases (Unique.returns_unique g h2).2.1
  | err i e a =>
    rw [hr] at h1 h2
    obtain ⟨V1, h1⟩ := h1
    obtain ⟨V2, h2⟩ := h2
    refine ⟨fun V' => ⟨fun g => ?_, fun g => ?_⟩, fun i' e' => ⟨?_, ?_⟩, iff_of_false (hno h1) (hno h2)⟩
    · cases (Unique.returns_unique g h1).2.1
    · cases (Unique.returns_unique g h2).2.1
    · rintro ⟨V', g⟩
      obtain ⟨rfl, g2, -⟩ := Unique.returns_unique g h1
      cases g2; exact ⟨V2, h2⟩
    · rintro ⟨V', g⟩
      obtain ⟨rfl, g2, -⟩ := Unique.returns_unique g h2
      cases g2; exact ⟨V1, h1⟩
  | crash =>
    rw [hr] at h1 h2
    simp only [] at h1 h2
    refine ⟨fun V' => ⟨fun g => (hno g h1).elim, fun g => (hno g h2).elim⟩, fun i e => ⟨fun ⟨V', g⟩ => (hno g h1).elim, fun ⟨V', g⟩ => (hno g h2).elim⟩, by simp [h1, h2]⟩
  | unsup => rw [hr] at h1; exact h1.elim

/-! ## Examples -/

theorem rec_zero {t : TypeId} {size : Nat} {d : Decoder} (hd : RecDecoder demoX size (demoFields t) d) (n : Nat) :
    Dest demoX (unroll size (demoFields t) (n + 1)) (zeros size) (zeroV demoX (unroll size (demoFields t) (n + 1))) :=
  ⟨by simp [zeros, unroll, Ty.size], Val.holds_zeros _ (Val.unroll_ok (recDecoder_ready hd).ok _) (by simp [unroll, Ty.size])⟩

/-- The tree `family` (C24): no panic. -/
example : ∃ i e V, Returns demoX (unroll 40 (demoFields 12) 4) (decode demoX (demoDec 12) family (.ok (demoDoc family)) (some (zeros 40)) (some defaultOptions)) i e V := by
  obtain ⟨-, hd⟩ := demo_rec (t := 12) (by decide)
  have hdoc := demo_doc (src := family) (by decide)
  have ht : TameR demoX family (some defaultOptions) (demoFields 12) 3 true true (demoDoc family) := tameRB_sound 3 true true _ (by decide)
  refine C24_recursive_partial hd hdoc.2 (rec_zero hd 3) ht (by decide) (.inl (by decide))

/-- The list `chain` (C48): decoded a second time, into the list it gave. -/
example : ∃ r mem V, decode demoX (demoDec 40) chain (.ok (demoDoc chain)) (some (zeros 16)) (some defaultOptions) = some r ∧ r.mem = some mem ∧ Dest demoX (unroll 16 (demoFields 40) 4) mem V ∧
    Returns demoX (unroll 16 (demoFields 40) 4) (decode demoX r.dec chain (.ok (demoDoc chain)) (some mem) (some defaultOptions)) (-1) none V := by
  obtain ⟨-, hd⟩ := demo_rec (t := 40) (by decide)
  have hdoc := demo_doc (src := chain) (by decide)
  have ht : TameR demoX chain (some defaultOptions) (demoFields 40) 3 true true (demoDoc chain) := tameRB_sound 3 true true _ (by decide)
  obtain ⟨ho, hk⟩ := OnceB.onceB_sound (x := demoX) (o := defaultOptions) (unroll 16 (demoFields 40) 4) hdoc.2 (by decide +kernel)
  obtain ⟨r, m, e1, -, e3, -⟩ := RecIdeal.returns_ok hd (rec_zero hd 3) ht rfl
  obtain ⟨mem, V, g1, g2, g3⟩ := C48_recursive_partial demo_methods hd hdoc.2 (rec_zero hd 3) ht ho hk e1 e3
  exact ⟨r, mem, V, e1, g1, g2, g3⟩

/-- An unknown key in the middle of a list (C32). -/
example : ∃ V, Returns demoX (unroll 16 (demoFields 40) 4) (decode demoX (demoDec 40) b!"{\"V\":1,\"Next\":{\"W\":[2],\"V\":3}}" (.ok (demoDoc b!"{\"V\":1,\"Next\":{\"W\":[2],\"V\":3}}")) (some (zeros 16))
    (some (strict defaultOptions))) 15 (some .unknownField) V := by
  obtain ⟨-, hd⟩ := demo_rec (t := 40) (by decide)
  have ht : TameR demoX b!"{\"V\":1,\"Next\":{\"W\":[2],\"V\":3}}" (some (strict defaultOptions)) (demoFields 40) 3 true true (demoDoc b!"{\"V\":1,\"Next\":{\"W\":[2],\"V\":3}}") := tameRB_sound 3 true true _ (by decide)
  exact C25_recursive_partial hd (rec_zero hd 3) ht

theorem no_json (rt : TypeId) : ∀ n, ¬ JsonIn rt (unroll 16 (demoFields 40) n)
  | 0 => id
  | n + 1 => by
    rintro (h | h | h)
    · exact no_json rt n h
    · exact h
    · exact h

/-- A list and the same list with members in another order (C57), -/
example : ∃ W W',
    Returns demoX (unroll 16 (demoFields 40) 4) (decode demoX (demoDec 40) b!"{\"V\":1,\"Next\":{\"Next\":{\"V\":3},\"V\":2}}" (.ok (demoDoc b!"{\"V\":1,\"Next\":{\"Next\":{\"V\":3},\"V\":2}}")) (some (zeros 16)) (some defaultOptions)) (-1) none W ∧
    Returns demoX (unroll 16 (demoFields 40) 4) (decode demoX (demoDec 40) b!"{\"Next\":{\"V\":2,\"Next\":{\"V\":3}},\"V\":1}" (.ok (demoDoc b!"{\"Next\":{\"V\":2,\"Next\":{\"V\":3}},\"V\":1}")) (some (zeros 16)) (some defaultOptions)) (-1) none W' ∧ GoEq W W' := by
  obtain ⟨-, hd⟩ := demo_rec (t := 40) (by decide)
  have h1 := demo_doc (src := b!"{\"V\":1,\"Next\":{\"Next\":{\"V\":3},\"V\":2}}") (by decide)
  have h2 := demo_doc (src := b!"{\"Next\":{\"V\":2,\"Next\":{\"V\":3}},\"V\":1}") (by decide)
  have t1 : TameR demoX b!"{\"V\":1,\"Next\":{\"Next\":{\"V\":3},\"V\":2}}" (some defaultOptions) (demoFields 40) 3 true true (demoDoc b!"{\"V\":1,\"Next\":{\"Next\":{\"V\":3},\"V\":2}}") := tameRB_sound 3 true true _ (by decide)
  have t2 : TameR demoX b!"{\"Next\":{\"V\":2,\"Next\":{\"V\":3}},\"V\":1}" (some defaultOptions) (demoFields 40) 3 true true (demoDoc b!"{\"Next\":{\"V\":2,\"Next\":{\"V\":3}},\"V\":1}") := tameRB_sound 3 true true _ (by decide)
  obtain ⟨ho, hk⟩ := OnceB.onceB_sound (x := demoX) (o := defaultOptions) (unroll 16 (demoFields 40) 4) h1.2 (by decide +kernel)
  have hn : NoRepeats b!"{\"V\":1,\"Next\":{\"Next\":{\"V\":3},\"V\":2}}" (demoDoc b!"{\"V\":1,\"Next\":{\"Next\":{\"V\":3},\"V\":2}}") := OnceB.noRepeatsB_sound (x := demoX) _ h1.2 (by decide +kernel)
  have hre : Reordered b!"{\"V\":1,\"Next\":{\"Next\":{\"V\":3},\"V\":2}}" b!"{\"Next\":{\"V\":2,\"Next\":{\"V\":3}},\"V\":1}" (demoDoc b!"{\"V\":1,\"Next\":{\"Next\":{\"V\":3},\"V\":2}}") (demoDoc b!"{\"Next\":{\"V\":2,\"Next\":{\"V\":3}},\"V\":1}") := by
    refine ⟨0, _, _, rfl, [_], _, _, [], rfl, rfl, ⟨_, _, rfl, rfl⟩, [], _, _, [], rfl, rfl, ?_, rfl⟩
    refine ⟨_, _, _, rfl, [_], _, _, [], rfl, rfl, ?_, [], _, _, [], rfl, rfl, ⟨_, _, rfl, rfl⟩, rfl⟩
    exact ⟨_, _, _, rfl, [], _, _, [], rfl, rfl, ⟨_, _, rfl, rfl⟩, rfl⟩
  have r1 := RecIdeal.returns_ok hd (rec_zero hd 3) t1 rfl
  obtain ⟨W', r2, g⟩ := C57_recursive_partial hd hd h1.2 h2.2 hre ⟨hn, ho, hk⟩ t1 t2 (fun rt h => absurd h (no_json rt 4)) (rec_zero hd 3) (rec_zero hd 3) r1
  exact ⟨_, W', r1, r2, g⟩

end Verif.Props
