import Verif.Proof.AliasRun
import Verif.Proof.Demo
/-!
# C47: inputs of type string and []byte
-/
namespace Verif.Props
open Verif.Model Verif.Spec Verif.Proof Verif.Proof.Alias Verif.Proof.Demo

theorem sameMem_iff {t t' : Option Block} : SameMem t t' ↔ t.map forget = t'.map forget := by
  cases t <;> cases t' <;> simp [SameMem]

/-- The decoder for strings and the one for bytes, each against bytes and copied strings. -/
theorem decode_copy (x : Ext) {d : Decoder} (hc : MethodsCopy x d) (src : Bytes) (doc : Except (Nat × Nat) JVal) (t : Option Block) (o : Option Options) :
    decode (bytesInput x) (decE copyKey d) src doc (t.map forget) o = (decode x d src doc t o).map (resultE copyKey) :=
  decode_E copyKey_idem (fun _ _ _ => rfl) (fun _ => rfl) (fun _ => rfl) hc src doc t o

theorem twins_copy {x : Ext} {d₀ d d' : Decoder} (hc : MethodsCopy x d₀) (h : Twins x d₀ d d') : decE copyKey d = decE copyKey d' ∧ d.frames = d₀.frames := by
  induction h with
  | new => exact ⟨rfl, rfl⟩
  | @call d d' src doc t t' o r r' _ hm h1 h2 ih =>
    have hfr : d'.frames = d₀.frames := by have := congrArg Decoder.frames ih.1; exact this.symm.trans ih.2
    have e1 := decode_copy (stringInput x) (d := d) (by unfold MethodsCopy; rw [ih.2]; exact hc) src doc t o
    have e2 := decode_copy (bytesInput x) (d := d') (by unfold MethodsCopy; rw [hfr]; exact hc) src doc t' o
    rw [sameMem_iff.1 hm, ih.1] at e1
    rw [show bytesInput (stringInput x) = bytesInput (bytesInput x) from rfl] at e1
    rw [e2, h1, h2] at e1
    have : resultE copyKey r = resultE copyKey r' := (Option.some.inj e1).symm
    refine ⟨congrArg DecodeRes.dec this, ?_⟩
    exact (Reads.decode_frames h1).trans ih.2

/-- **C47**: `Decode` gives the same outcome for a string and for a byte slice with the same bytes: both panic, or both return the same index and error and leave the same value. For every type,
every history of the two decoders (the same calls on both), every input, destination and option set. The unmarshaler methods of the type must copy what they keep. -/
theorem C47_alike {x : Ext} {d₀ d d' : Decoder} (hc : MethodsCopy x d₀) (h : Twins x d₀ d d') (src : Bytes) (doc : Except (Nat × Nat) JVal) {t t' : Option Block} (ht : SameMem t t')
    (o : Option Options) : LooksSame (decode (stringInput x) d src doc t o) (decode (bytesInput x) d' src doc t' o) := by
  obtain ⟨ih1, ih2⟩ := twins_copy hc h
  have hfr : d'.frames = d₀.frames := by have := congrArg Decoder.frames ih1; exact this.symm.trans ih2
  have e1 := decode_copy (stringInput x) (d := d) (by unfold MethodsCopy; rw [ih2]; exact hc) src doc t o
  have e2 := decode_copy (bytesInput x) (d := d') (by unfold MethodsCopy; rw [hfr]; exact hc) src doc t' o
  rw [sameMem_iff.1 ht, ih1, show bytesInput (stringInput x) = bytesInput (bytesInput x) from rfl, e2] at e1
  revert e1
  cases decode (stringInput x) d src doc t o <;> cases decode (bytesInput x) d' src doc t' o <;> intro e1
  · trivial
  · cases e1
  · cases e1
  · rename_i r r'
    have he : resultE copyKey r = resultE copyKey r' := (Option.some.inj e1).symm
    have h1 : (resultE copyKey r).errIndex = (resultE copyKey r').errIndex := congrArg DecodeRes.errIndex he
    have h2 : (resultE copyKey r).err = (resultE copyKey r').err := congrArg DecodeRes.err he
    have h3 : r.mem.map forget = r'.mem.map forget := congrArg DecodeRes.mem he
    exact ⟨h1, h2, sameMem_iff.2 h3⟩

/-- **C47**: the same for `Unmarshal`, for every type of every program. -/
theorem C47_unmarshal {x : Ext} {env : TypeEnv} {depth : Nat} {ty : Option TypeId}
    (hc : ∀ d, newDecoder env x.W (some defaultInitOptions) depth ty = .ok d → MethodsCopy x d)
    (src : Bytes) (doc : Except (Nat × Nat) JVal) {t t' : Option Block} (ht : SameMem t t') :
    LooksSameU (unmarshal (stringInput x) env depth ty src doc t) (unmarshal (bytesInput x) env depth ty src doc t') := by
  cases t <;> cases t' <;> try exact ht.elim
  · exact ⟨rfl, trivial⟩
  · rename_i mem mem'
    simp only [unmarshal]
    rw [show (stringInput x).W = x.W from rfl, show (bytesInput x).W = x.W from rfl]
    cases hn : newDecoder env x.W (some defaultInitOptions) depth ty with
    | diverges => trivial
    | panic => trivial
    | err e => exact ⟨rfl, ht⟩
    | ok d =>
      simp only
      have := C47_alike (hc d hn) .new src doc (t := some mem) (t' := some mem') ht (some defaultOptions)
      revert this
      cases decode (stringInput x) d src doc (some mem) (some defaultOptions) <;> cases decode (bytesInput x) d src doc (some mem') (some defaultOptions) <;> intro this
      · trivial
      · exact this.elim
      · exact this.elim
      · obtain ⟨-, h2, h3⟩ := this
        simp only [h2]
        split
        · exact ⟨rfl, h3⟩
        · exact ⟨rfl, h3⟩

/-- **C47**: with `[]byte` input no string of the destination (string, Number, map key, string in an `any`, at any depth, also in the unused capacity of slices) is a piece of the input after `Decode`,
whether it succeeds or fails, if none was before. For every decoder in every state, every input and option set. -/
theorem C47_own {x : Ext} (hx : x.strInput = false) {d : Decoder} (hc : MethodsCopy x d) {src : Bytes} {doc : Except (Nat × Nat) JVal} {mem : Block} (hm : Own mem) {o : Option Options} {r : DecodeRes}
    (hr : decode x d src doc (some mem) o = some r) : ∃ m, r.mem = some m ∧ Own m := by
  have hxb : bytesInput x = x := by cases x; cases hx; rfl
  have hid : decE id d = d := by
    have h1 : ∀ p : Ptr, ptrE id p = p := by
      intro p
      cases p with
      | «at» a =>
        have h2 : ∀ s : Step, stepE id s = s := by intro s; rcases s with ⟨n, _ | _ | k⟩ <;> rfl
        have : a.path.map (stepE id) = a.path := by
          have : stepE id = id := funext h2
          rw [this, List.map_id]
        simp only [ptrE, addrE, this]
      | _ => rfl
    have h3 : ∀ r, recE id r = r := by intro r; simp only [recE, h1]
    have : dE id d.dyn = d.dyn := by
      funext i
      simp only [dE, dynE, h1]
      rw [show recE id = id from funext h3, List.map_id]
    simp only [decE, this]
  have := decode_E (x := x) (d := d) (φ := id) (fun _ => rfl) (by
    intro b s hs
    rw [← hxb, unescStr_bytes] at hs
    cases h : x.unescStr b with
    | none => rw [h] at hs; cases hs
    | some s' => rw [h] at hs; cases hs; rfl) (fun _ => rfl) (fun _ => rfl) hc src doc (some mem) o
  rw [hid, hxb, Option.map_some, (own_iff mem).1 hm, hr] at this
  have he : r.mem = r.mem.map forget := congrArg DecodeRes.mem (Option.some.inj this)
  cases hrm : r.mem with
  | none =>
    exfalso
    revert hr
    unfold decode
    intro hr
    cases doc with
    | error ic =>
      simp only at hr
      split at hr <;> cases hr
      cases hrm
    | ok v =>
      simp only at hr
      split at hr
      · cases hr
      · split at hr
        · cases hr; cases hrm
        · split at hr <;> cases hr
          cases hrm
        · cases hr
  | some m =>
    rw [hrm] at he
    exact ⟨m, rfl, (own_iff m).2 (Option.some.inj he).symm⟩

mutual
theorem anyAfter_own : ∀ v v', OwnAny v → AnyAfter v v' → v' = v
  | .str s, .str s', h, ha => by
    rcases (ha : StrAfter s s') with rfl | ⟨h1, -⟩
    · rfl
    · rw [(h : s.shared = false)] at h1; cases h1
  | .arr es, .arr es', h, ha => by rw [anyAfterL_own es es' h ha]
  | .obj es, .obj es', h, ha => by rw [anyAfterM_own es es' h ha]
  | .null, v', _, ha => by cases v' <;> first | rfl | (exact (ha : _ = _).symm)
  | .bool _, v', _, ha => by cases v' <;> exact (ha : _ = _).symm
  | .num _, v', _, ha => by cases v' <;> exact (ha : _ = _).symm
  | .other _, v', _, ha => by cases v' <;> exact (ha : _ = _).symm
  | .str _, .null, _, ha | .str _, .bool _, _, ha | .str _, .num _, _, ha | .str _, .arr _, _, ha | .str _, .obj _, _, ha | .str _, .other _, _, ha => (ha : _ = _).symm
  | .arr _, .null, _, ha | .arr _, .bool _, _, ha | .arr _, .num _, _, ha | .arr _, .str _, _, ha | .arr _, .obj _, _, ha | .arr _, .other _, _, ha => (ha : _ = _).symm
  | .obj _, .null, _, ha | .obj _, .bool _, _, ha | .obj _, .num _, _, ha | .obj _, .str _, _, ha | .obj _, .arr _, _, ha | .obj _, .other _, _, ha => (ha : _ = _).symm
theorem anyAfterL_own : ∀ v v', OwnAnyL v → AnyAfterL v v' → v' = v
  | [], [], _, _ => rfl
  | v :: vs, v' :: vs', h, ha => by rw [anyAfter_own v v' h.1 ha.1, anyAfterL_own vs vs' h.2 ha.2]
  | [], _ :: _, _, ha => ha.elim
  | _ :: _, [], _, ha => ha.elim
theorem anyAfterM_own : ∀ v v', OwnAnyM v → AnyAfterM v v' → v' = v
  | [], [], _, _ => rfl
  | (s, v) :: vs, (s', v') :: vs', h, ha => by
    have : s' = s := by
      rcases ha.1 with h1 | ⟨h1, -⟩
      · exact h1.symm
      · rw [h.1] at h1; cases h1
    rw [this, anyAfter_own v v' h.2.1 ha.2.1, anyAfterM_own vs vs' h.2.2 ha.2.2]
  | [], _ :: _, _, ha => ha.elim
  | _ :: _, [], _, ha => ha.elim
end

theorem keyAfter_own : ∀ k k', OwnKey k → KeyAfter k k' → k' = k
  | .str s, .str s', h, ha => by
    rcases (ha : StrAfter s s') with rfl | ⟨h1, -⟩
    · rfl
    · rw [(h : s.shared = false)] at h1; cases h1
  | .int _, k', _, ha => by cases k' <;> exact (ha : _ = _).symm
  | .opaque _, k', _, ha => by cases k' <;> exact (ha : _ = _).symm
  | .str _, .int _, _, ha | .str _, .opaque _, _, ha => (ha : _ = _).symm

mutual
theorem cellAfter_own : ∀ c c', OwnC c → CellAfter c c' → c' = c
  | .str s, c', h, ha => by
    cases c' <;> first | (exact (ha : _ = _).symm) | skip
    rcases (ha : StrAfter s _) with rfl | ⟨h1, -⟩
    · rfl
    · rw [(h : s.shared = false)] at h1; cases h1
  | .any v, c', h, ha => by
    cases c' <;> first | (exact (ha : _ = _).symm) | skip
    rw [anyAfter_own v _ h ha]
  | .ptr b, c', h, ha => by
    cases c' <;> first | (exact (ha : _ = _).symm) | skip
    rw [after_own b _ h ha]
  | .slice l c a, c', h, ha => by
    cases c' <;> first | (exact (ha : _ = _).symm) | skip
    obtain ⟨rfl, rfl, h3⟩ := ha
    rw [after_own a _ h h3]
  | .map es, c', h, ha => by
    cases c' <;> first | (exact (ha : _ = _).symm) | skip
    rw [afterM_own es _ h ha]
  | .zero, c', _, ha => by cases c' <;> exact (ha : _ = _).symm
  | .pad, c', _, ha => by cases c' <;> exact (ha : _ = _).symm
  | .bool _, c', _, ha => by cases c' <;> exact (ha : _ = _).symm
  | .int _, c', _, ha => by cases c' <;> exact (ha : _ = _).symm
  | .flt _, c', _, ha => by cases c' <;> exact (ha : _ = _).symm
  | .user _, c', _, ha => by cases c' <;> exact (ha : _ = _).symm
theorem after_own : ∀ b b', Own b → After b b' → b' = b
  | [], [], _, _ => rfl
  | v :: vs, v' :: vs', h, ha => by rw [cellAfter_own v v' h.1 ha.1, after_own vs vs' h.2 ha.2]
  | [], _ :: _, _, ha => ha.elim
  | _ :: _, [], _, ha => ha.elim
theorem afterM_own : ∀ b b', OwnM b → AfterM b b' → b' = b
  | [], [], _, _ => rfl
  | (k, v) :: vs, (k', v') :: vs', h, ha => by rw [keyAfter_own k k' h.1 ha.1, after_own v v' h.2.1 ha.2.1, afterM_own vs vs' h.2.2 ha.2.2]
  | [], _ :: _, _, ha => ha.elim
  | _ :: _, [], _, ha => ha.elim
end

/-- **C47**: with `[]byte` input, whatever is written to the input buffer after `Decode`, the destination stays as it was. -/
theorem C47_buffer {x : Ext} (hx : x.strInput = false) {d : Decoder} (hc : MethodsCopy x d) {src : Bytes} {doc : Except (Nat × Nat) JVal} {mem : Block} (hm : Own mem) {o : Option Options} {r : DecodeRes}
    {m m' : Block} (hr : decode x d src doc (some mem) o = some r) (h : r.mem = some m) (ha : After m m') : m' = m := by
  obtain ⟨m₁, h1, h2⟩ := C47_own hx hc hm hr
  cases h.symm.trans h1
  exact after_own m m' h2 ha

/-! ## Examples -/

/-- A record with strings, a map and an `any`: type 45. Nothing in fresh memory is a piece of the input, and the only method copies its argument. -/
theorem demo_own : MethodsCopy (bytesInput demoX) (demoDec 45) ∧ Own (zeros 120) := by
  refine ⟨fun f hf rt hrt => ⟨fun _ => ?_, fun h => ?_⟩, (own_iff _).2 (forget_zeros _)⟩
  · intro old b
    show (if b = _ then _ else _) = (forget (if b = _ then (_, _) else (_, _) : Block × Option Nat).1, _)
    by_cases hb : b = b!"\"bad\""
    · simp [bytesInput, demoX, hb]
    · simp [bytesInput, demoX, hb, forget, forgetC]
  · have : ∀ f ∈ (demoDec 45).frames, ¬ f.type = .textUnmarshaler := by decide
    exact absurd h (this f hf)

/-- The first cell of the string at an offset. -/
def sharedAt (m : Block) (i : Nat) : Option Bool := match m[i]? with
  | some (.str s) => some s.shared
  | _ => none

/-- The hypotheses of C47 are met by a decoder for the record, with a document with a string, an `any`, map keys and a method call. With string input the decoded string is a piece of the input, with byte input it is not. -/
example : ∃ r r', decode (stringInput demoX) (demoDec 45) b!"{\"Name\":\"ab\",\"Any\":[\"x\"],\"Tags\":{\"k\":1},\"J\":3}"
      (tokenize b!"{\"Name\":\"ab\",\"Any\":[\"x\"],\"Tags\":{\"k\":1},\"J\":3}") (some (zeros 120)) (some defaultOptions) = some r ∧
    decode (bytesInput demoX) (demoDec 45) b!"{\"Name\":\"ab\",\"Any\":[\"x\"],\"Tags\":{\"k\":1},\"J\":3}"
      (tokenize b!"{\"Name\":\"ab\",\"Any\":[\"x\"],\"Tags\":{\"k\":1},\"J\":3}") (some (zeros 120)) (some defaultOptions) = some r' ∧
    r.err = none ∧ r'.err = none ∧ (r.mem.bind fun m => sharedAt m 8) = some true ∧ (r'.mem.bind fun m => sharedAt m 8) = some false ∧ ∃ m, r'.mem = some m ∧ Own m := by
  have hc := demo_own
  have h1 : (decode (stringInput demoX) (demoDec 45) b!"{\"Name\":\"ab\",\"Any\":[\"x\"],\"Tags\":{\"k\":1},\"J\":3}"
      (tokenize b!"{\"Name\":\"ab\",\"Any\":[\"x\"],\"Tags\":{\"k\":1},\"J\":3}") (some (zeros 120)) (some defaultOptions)).map (fun r => (r.err, r.mem.bind fun m => sharedAt m 8)) =
      some (none, some true) := by decide +kernel
  have h2 : (decode (bytesInput demoX) (demoDec 45) b!"{\"Name\":\"ab\",\"Any\":[\"x\"],\"Tags\":{\"k\":1},\"J\":3}"
      (tokenize b!"{\"Name\":\"ab\",\"Any\":[\"x\"],\"Tags\":{\"k\":1},\"J\":3}") (some (zeros 120)) (some defaultOptions)).map (fun r => (r.err, r.mem.bind fun m => sharedAt m 8)) =
      some (none, some false) := by decide +kernel
  revert h1 h2
  cases h3 : decode (stringInput demoX) (demoDec 45) b!"{\"Name\":\"ab\",\"Any\":[\"x\"],\"Tags\":{\"k\":1},\"J\":3}"
      (tokenize b!"{\"Name\":\"ab\",\"Any\":[\"x\"],\"Tags\":{\"k\":1},\"J\":3}") (some (zeros 120)) (some defaultOptions) with
  | none => intro h; cases h
  | some r =>
    cases h4 : decode (bytesInput demoX) (demoDec 45) b!"{\"Name\":\"ab\",\"Any\":[\"x\"],\"Tags\":{\"k\":1},\"J\":3}"
      (tokenize b!"{\"Name\":\"ab\",\"Any\":[\"x\"],\"Tags\":{\"k\":1},\"J\":3}") (some (zeros 120)) (some defaultOptions) with
    | none => intro _ h; cases h
    | some r' =>
      intro h1 h2
      simp only [Option.map_some, Option.some.injEq, Prod.mk.injEq] at h1 h2
      exact ⟨r, r', rfl, rfl, h1.1, h2.1, h1.2, h2.2, C47_own rfl hc.1 hc.2 h4⟩

end Verif.Props
