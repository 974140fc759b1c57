import Verif.Proof.Quoted
import Verif.Props.PartsMore
/-!
# Quoted integers and integer keys, on every text: C07
-/
namespace Verif.Props
open Verif.Model Verif.Spec Verif.Big Verif.Proof Verif.Proof.Demo Verif.Proof.Outcome Verif.Proof.Unique Verif.Proof.Comp

/-- The texts the code accepts for an integer type, and the value it stores: the text begins with an integer (has no sign, for unsigned types), and the parser, which takes every byte for a digit, makes `v` of it. -/
def TakenFor (is64 : Bool) (k : IKind) (s : Bytes) (v : Int) : Prop :=
  (∃ q, LongestViable q s ∧ IsInteger q) ∧ (k.signed = false → s.head? ≠ some 45) ∧ ReadsInt is64 k s v

theorem quotedInt_taken {x : Ext} {k : IKind} {s : Bytes} (hs : s ≠ []) (v : Int) : quotedInt x k s = some (some v) ↔ TakenFor x.is64 k s v := by
  obtain ⟨q, t, rest, rc, h1, -, h3, -, h5, -⟩ := C05_scan s hs
  have hq : (∃ q, LongestViable q s ∧ IsInteger q) ↔ rc = .integer := by
    rw [h5]
    constructor
    · rintro ⟨q', a, b⟩; rw [JsonNum.longest_unique h3 a]; exact b
    · exact fun h => ⟨q, h3, h⟩
  unfold TakenFor
  rw [hq]
  simp only [quotedInt, h1]
  by_cases hrc : rc = .integer
  · subst hrc
    have h45 : s ≠ [45] := by
      rintro rfl
      have hn : (JsonNum.readNumber [45]).map (·.2) ≠ some .integer := by decide
      rw [h1] at hn
      exact hn rfl
    rw [if_neg (by simp)]
    by_cases hsg : k.signed = false ∧ s.head? = some 45
    · rw [if_pos hsg]
      simp [hsg.1, hsg.2]
    · rw [if_neg hsg]
      rw [← AtoiBytes.parseInt_reads x.is64 k h45 v]
      have : k.signed = false → s.head? ≠ some 45 := fun a b => hsg ⟨a, b⟩
      cases hp : parseInt x.is64 k s with
      | none => simp
      | some r =>
        obtain ⟨y, f⟩ := r
        cases f
        · simp only [Option.some.injEq, Prod.mk.injEq, and_true]
          exact ⟨fun h => ⟨trivial, this, h⟩, fun h => h.2.2⟩
        · simp
  · rw [if_pos hrc]
    simp [hrc]

/-- At most one value is stored for a text. -/
theorem C07_unique {is64 : Bool} {k : IKind} {s : Bytes} {v v' : Int} (h : TakenFor is64 k s v) (h' : TakenFor is64 k s v') : v = v' := by
  have hs : s ≠ [] := by
    rintro rfl
    obtain ⟨q, ⟨hp, -⟩, sg, ds, rfl, -, hd⟩ := h.1
    have := List.prefix_nil.1 hp
    rw [List.append_eq_nil_iff] at this
    rw [this.2] at hd
    cases hd
  have a := (quotedInt_taken (x := { demoX with is64 := is64 }) hs v).2 h
  rw [(quotedInt_taken (x := { demoX with is64 := is64 }) hs v').2 h'] at a
  cases a; rfl

/-- The texts C07 is about are among the accepted ones, with their value. -/
theorem C07_contains {x : Ext} {k : IKind} {s : Bytes} {v : Int} (h : QuotedOK x.is64 k s v) : TakenFor x.is64 k s v := by
  have hs : s ≠ [] := by
    rintro rfl
    obtain ⟨sg, ds, hs, -, hd⟩ := intLit_integer h.1
    rw [eq_comm, List.append_eq_nil_iff] at hs
    rw [hs.2] at hd
    cases hd
  exact (quotedInt_taken hs v).1 (quotedInt_good h)

/-- **C07**, what the code does with every text: a field with the `string` option of an integer type takes a non-empty string exactly if its text begins with an integer (without sign, for unsigned types) and is not too long for the type; the
value is made of all bytes of the text, as if they were digits. All other texts are refused with ErrUnexpectedValue at the string, without effect. (The empty text panics: C06.) -/
theorem C07_exact {x : Ext} {n : Nat} {fs : List (Bytes × Nat × Ty)} {d : Decoder} {src : Bytes} {o : Options} {a z i e : Nat} {key : Nat × Nat} {mem : Block} {Ws : List Val} {j : Nat}
    {name : Bytes} {off : Nat} {k : IKind} (hd : DecoderFor x (.struct n fs) d) (hw : Wf src (.obj a [(key, .str i e)] z)) (hm : Dest x (.struct n fs) mem (.struct Ws))
    (hs : KeySelects x src o (fs.map (·.1)) key j) (hf : fs[j]? = some (name, off, .quoted (.int k))) (hne : inner src i e ≠ []) :
    (∀ v, TakenFor x.is64 k (inner src i e) v → Returns x (.struct n fs) (decode x d src (.ok (.obj a [(key, .str i e)] z)) (some mem) (some o)) (-1) none (.struct (Ws.set j (.int v)))) ∧
    ((∀ v, ¬ TakenFor x.is64 k (inner src i e) v) →
      Returns x (.struct n fs) (decode x d src (.ok (.obj a [(key, .str i e)] z)) (some mem) (some o)) i (some .unexpectedValue) (.struct Ws)) := by
  obtain ⟨W, hW⟩ := dest_field hm hf
  have hwm := (Safe.wfM_mem hw.2.2.2.2 _ (List.mem_singleton.2 rfl))
  obtain ⟨h1, h2⟩ := one_member (a := a) (z := z) (v := .str i e) hd hwm.1 hm hs hf trivial hW
  refine ⟨fun v hv => h1 _ ?_, fun hv => ?_⟩
  · rw [quotedInt_leaf hwm.2, (quotedInt_taken hne v).2 hv]
  · have hq : quotedInt x k (inner src i e) = some none := by
      obtain ⟨r, hr⟩ := Safe.quotedInt_some x k hne
      cases r with
      | none => exact hr
      | some v => exact absurd ((quotedInt_taken hne v).1 hr) (hv v)
    have := h2 i .unexpectedValue W (by rw [quotedInt_leaf hwm.2, hq])
    rwa [set_self hW] at this

/-- **C07**, integer keys of maps: after success every key is one of the accepted texts and its value is a key of the map; a key of the map that was not there before is the value of a key of the object. -/
theorem C07_keys_exact {x : Ext} {k : IKind} {e : Ty} {d : Decoder} (hd : DecoderFor x (.map (.int k) e) d) {src : Bytes} {i z : Nat} {ms : List ((Nat × Nat) × JVal)} (hw : Wf src (.obj i ms z)) {mem : Block}
    {V : Val} (hm : Dest x (.map (.int k) e) mem V) {o : Option Options} (hR : RightDoc x src o (.map (.int k) e) (.obj i ms z)) {V' : Val}
    (h : Returns x (.map (.int k) e) (decode x d src (.ok (.obj i ms z)) (some mem) o) (-1) none V') :
    ∃ Es, V' = .map Es ∧ (∀ m ∈ ms, ∃ v W, TakenFor x.is64 k (inner src m.1.1 m.1.2) v ∧ lookupV (.int v) Es = some W) ∧
      ∀ K, (∀ m ∈ ms, ∀ v, TakenFor x.is64 k (inner src m.1.1 m.1.2) v → K ≠ .int v) → lookupV K Es = lookupV K (entriesOf V) := by
  rw [right_ok_iff hd hw hm hR] at h
  obtain ⟨Es, rfl, h1⟩ := map_readsP hR h
  have hkey : ∀ m ∈ ms, ∃ v, TakenFor x.is64 k (inner src m.1.1 m.1.2) v ∧ keyAt x src (.int k) m.1 = some (.ok (.int v)) := by
    intro m hmm
    obtain ⟨K, hK⟩ := mapV_keys h1 m hmm
    have hK' := hK
    unfold keyAt at hK
    rw [Doc.slice_inner (Safe.wfM_mem hw.2.2.2.2 m hmm).1] at hK
    simp only [Option.bind_some, KeyTy.key] at hK
    have hne : inner src m.1.1 m.1.2 ≠ [] := by
      intro hc
      rw [hc] at hK
      have : quotedInt x k [] = none := rfl
      rw [this] at hK; cases hK
    cases hq : quotedInt x k (inner src m.1.1 m.1.2) with
    | none => rw [hq] at hK; cases hK
    | some r =>
      cases r with
      | none => rw [hq] at hK; cases hK
      | some v =>
        rw [hq] at hK
        cases hK
        exact ⟨v, (quotedInt_taken hne v).1 hq, hK'⟩
  refine ⟨Es, rfl, fun m hmm => ?_, fun K hK => ?_⟩
  · obtain ⟨v, h2, h3⟩ := hkey m hmm
    refine ⟨v, ?_⟩
    -- the last member with this key
    have : ∀ {ms : List ((Nat × Nat) × JVal)} {M M' : List (Key × Val)}, mapV x src (decPV x src o e) (.int k) (zeroV x e) (isStruct e) ms M = .ok M' →
        (∃ W, lookupV (.int v) M = some W) ∨ (∃ m ∈ ms, keyAt x src (.int k) m.1 = some (.ok (.int v))) → ∃ W, lookupV (.int v) M' = some W := by
      intro ms
      induction ms with
      | nil =>
        intro M M' hM hor
        simp only [mapV] at hM
        cases hM
        rcases hor with hor | ⟨m, hm, -⟩
        · exact hor
        · cases hm
      | cons m ms ih =>
        obtain ⟨⟨a, b⟩, u⟩ := m
        intro M M' hM hor
        simp only [mapV] at hM
        cases hk' : keyAt x src (.int k) (a, b) with
        | none => unfold keyAt at hk'; simp [hk'] at hM
        | some r =>
          have hk'' := hk'
          unfold keyAt at hk''
          cases r with
          | error e0 => simp [hk''] at hM
          | ok K' =>
            simp only [hk''] at hM
            split at hM
            · rename_i W0 _
              refine ih hM ?_
              cases hc : K'.same (.int v) with
              | true => exact .inl ⟨W0, by rw [← lookupV_same hc, lookupV_assign]⟩
              | false =>
                rw [lookupV_assign_ne hc]
                rcases hor with hor | ⟨m, hm, hk2⟩
                · exact .inl hor
                · rcases List.mem_cons.1 hm with rfl | hm
                  · rw [hk'] at hk2; cases hk2
                    rw [Mem.same_refl] at hc; cases hc
                  · exact .inr ⟨m, hm, hk2⟩
            all_goals cases hM
    obtain ⟨W, hW⟩ := this h1 (.inr ⟨m, hmm, h3⟩)
    exact ⟨W, h2, hW⟩
  · refine mapV_keep (.inl h1) fun m hmm K' hK' => ?_
    obtain ⟨v, h2, h3⟩ := hkey m hmm
    rw [h3] at hK'; cases hK'
    cases hc : Key.same (.int v) K with
    | false => rfl
    | true =>
      cases K <;> simp [Key.same] at hc
      exact absurd (by rw [hc]) (hK m hmm v h2)

/-- Every text that begins with an integer and is shorter than the widest literal of the type is accepted, whatever follows. -/
theorem C07_short {is64 : Bool} {k : IKind} {s q : Bytes} (hq : LongestViable q s) (hi : IsInteger q) (hu : k.signed = false → s.head? ≠ some 45)
    (hl : s.length < if k.signed then iDigits (k.bits is64) else uDigits (k.bits is64)) : ∃ v, TakenFor is64 k s v := by
  obtain ⟨sg, ds, rfl, hsg, hds⟩ := id hi
  obtain ⟨t, rfl⟩ := hq.1
  have hd : ds ≠ [] := Atoi.natLit_ne_nil hds
  obtain ⟨c, cs, rfl⟩ := List.exists_cons_of_ne_nil hd
  suffices ∃ v, ReadsInt is64 k (sg ++ c :: cs ++ t) v by
    obtain ⟨v, hv⟩ := this
    exact ⟨v, ⟨_, hq, hi⟩, hu, hv⟩
  unfold ReadsInt
  by_cases hk : k.signed = true
  · rw [if_pos hk] at hl
    simp only [if_pos hk]
    rcases hsg with rfl | rfl
    · have hc : c ≠ 45 := Atoi.natLit_head_ne_minus hds c cs rfl
      simp only [List.nil_append, List.cons_append, List.length_cons] at hl ⊢
      exact ⟨_, .pos hc (by omega) (by omega)⟩
    · simp only [List.cons_append, List.nil_append, List.length_cons] at hl ⊢
      exact ⟨_, .neg (by simp) (by simp only [List.length_cons]; omega) (by simp only [List.length_cons]; omega)⟩
  · rw [if_neg hk] at hl
    simp only [if_neg hk]
    exact ⟨_, _, .short (by simp) hl, rfl⟩

/-- `"1x"` stores 82 (10 and the byte `x` minus the byte `0`), `"12 "` stores 360 in an `int` and 104 in a `uint8`; a `uint8` refuses `"312x"` and `"x"`. -/
example : TakenFor true .int b!"1x" 82 ∧ TakenFor true .int b!"12 " 360 ∧ TakenFor true .u8 b!"12 " 104 ∧ (∀ v, ¬ TakenFor true .u8 b!"312x" v) ∧ ∀ v, ¬ TakenFor true .u8 b!"x" v := by
  have h : ∀ {k : IKind} {s : Bytes} {v : Int}, s ≠ [] → quotedInt demoX k s = some (some v) → TakenFor true k s v := fun hs h => (quotedInt_taken (x := demoX) hs _).1 h
  have h' : ∀ {k : IKind} {s : Bytes}, s ≠ [] → quotedInt demoX k s = some none → ∀ v, ¬ TakenFor true k s v := fun hs h v hv => by
    rw [(quotedInt_taken (x := demoX) hs v).2 hv] at h; cases h
  exact ⟨h (by decide) rfl, h (by decide) rfl, h (by decide) rfl, h' (by decide) rfl, h' (by decide) rfl⟩

/-- `{"n":"1x"}` into ``struct{N int `json:"n,string"`}``. -/
example : Returns demoX (.struct 8 [(b!"n", 0, .quoted (.int .int))]) (decode demoX (demoDec 25) b!"{\"n\":\"1x\"}" (.ok (.obj 0 [((1, 4), .str 5 9)] 9)) (some (zeros 8)) (some defaultOptions)) (-1) none (.struct [.int 82]) := by
  obtain ⟨hd, hw, hm⟩ := demo25_case (src := b!"{\"n\":\"1x\"}") (by decide)
  exact (C07_exact hd hw hm (demo25_key (key := (1, 4)) rfl) rfl (by decide)).1 82 ((quotedInt_taken (x := demoX) (by decide) 82).1 rfl)

/-- `{"3x":1}` into a nil `map[int]int`, if it is accepted, gives an entry for the key 102. -/
example {d : Decoder} (hd : DecoderFor demoX (.map (.int .int) (.scalar (.int .int))) d) (hw : Wf b!"{\"3x\":1}" (.obj 0 [((1, 5), .num true 6 7)] 7)) {mem : Block} {V V' : Val}
    (hm : Dest demoX (.map (.int .int) (.scalar (.int .int))) mem V) (h : Returns demoX (.map (.int .int) (.scalar (.int .int))) (decode demoX d b!"{\"3x\":1}" (.ok (.obj 0 [((1, 5), .num true 6 7)] 7)) (some mem) (some defaultOptions)) (-1) none V') :
    ∃ Es W, V' = .map Es ∧ lookupV (.int 102) Es = some W := by
  obtain ⟨Es, e1, e2, -⟩ := C07_keys_exact hd hw hm ⟨by simp, trivial⟩ h
  obtain ⟨v, W, h1, h2⟩ := e2 _ (List.mem_singleton.2 rfl)
  have : v = 102 := C07_unique h1 ((quotedInt_taken (x := demoX) (by decide) 102).1 rfl)
  exact ⟨Es, W, e1, this ▸ h2⟩

end Verif.Props
