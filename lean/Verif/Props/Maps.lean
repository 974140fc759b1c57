import Verif.Props.Composite
/-!
# Maps: C28, C29, integer keys of C07, text keys of C42
-/
namespace Verif.Props
open Verif.Model Verif.Spec Verif.Big Verif.Proof Verif.Proof.Demo Verif.Proof.Outcome Verif.Proof.Unique Verif.Proof.Comp

/-- The entries of a map; none for the nil map. -/
def entriesOf : Val → List (Key × Val)
  | .map es => es
  | _ => []

/-- Is the type a struct type with fields? -/
def isStruct : Ty → Bool
  | .struct _ _ => true
  | _ => false

theorem keyOf_same {x : Ext} {k : KeyTy} {raw : Bytes} {K K' : Key} (h : KeyOf x k raw K) (hk : K.same K' = true) : KeyOf x k raw K' := by
  cases h with
  | @str _ s h =>
    cases K' <;> simp [Key.same] at hk
    exact .str (hk ▸ h)
  | @int k0 _ v0 h =>
    cases K' <;> simp [Key.same] at hk
    exact .int (hk ▸ h)
  | @text rt0 _ _ k0 h1 h2 =>
    cases K' <;> simp [Key.same] at hk
    exact .text h1 (hk ▸ h2)

/-- A key that denotes something denotes exactly what the decoder makes of it. -/
theorem keyAt_iff {x : Ext} {src : Bytes} {k : KeyTy} {m : Nat × Nat} (hw : WfStr src m.1 m.2) (h : ∃ K, KeyOf x k (inner src m.1 m.2) K) (K : Key) :
    KeyOf x k (inner src m.1 m.2) K ↔ ∃ K', keyAt x src k m = some (.ok K') ∧ K'.same K = true := by
  constructor
  · exact keyAt_of hw
  · rintro ⟨K', h1, h2⟩
    obtain ⟨K0, h0⟩ := h
    obtain ⟨K1, g1, g2⟩ := keyAt_of hw h0
    rw [h1] at g1; cases g1
    exact keyOf_same h0 (same_trans (same_symm g2) h2)

theorem map_reads {x : Ext} {src : Bytes} {o : Option Options} {k : KeyTy} {e : Ty} {i z : Nat} {ms : List ((Nat × Nat) × JVal)} {V V' : Val} (ht : Tame x src o (.map k e) (.obj i ms z))
    (h : decV x src o (.map k e) (.obj i ms z) V = .ok V') :
    ∃ Es, V' = .map Es ∧ mapV x src (decV x src o e) k (zeroV x e) (isStruct e) ms (entriesOf V) = .ok Es := by
  have he : (e.etype == .struct) = isStruct e := by cases e <;> rfl
  have hp : mapParts V = entriesOf V := by cases V <;> rfl
  simp only [decV, he, hp] at h
  rw [if_neg (fun hc => hc.2 (ht.1 hc.1))] at h
  obtain ⟨Es, h1, rfl⟩ := map_ok_iff.1 h
  exact ⟨Es, rfl, h1⟩

/-- **C28, partial**: after success the map is not nil; entries whose key the object does not mention are unchanged; a mentioned key has the decoding of the last value given for it; keys stay distinct. The last value
is decoded into a zero value if the values of the map are structs, and otherwise into the entry the key has at that time (the old entry of the map if the key is mentioned once). Missing: decoding into a zero value in the
other cases (`C28_refuted`), and integer keys whose text is not an integer literal in range (C07). -/
theorem C28_map_partial {x : Ext} {k : KeyTy} {e : Ty} {d : Decoder} (hd : DecoderFor x (.map k e) d) {src : Bytes} {i z : Nat} {ms : List ((Nat × Nat) × JVal)} (hw : Wf src (.obj i ms z)) {mem : Block} {V : Val}
    (hm : Dest x (.map k e) mem V) {o : Option Options} (ht : Tame x src o (.map k e) (.obj i ms z)) (hk : ∀ m ∈ ms, ∃ K, KeyOf x k (inner src m.1.1 m.1.2) K) {V' : Val}
    (h : Returns x (.map k e) (decode x d src (.ok (.obj i ms z)) (some mem) o) (-1) none V') :
    ∃ Es, V' = .map Es ∧
      (∀ K, (∀ m ∈ ms, ¬ KeyOf x k (inner src m.1.1 m.1.2) K) → lookupV K Es = lookupV K (entriesOf V)) ∧
      (∀ ms1 key v ms2 K, ms = ms1 ++ (key, v) :: ms2 → KeyOf x k (inner src key.1 key.2) K → (∀ m ∈ ms2, ¬ KeyOf x k (inner src m.1.1 m.1.2) K) →
        ∃ W W', lookupV K Es = some W' ∧ decV x src o e v W = .ok W' ∧ (isStruct e = true → W = zeroV x e) ∧
          (isStruct e = false → (∀ m ∈ ms1, ¬ KeyOf x k (inner src m.1.1 m.1.2) K) → W = (lookupV K (entriesOf V)).getD (zeroV x e))) ∧
      (DistinctKeys (entriesOf V) → DistinctKeys Es) := by
  rw [returns_ok_iff hd hm (tameDoc_of ht), top_eq V ht] at h
  obtain ⟨Es, rfl, h1⟩ := map_reads ht h
  have hno : ∀ {l : List ((Nat × Nat) × JVal)} {K : Key}, (∀ m ∈ l, m ∈ ms) → (∀ m ∈ l, ¬ KeyOf x k (inner src m.1.1 m.1.2) K) →
      ∀ m ∈ l, ∀ K', keyAt x src k m.1 = some (.ok K') → K'.same K = false := by
    intro l K hl hn m hmm K' hK
    cases hs : K'.same K with
    | false => rfl
    | true => exact absurd ((keyAt_iff (Safe.wfM_mem hw.2.2.2.2 m (hl m hmm)).1 (hk m (hl m hmm)) K).2 ⟨K', hK, hs⟩) (hn m hmm)
  refine ⟨Es, rfl, fun K hK => mapV_keep (.inl h1) (hno (fun m hm => hm) hK), ?_, fun hdk => mapV_distinct hdk (.inl h1)⟩
  rintro ms1 key v ms2 K rfl hK hK2
  obtain ⟨K', g1, g2⟩ := keyAt_of (Safe.wfM_mem hw.2.2.2.2 (key, v) (by simp)).1 hK
  obtain ⟨W, W', r1, r2, r3, r4⟩ := mapV_last g1 g2 (hno (fun m hm => by simp [hm]) hK2) h1
  exact ⟨W, W', r1, r2, r3, fun hs hms => r4 hs (hno (fun m hm => by simp [hm]) hms)⟩

/-- Keys of maps with string keys always denote a map key. -/
theorem string_keys {x : Ext} {src : Bytes} {i z : Nat} {ms : List ((Nat × Nat) × JVal)} (hw : Wf src (.obj i ms z)) : ∀ m ∈ ms, ∃ K, KeyOf x .str (inner src m.1.1 m.1.2) K := by
  intro m hm
  obtain ⟨out, h⟩ := (Safe.wfM_mem hw.2.2.2.2 m hm).1.2.2
  exact ⟨.str ⟨out, false⟩, .str h⟩

/-- `{"b":2,"c":3}` into a `map[string]int` with entries a: 1, b: 1: entry a stays, b gets 2, c gets 3. -/
example : ∃ Es, Returns demoX (demoTree 11) (decode demoX (demoDec 11) b!"{\"b\":2,\"c\":3}" (.ok (demoDoc b!"{\"b\":2,\"c\":3}"))
        (some (seg 8 (.map [(.str ⟨b!"a", false⟩, seg 8 (.int 1)), (.str ⟨b!"b", false⟩, seg 8 (.int 1))]))) (some defaultOptions)) (-1) none (.map Es) ∧
      lookupV (.str ⟨b!"a", false⟩) Es = some (.int 1) ∧ lookupV (.str ⟨b!"b", false⟩) Es = some (.int 2) ∧ lookupV (.str ⟨b!"c", false⟩) Es = some (.int 3) := by
  obtain ⟨hd, -, -, h2, ht⟩ := demo_case (t := 11) (src := b!"{\"b\":2,\"c\":3}") (o := defaultOptions) (by decide) (by decide) (by decide)
  have hm : Dest demoX (demoTree 11) (seg 8 (.map [(.str ⟨b!"a", false⟩, seg 8 (.int 1)), (.str ⟨b!"b", false⟩, seg 8 (.int 1))]))
      (.map [(.str ⟨b!"a", false⟩, .int 1), (.str ⟨b!"b", false⟩, .int 1)]) := by
    exact ⟨rfl, by decide, .inr ⟨_, _, rfl, rfl, rfl, rfl, ⟨by decide, .inr ⟨_, rfl, rfl⟩⟩, rfl, rfl, ⟨by decide, .inr ⟨_, rfl, rfl⟩⟩, trivial⟩⟩
  have hr := returns_ok (V' := .map [(.str ⟨b!"a", false⟩, .int 1), (.str ⟨b!"b", false⟩, .int 2), (.str ⟨b!"c", true⟩, .int 3)]) hd hm ht rfl
  obtain ⟨Es, he, g1, g2, -⟩ := C28_map_partial (k := .str) (e := .scalar (.int .int)) hd h2 hm ht (string_keys h2) hr
  have kk : ∀ {raw : Bytes} {out : Bytes}, Denotes raw out → ∀ K, KeyOf demoX .str raw K → ∃ s, K = .str s ∧ s.bytes = out := by
    intro raw out h K hK
    cases hK with | str h' => exact ⟨_, rfl, C09_denotes_unique _ _ _ h' h⟩
  have db : Denotes b!"b" b!"b" := .plain (by decide) .nil
  have dc : Denotes b!"c" b!"c" := .plain (by decide) .nil
  refine ⟨Es, he ▸ hr, ?_, ?_, ?_⟩
  · rw [g1]
    · rfl
    · intro m hm hK
      change m ∈ [((1, 4), JVal.num true 5 6), ((7, 10), JVal.num true 11 12)] at hm
      simp only [List.mem_cons, List.not_mem_nil, or_false] at hm
      rcases hm with rfl | rfl
      · obtain ⟨s, h1, h2⟩ := kk db _ hK; cases h1; revert h2; decide
      · obtain ⟨s, h1, h2⟩ := kk dc _ hK; cases h1; revert h2; decide
  · obtain ⟨W, W', r1, r2, -⟩ := g2 [] (1, 4) (.num true 5 6) [((7, 10), .num true 11 12)] (.str ⟨b!"b", false⟩) rfl (.str db) (by
      intro m hm hK
      simp only [List.mem_cons, List.not_mem_nil, or_false] at hm
      subst hm
      obtain ⟨s, h1, h2⟩ := kk dc _ hK; cases h1; revert h2; decide)
    rw [r1]
    have : decV demoX b!"{\"b\":2,\"c\":3}" (some defaultOptions) (.scalar (.int .int)) (.num true 5 6) W = .ok (.int 2) := rfl
    rw [this] at r2; cases r2; rfl
  · obtain ⟨W, W', r1, r2, -⟩ := g2 [((1, 4), .num true 5 6)] (7, 10) (.num true 11 12) [] (.str ⟨b!"c", false⟩) rfl (.str dc) (by simp)
    rw [r1]
    have : decV demoX b!"{\"b\":2,\"c\":3}" (some defaultOptions) (.scalar (.int .int)) (.num true 11 12) W = .ok (.int 3) := rfl
    rw [this] at r2; cases r2; rfl

/-- The full statement of C28: the last value of a key is decoded into a zero value, whatever was there. -/
def MapValuesFresh (x : Ext) : Prop :=
  ∀ (k : KeyTy) (e : Ty) (d : Decoder) (src : Bytes) (i z : Nat) (ms1 ms2 : List ((Nat × Nat) × JVal)) (key : Nat × Nat) (v : JVal) (mem : Block) (V : Val) (o : Options) (Es : List (Key × Val)) (K : Key),
    DecoderFor x (.map k e) d → Wf src (.obj i (ms1 ++ (key, v) :: ms2) z) → Dest x (.map k e) mem V → Tame x src (some o) (.map k e) (.obj i (ms1 ++ (key, v) :: ms2) z) →
    Returns x (.map k e) (decode x d src (.ok (.obj i (ms1 ++ (key, v) :: ms2) z)) (some mem) (some o)) (-1) none (.map Es) →
    KeyOf x k (inner src key.1 key.2) K → (∀ m ∈ ms2, ¬ KeyOf x k (inner src m.1.1 m.1.2) K) →
    ∃ W', lookupV K Es = some W' ∧ decV x src (some o) e v (zeroV x e) = .ok W'

/-- **C28 is false of the code**: `{"a":{"x":1},"a":{"y":2}}` into a nil `map[string]map[string]int` gives a map whose entry a has both x and y. -/
theorem C28_refuted : ¬ MapValuesFresh demoX := by
  intro h
  obtain ⟨hd, hm, -, h2, ht⟩ := demo_case (t := 58) (src := b!"{\"a\":{\"x\":1},\"a\":{\"y\":2}}") (o := defaultOptions) (by decide) (by decide) (by decide)
  have hr := returns_ok (V' := .map [(.str ⟨b!"a", true⟩, .map [(.str ⟨b!"x", true⟩, .int 1), (.str ⟨b!"y", true⟩, .int 2)])]) hd hm ht rfl
  obtain ⟨W', h3, h4⟩ := h .str (demoTree 11) _ _ 0 24 [((1, 4), .obj 5 [((6, 9), .num true 10 11)] 11)] [] (13, 16) (.obj 17 [((18, 21), .num true 22 23)] 23) _ _ _ _ (.str ⟨b!"a", true⟩) hd h2 hm ht hr
    (.str (.plain (by decide) .nil)) (by simp)
  have e1 : W' = .map [(.str ⟨b!"x", true⟩, .int 1), (.str ⟨b!"y", true⟩, .int 2)] := by
    have : lookupV (.str ⟨b!"a", true⟩) [(.str ⟨b!"a", true⟩, Val.map [(.str ⟨b!"x", true⟩, .int 1), (.str ⟨b!"y", true⟩, .int 2)])] = some (.map [(.str ⟨b!"x", true⟩, .int 1), (.str ⟨b!"y", true⟩, .int 2)]) := rfl
    rw [this] at h3; cases h3; rfl
  have e2 : decV demoX b!"{\"a\":{\"x\":1},\"a\":{\"y\":2}}" (some defaultOptions) (demoTree 11) (.obj 17 [((18, 21), .num true 22 23)] 23) (zeroV demoX (demoTree 11)) = .ok (.map [(.str ⟨b!"y", true⟩, .int 2)]) := rfl
  rw [e2, e1] at h4
  simp at h4

/-! ## Integer keys: C07 -/

theorem mapV_keys {x : Ext} {src : Bytes} {f : JVal → Val → R Val} {k : KeyTy} {z : Val} {fresh : Bool} : ∀ {ms : List ((Nat × Nat) × JVal)} {m m' : List (Key × Val)},
    mapV x src f k z fresh ms m = .ok m' → ∀ mm ∈ ms, ∃ K, keyAt x src k mm.1 = some (.ok K)
  | [], _, _, _, mm, hm => by cases hm
  | ((a, b), v) :: ms, m, m', h, mm, hm => by
    simp only [mapV] at h
    cases hk : keyAt x src k (a, b) with
    | none => unfold keyAt at hk; simp [hk] at h
    | some r =>
      cases r with
      | error er => unfold keyAt at hk; simp [hk] at h
      | ok K' =>
        rcases List.mem_cons.1 hm with rfl | hm
        · exact ⟨K', hk⟩
        · unfold keyAt at hk; simp only [hk] at h
          cases hr : f v (if fresh then z else (lookupV K' m).getD z) with
          | ok W => simp only [hr] at h; exact mapV_keys h mm hm
          | err i e W => simp [hr] at h
          | crash => simp [hr] at h
          | unsup => simp [hr] at h

/-- **C07, partial**, integer keys of maps: no key is accepted that has no integer at its beginning, and for unsigned and 64-bit kinds no integer literal out of range (acceptance and value of good keys: `C28_map_partial`
with `KeyOf.int`). Missing: texts with something behind the integer, narrow signed kinds. -/
theorem C07_keys_partial {x : Ext} {k : IKind} {e : Ty} {d : Decoder} (hd : DecoderFor x (.map (.int k) e) d) {src : Bytes} {i z : Nat} {ms : List ((Nat × Nat) × JVal)} (hw : Wf src (.obj i ms z)) {mem : Block}
    {V : Val} (hm : Dest x (.map (.int k) e) mem V) {o : Option Options} (ht : Tame x src o (.map (.int k) e) (.obj i ms z)) {V' : Val}
    (h : Returns x (.map (.int k) e) (decode x d src (.ok (.obj i ms z)) (some mem) o) (-1) none V') :
    ∀ m ∈ ms, inner src m.1.1 m.1.2 ≠ [] ∧ (∀ q, LongestViable q (inner src m.1.1 m.1.2) → IsInteger q) ∧
      (k.signed = false ∨ k.bits x.is64 = 64 → ∀ v, IsIntLit (inner src m.1.1 m.1.2) v → QuotedOK x.is64 k (inner src m.1.1 m.1.2) v) := by
  rw [returns_ok_iff hd hm (tameDoc_of ht), top_eq V ht] at h
  obtain ⟨Es, rfl, h1⟩ := map_reads ht h
  intro m hmm
  obtain ⟨K, hK⟩ := mapV_keys h1 m hmm
  unfold keyAt at hK
  rw [Doc.slice_inner (Safe.wfM_mem hw.2.2.2.2 m hmm).1] at hK
  simp only [Option.bind_some, KeyTy.key] at hK
  have hne : inner src m.1.1 m.1.2 ≠ [] := by
    intro hc
    rw [hc] at hK
    have : quotedInt x k [] = none := rfl
    rw [this] at hK; cases hK
  refine ⟨hne, fun q hq => ?_, fun hn v hv => ?_⟩
  · apply Classical.byContradiction
    intro hc
    rw [quotedInt_noint hne hq hc] at hK; simp at hK
  · apply Classical.byContradiction
    intro hc
    rw [quotedInt_bad hv hn hc] at hK; simp at hK

/-- `{"-3":{"X":1}}` into a nil `map[int]struct{X int; Y string}`. -/
example : Returns demoX (demoTree 31) (decode demoX (demoDec 31) b!"{\"-3\":{\"X\":1}}" (.ok (demoDoc b!"{\"-3\":{\"X\":1}}")) (some (zeros 8)) (some defaultOptions)) (-1) none
      (.map [(.int (-3), .struct [.int 1, .str ⟨[], false⟩])]) ∧ KeyOf demoX (.int .int) b!"-3" (.int (-3)) := by
  obtain ⟨hd, hm, -, h2, ht⟩ := demo_case (t := 31) (src := b!"{\"-3\":{\"X\":1}}") (o := defaultOptions) (by decide) (by decide) (by decide)
  exact ⟨returns_ok hd hm ht rfl, .int ⟨.neg (.cons (by decide) (by decide) (by simp)), by simp only [InRange, IKind.signed, IKind.bits]; decide, by decide⟩⟩

/-! ## map[string]string: C29 -/

theorem mapSS_mapV {x : Ext} {src : Bytes} {o : Option Options} : ∀ {ms : List ((Nat × Nat) × JVal)} {m : List (Key × Val)}, WfM src ms → ∀ m',
    mapSSV x src ms m = some (.ok m') → mapV x src (decV x src o (.scalar .str)) .str (.str ⟨[], false⟩) true ms m = .ok m'
  | [], m, _, m', h => by simpa [mapSSV, mapV] using h
  | ((a, b), v) :: ms, m, hw, m', h => by
    have ⟨out, hden⟩ := hw.1.2.2
    obtain ⟨s, hs⟩ := Safe.unescStr_some x hden
    have hk : (Model.slice src (a + 1) (b - 1)).bind (fun key => KeyTy.key x key .str) = some (.ok (.str s)) := by
      rw [Doc.slice_inner hw.1]; simp [KeyTy.key, hs]
    have hks : (Model.slice src (a + 1) (b - 1)).bind x.unescStr = some s := by rw [Doc.slice_inner hw.1]; exact hs
    simp only [mapV, hk, if_true]
    cases v with
    | str vi ve =>
      obtain ⟨out', hden'⟩ := hw.2.1.2.2
      obtain ⟨u, hu⟩ := Safe.unescStr_some x hden'
      have hvs : (Model.slice src (vi + 1) (ve - 1)).bind x.unescStr = some u := by rw [Doc.slice_inner hw.2.1]; exact hu
      simp only [mapSSV, hks, hvs] at h
      have hd : decV x src o (.scalar .str) (.str vi ve) (.str ⟨[], false⟩) = .ok (.str u) := by
        simp [decV, leafV, leaf, Ty.etype, Doc.slice_inner hw.2.1, onString, hu, actV, cellV]
      simp only [hd]
      exact mapSS_mapV hw.2.2 m' h
    | null vi ve =>
      simp only [mapSSV, hks] at h
      have hd : decV x src o (.scalar .str) (.null vi ve) (.str ⟨[], false⟩) = .ok (.str ⟨[], false⟩) := rfl
      simp only [hd]
      exact mapSS_mapV hw.2.2 m' h
    | bool c vi ve => simp [mapSSV] at h
    | num c vi ve => simp [mapSSV] at h
    | arr vi es ve => simp [mapSSV] at h
    | obj vi es ve => simp [mapSSV] at h

/-- **C29, partial** (and C28 for this type): a successful decode into a `map[string]string` gives a map with exactly the keys of the object, each with the last string given for it. Missing: the entries of the old map,
which are lost (`C29_refuted`). -/
theorem C29_mapSS_partial {x : Ext} {d : Decoder} (hd : DecoderFor x .mapSS d) {src : Bytes} {i z : Nat} {ms : List ((Nat × Nat) × JVal)} (hw : Wf src (.obj i ms z)) {mem : Block} {V : Val}
    (hm : Dest x .mapSS mem V) {o : Option Options} {V' : Val} (h : Returns x .mapSS (decode x d src (.ok (.obj i ms z)) (some mem) o) (-1) none V') :
    ∃ Es, V' = .map Es ∧ DistinctKeys Es ∧
      (∀ K, (∀ m ∈ ms, ¬ KeyOf x .str (inner src m.1.1 m.1.2) K) → lookupV K Es = none) ∧
      (∀ ms1 key v ms2 K, ms = ms1 ++ (key, v) :: ms2 → KeyOf x .str (inner src key.1 key.2) K → (∀ m ∈ ms2, ¬ KeyOf x .str (inner src m.1.1 m.1.2) K) →
        ∃ W', lookupV K Es = some W' ∧ decV x src o (.scalar .str) v (.str ⟨[], false⟩) = .ok W') := by
  rw [returns_ok_iff hd hm (by exact trivial)] at h
  simp only [decTopV, decV] at h
  cases hms : mapSSV x src ms [] with
  | none => simp [hms] at h
  | some r =>
    cases r with
    | error p => simp [hms] at h
    | ok Es =>
      simp only [hms, R.ok.injEq] at h
      subst h
      have h1 := mapSS_mapV (o := o) hw.2.2.2.2 Es hms
      have hno : ∀ {l : List ((Nat × Nat) × JVal)} {K : Key}, (∀ m ∈ l, m ∈ ms) → (∀ m ∈ l, ¬ KeyOf x .str (inner src m.1.1 m.1.2) K) →
          ∀ m ∈ l, ∀ K', keyAt x src .str m.1 = some (.ok K') → K'.same K = false := by
        intro l K hl hn m hmm K' hK
        cases hs : K'.same K with
        | false => rfl
        | true => exact absurd ((keyAt_iff (Safe.wfM_mem hw.2.2.2.2 m (hl m hmm)).1 (string_keys hw m (hl m hmm)) K).2 ⟨K', hK, hs⟩) (hn m hmm)
      refine ⟨Es, rfl, mapV_distinct (show DistinctKeys [] from trivial) (.inl h1), fun K hK => by rw [mapV_keep (.inl h1) (hno (fun m hm => hm) hK)]; rfl, ?_⟩
      rintro ms1 key v ms2 K rfl hK hK2
      obtain ⟨K', g1, g2⟩ := keyAt_of (Safe.wfM_mem hw.2.2.2.2 (key, v) (by simp)).1 hK
      obtain ⟨W, W', r1, r2, r3, r4⟩ := mapV_last g1 g2 (hno (fun m hm => by simp [hm]) hK2) h1
      rw [r3 rfl] at r2
      exact ⟨W', r1, r2⟩

example : Returns demoX (demoTree 10) (decode demoX (demoDec 10) b!"{\"a\":\"x\",\"b\":null,\"a\":\"y\"}" (.ok (demoDoc b!"{\"a\":\"x\",\"b\":null,\"a\":\"y\"}")) (some (zeros 8)) (some defaultOptions)) (-1) none
      (.map [(.str ⟨b!"a", true⟩, .str ⟨b!"y", true⟩), (.str ⟨b!"b", true⟩, .str ⟨[], false⟩)]) := by
  obtain ⟨hd, hm, -, h2, ht⟩ := demo_case (t := 10) (src := b!"{\"a\":\"x\",\"b\":null,\"a\":\"y\"}") (o := defaultOptions) (by decide) (by decide) (by decide)
  exact returns_ok hd hm ht rfl

/-- The full statement of C29: entries of the old map whose keys the object does not mention stay, as for every other map type (`C28_map_partial`). -/
def MapSSKeepsEntries (x : Ext) : Prop :=
  ∀ (d : Decoder) (src : Bytes) (i z : Nat) (ms : List ((Nat × Nat) × JVal)) (mem : Block) (V : Val) (o : Option Options) (Es : List (Key × Val)) (K : Key), DecoderFor x .mapSS d → Wf src (.obj i ms z) →
    Dest x .mapSS mem V → Returns x .mapSS (decode x d src (.ok (.obj i ms z)) (some mem) o) (-1) none (.map Es) → (∀ m ∈ ms, ¬ KeyOf x .str (inner src m.1.1 m.1.2) K) →
    lookupV K Es = lookupV K (entriesOf V)

/-- **C29 is false of the code**: `{}` into a `map[string]string` with an entry a empties it. -/
theorem C29_refuted : ¬ MapSSKeepsEntries demoX := by
  intro h
  obtain ⟨hd, -, -, h2, ht⟩ := demo_case (t := 10) (src := b!"{}") (o := defaultOptions) (by decide) (by decide) (by decide)
  have hm : Dest demoX (demoTree 10) (seg 8 (.map [(.str ⟨b!"a", false⟩, seg 16 (.str ⟨b!"x", false⟩))])) (.map [(.str ⟨b!"a", false⟩, .str ⟨b!"x", false⟩)]) :=
    ⟨rfl, by decide, .inr ⟨_, _, rfl, rfl, rfl, rfl, ⟨by decide, .inr ⟨_, rfl, rfl⟩⟩, trivial⟩⟩
  have := h _ b!"{}" 0 1 [] _ _ (some defaultOptions) [] (.str ⟨b!"a", false⟩) hd h2 hm (returns_ok hd hm ht rfl) (by simp)
  simp [lookupV, entriesOf, Key.same] at this

end Verif.Props
