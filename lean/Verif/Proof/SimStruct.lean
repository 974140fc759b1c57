import Verif.Proof.SimComp
/-!
# The token loop follows the type-directed reading: structs, and all types together
-/
namespace Verif.Proof.Sim
open Verif.Model Verif.Big Verif.Proof.Mem Verif.Proof.Any Verif.Proof.Fields

/-! ## Field tables -/

theorem findField_map (x : Ext) (o : Options) (l : List (Bytes × Nat)) (g : Nat → Nat) (name : Bytes) :
    findField x o (l.map fun p => (p.1, g p.2)) name = (findField x o l name).map g := by
  unfold findField
  split
  · simp only [exactSearch_eq, List.find?_map, Option.map_map]; rfl
  · simp only [byName_eq, List.find?_map, Option.map_map]
    have : (List.find? ((fun f : Bytes × Nat => f.1 == name) ∘ fun p => (p.1, g p.2)) l) = List.find? (fun f => f.1 == name) l := rfl
    rw [this]
    cases List.find? (fun f : Bytes × Nat => f.1 == name) l with
    | some _ => rfl
    | none =>
      simp only [Option.map_none, Option.none_or, Option.map_map]; rfl

theorem tbl_eq (tbl : List (Bytes × Nat)) : tbl = (tbl.map (·.1)).zipIdx.map fun p => (p.1, ((tbl[p.2]?).map (·.2)).getD 0) := by
  apply List.ext_getElem?
  intro i
  simp only [List.getElem?_map, List.getElem?_zipIdx]
  cases h : tbl[i]? with
  | none => rfl
  | some p => simp [h]

theorem findField_lt {x : Ext} {o : Options} {names : List Bytes} {name : Bytes} {j : Nat} (h : findField x o names.zipIdx name = some j) :
    j < names.length := by
  have key : ∀ (q : Bytes × Nat → Bool), ((names.zipIdx).find? q).map Prod.snd = some j → j < names.length := by
    intro q hq
    cases hf : (names.zipIdx).find? q with
    | none => rw [hf] at hq; cases hq
    | some p =>
      rw [hf] at hq
      cases hq
      have := List.mem_of_find?_eq_some hf
      have := List.snd_lt_of_mem_zipIdx this
      simpa using this
  unfold findField at h
  split at h
  · rw [exactSearch_eq] at h; exact key _ h
  · rw [byName_eq] at h
    cases h1 : ((names.zipIdx).find? fun f => f.1 == name).map Prod.snd with
    | some i =>
      rw [h1] at h
      simp only [Option.some_or, Option.some.injEq] at h
      subst h
      exact key _ h1
    | none => rw [h1] at h; exact key _ h

theorem findField_tbl (x : Ext) (o : Options) (tbl : List (Bytes × Nat)) (name : Bytes) :
    (findField x o tbl name = none ∧ findField x o (tbl.map (·.1)).zipIdx name = none) ∨
    ∃ j n p, findField x o (tbl.map (·.1)).zipIdx name = some j ∧ tbl[j]? = some (n, p) ∧ findField x o tbl name = some p := by
  have h := findField_map x o (tbl.map (·.1)).zipIdx (fun j => ((tbl[j]?).map (·.2)).getD 0) name
  rw [← tbl_eq] at h
  cases hf : findField x o (tbl.map (·.1)).zipIdx name with
  | none => rw [hf] at h; exact .inl ⟨h, rfl⟩
  | some j =>
    rw [hf] at h
    have hj := findField_lt hf
    simp only [List.length_map] at hj
    refine .inr ⟨j, tbl[j].1, tbl[j].2, rfl, by simp [hj], ?_⟩
    rw [h]
    simp [hj]

theorem decFields_get (x : Ext) (src : Bytes) (o : Option Options) : ∀ (fs : List (Bytes × Nat × Ty)) (j : Nat),
    (decFields x src o fs)[j]? = (fs[j]?).map fun f => (f.1, f.2.1, dec x src o f.2.2)
  | [], j => by simp [decFields]
  | (n, fo, t) :: fs, 0 => by simp [decFields]
  | (n, fo, t) :: fs, j + 1 => by simp [decFields, decFields_get x src o fs j]

theorem decFields_names (x : Ext) (src : Bytes) (o : Option Options) : ∀ (fs : List (Bytes × Nat × Ty)),
    (decFields x src o fs).map (·.1) = fs.map (·.1)
  | [] => rfl
  | (n, fo, t) :: fs => by simp [decFields, decFields_names x src o fs]

theorem repFields_names {x : Ext} {fr : List Frame} {b : Nat} : ∀ {fs : List (Bytes × Nat × Ty)} {pos : Nat} {tbl : List (Bytes × Nat)},
    RepFields x fr b fs pos tbl → tbl.map (·.1) = fs.map (·.1)
  | [], pos, tbl, h => by simp only [RepFields] at h; subst h; rfl
  | (n, o, t) :: fs, pos, tbl, h => by
    simp only [RepFields] at h
    obtain ⟨tbl', rfl, -, -, h'⟩ := h
    simp [repFields_names h']

/-- Positions of the field frames. -/
theorem repFields_pos {x : Ext} {fr : List Frame} {b : Nat} : ∀ {fs : List (Bytes × Nat × Ty)} {pos : Nat} {tbl : List (Bytes × Nat)},
    RepFields x fr b fs pos tbl → ∀ q ∈ tbl, pos ≤ q.2 ∧ q.2 < pos + widthF fs
  | [], pos, tbl, h => by simp only [RepFields] at h; subst h; simp
  | (n, o, t) :: fs, pos, tbl, h => by
    simp only [RepFields] at h
    obtain ⟨tbl', rfl, -, -, h'⟩ := h
    intro q hq
    have hw := width_pos t
    simp only [widthF]
    rcases List.mem_cons.1 hq with rfl | hq
    · exact ⟨Nat.le_refl _, by simp only []; omega⟩
    · have := repFields_pos h' q hq
      omega

/-- What is known of the `j`-th field. -/
theorem repFields_get {x : Ext} {fr : List Frame} {b : Nat} : ∀ {fs : List (Bytes × Nat × Ty)} {pos : Nat} {tbl : List (Bytes × Nat)},
    RepFields x fr b fs pos tbl → ∀ {j : Nat} {n : Bytes} {p : Nat}, tbl[j]? = some (n, p) →
      ∃ fo t, fs[j]? = some (n, fo, t) ∧ Linked fr b p (fun c => c.offset = fo) ∧ Rep x fr t p ∧ pos ≤ p ∧ p + t.width ≤ pos + widthF fs ∧
        ∀ q ∈ tbl, ¬ (p < q.2 ∧ q.2 < p + t.width)
  | [], pos, tbl, h, j, n, p, hj => by simp only [RepFields] at h; subst h; simp at hj
  | (n0, o0, t0) :: fs, pos, tbl, h, 0, n, p, hj => by
    simp only [RepFields] at h
    obtain ⟨tbl', rfl, hl, hr, h'⟩ := h
    simp only [List.getElem?_cons_zero, Option.some.injEq, Prod.mk.injEq] at hj
    obtain ⟨rfl, rfl⟩ := hj
    refine ⟨o0, t0, rfl, hl, hr, Nat.le_refl _, by simp only [widthF]; omega, ?_⟩
    intro q hq
    rcases List.mem_cons.1 hq with rfl | hq
    · simp
    · have := repFields_pos h' q hq
      omega
  | (n0, o0, t0) :: fs, pos, tbl, h, j + 1, n, p, hj => by
    simp only [RepFields] at h
    obtain ⟨tbl', rfl, hl, hr, h'⟩ := h
    simp only [List.getElem?_cons_succ] at hj
    obtain ⟨fo, t, h1, h2, h3, h4, h5, h6⟩ := repFields_get h' hj
    refine ⟨fo, t, h1, h2, h3, by omega, by simp only [widthF]; omega, ?_⟩
    intro q hq
    rcases List.mem_cons.1 hq with rfl | hq
    · simp only []; have := width_pos t0; omega
    · exact h6 q hq

/-! ## The scan for known keys -/

mutual
theorem scan_skip (x : Ext) (src : Bytes) (o : Options) (tbl : List (Bytes × Nat)) : ∀ (v : JVal) (l ti ti' : Nat) (r : List Token), hasObj v = false →
    scanKeys x src o tbl (some l) (flatten ti v ++ r) ti' = scanKeys x src o tbl (some l) r (ti' + (flatten ti v).length)
  | .null _ _, l, ti, ti', r, h | .str _ _, l, ti, ti', r, h => by simp [flatten, scanKeys]
  | .bool b _ _, l, ti, ti', r, h => by cases b <;> simp [flatten, scanKeys]
  | .num b _ _, l, ti, ti', r, h => by cases b <;> simp [flatten, scanKeys]
  | .arr i es k, l, ti, ti', r, h => by
    simp only [hasObj] at h
    simp only [flatten, List.cons_append, List.append_assoc, scanKeys]
    rw [scan_skipL x src o tbl es _ _ _ _ h]
    simp only [List.nil_append, scanKeys, List.length_cons, List.length_append, List.length_nil]
    congr 1; omega
  | .obj i ms k, l, ti, ti', r, h => by simp [hasObj] at h
theorem scan_skipL (x : Ext) (src : Bytes) (o : Options) (tbl : List (Bytes × Nat)) : ∀ (vs : List JVal) (l ti ti' : Nat) (r : List Token), hasObjL vs = false →
    scanKeys x src o tbl (some l) (flattenL ti vs ++ r) ti' = scanKeys x src o tbl (some l) r (ti' + (flattenL ti vs).length)
  | [], l, ti, ti', r, h => by simp [flattenL]
  | v :: vs, l, ti, ti', r, h => by
    simp only [hasObjL, Bool.or_eq_false_iff] at h
    simp only [flattenL, List.append_assoc]
    rw [scan_skip x src o tbl v _ _ _ _ h.1, scan_skipL x src o tbl vs _ _ _ _ h.2]
    simp only [List.length_append]
    congr 1; omega
end

theorem scan_struct {x : Ext} {src : Bytes} {o : Options} {tbl : List (Bytes × Nat)} {fs : List (Bytes × Nat × (JVal → Block → Nat → Res))}
    (hnames : tbl.map (·.1) = fs.map (·.1)) (b : Block) (off : Nat) (te : Token) (hte : te.type = .objectEnd) (rest : List Token) :
    ∀ (ms : List ((Nat × Nat) × JVal)) (skip : Option Nat) (ti : Nat), (skip = none ∧ ms ≠ [] ∨ skip = some 0) →
      (structB x src o fs ms b off = .crash ∧ scanKeys x src o tbl skip (flattenM ti ms ++ te :: rest) ti = .crash) ∨
      (∃ i, structB x src o fs ms b off = .err i .unknownField b ∧ scanKeys x src o tbl skip (flattenM ti ms ++ te :: rest) ti = .unknown i) ∨
      structB x src o fs ms b off = .unsup ∨
      (structB x src o fs ms b off = .ok b ∧ scanKeys x src o tbl skip (flattenM ti ms ++ te :: rest) ti = .brk (ti + (flattenM ti ms).length - 1)) ∨
      (∃ (pre : List ((Nat × Nat) × JVal)) (i e : Nat) (v : JVal) (ms' : List ((Nat × Nat) × JVal)) (j : Nat) (n : Bytes) (fo : Nat)
          (f : JVal → Block → Nat → Res) (p : Nat), ms = pre ++ ((i, e), v) :: ms' ∧ fs[j]? = some (n, fo, f) ∧ tbl[j]? = some (n, p) ∧
        scanKeys x src o tbl skip (flattenM ti ms ++ te :: rest) ti = .found (ti + (flattenM ti pre).length) p ∧
        (∀ b', f v b (off + fo) = .ok b' → structB x src o fs ms b off = structB x src o fs ms' b' off) ∧
        ((∀ b', f v b (off + fo) ≠ .ok b') → structB x src o fs ms b off = f v b (off + fo)) ∧
        ∃ name, (Model.slice src (i + 1) (e - 1)).bind (keyName o) = some name ∧ findField x o (fs.map (·.1)).zipIdx name = some j) := by
  intro ms
  induction ms with
  | nil =>
    intro skip ti hsk
    rcases hsk with ⟨-, h⟩ | rfl
    · exact absurd rfl h
    · refine .inr (.inr (.inr (.inl ⟨rfl, ?_⟩)))
      simp [flattenM, scanKeys, hte]
  | cons m ms ih =>
    obtain ⟨⟨i, e⟩, v⟩ := m
    intro skip ti hsk
    have hstart : scanKeys x src o tbl skip (flattenM ti (((i, e), v) :: ms) ++ te :: rest) ti =
        (match (Model.slice src (i + 1) (e - 1)).bind (keyName o) with
          | none => .crash
          | some name =>
            match findField x o tbl name with
            | some fi => .found ti fi
            | none => if o.disallowUnknownFields then .unknown i
              else scanKeys x src o tbl (some 0) (flatten (ti + 1) v ++ (flattenM (ti + 1 + (flatten (ti + 1) v).length) ms ++ te :: rest)) (ti + 1)) := by
      simp only [flattenM, List.cons_append, List.append_assoc]
      rcases hsk with ⟨rfl, -⟩ | rfl <;> simp only [scanKeys, Nat.lt_one_iff, if_true]
      all_goals rfl
    rw [hstart]
    simp only [structB]
    cases hk : (Model.slice src (i + 1) (e - 1)).bind (keyName o) with
    | none => exact .inl ⟨rfl, rfl⟩
    | some name =>
      simp only []
      rw [← hnames]
      rcases findField_tbl x o tbl name with ⟨h1, h2⟩ | ⟨j, n, p, h1, h2, h3⟩
      · rw [h1, h2]
        simp only []
        by_cases hd : o.disallowUnknownFields = true
        · rw [if_pos hd, if_pos hd]
          exact .inr (.inl ⟨i, rfl, rfl⟩)
        · rw [if_neg hd, if_neg hd]
          by_cases ho : hasObj v = true
          · rw [if_pos ho]; exact .inr (.inr (.inl rfl))
          · rw [if_neg ho]
            rw [scan_skip x src o tbl v 0 (ti + 1) (ti + 1) _ (by simpa using ho)]
            rcases ih (some 0) (ti + 1 + (flatten (ti + 1) v).length) (.inr rfl) with h | h | h | ⟨ha, hb⟩ | ⟨pre, i', e', v', ms', j, n, fo, f, p, ha, hb, hc, hd', he, hf, hg⟩
            · exact .inl h
            · exact .inr (.inl h)
            · exact .inr (.inr (.inl h))
            · refine .inr (.inr (.inr (.inl ⟨ha, ?_⟩)))
              rw [hb]
              simp only [flattenM, List.length_cons, List.length_append]
              congr 1; omega
            · refine .inr (.inr (.inr (.inr ⟨((i, e), v) :: pre, i', e', v', ms', j, n, fo, f, p, by simp [ha], hb, hc, ?_, he, hf, by rw [hnames]; exact hg⟩)))
              rw [hd']
              simp only [flattenM, List.length_cons, List.length_append]
              congr 1; omega
      · have hj : ∃ q, fs[j]? = some q := by
          have h4 : j < tbl.length := by
            rcases Nat.lt_or_ge j tbl.length with h | h
            · exact h
            · rw [List.getElem?_eq_none h] at h2; cases h2
          have h5 := congrArg List.length hnames
          simp only [List.length_map] at h5
          exact ⟨fs[j]'(by omega), List.getElem?_eq_getElem _⟩
        obtain ⟨⟨n', fo, f⟩, hq⟩ := hj
        have hnn : n' = n := by
          have := congrArg (fun l => l[j]?) hnames
          simp only [List.getElem?_map, h2, hq, Option.map_some, Option.some.injEq] at this
          exact this.symm
        subst hnn
        rw [h1, h3]
        simp only [hq]
        refine .inr (.inr (.inr (.inr ⟨[], i, e, v, ms, j, n', fo, f, p, rfl, hq, h2, by simp [flattenM], ?_, ?_, name, hk, h1⟩)))
        · intro b' hb'; rw [hb']
        · intro hb'
          cases hfv : f v b (off + fo) with
          | ok b' => exact absurd hfv (hb' b')
          | _ => rfl

/-! ## Structs -/

/-- The closing brace of a struct. -/
theorem sim_structEnd {pr : Prog} {s : St} {b hi : Nat} {path : List Step} {blk : Block} {f : Frame} {te : Token} {rest : List Token}
    (hpc : s.pc = .loop) (hsi : s.si = b) (hf : pr.frames[b]? = some f) (hty : f.type = .struct)
    (htk : pr.toks.drop s.ti = te :: rest) (hte : te.type = .objectEnd)
    (hb : getBlock s.mem path = some blk) (hd : DynOK pr.frames s.dyn) : PostG pr s b b hi path 1 (.ok blk) := by
  have hs := step_loop hpc (toks_head htk) (by rw [hsi]; exact hf)
  simp only [dispatch, hte, onObjectEnd, hty] at hs
  exact ⟨_, Reach.one hs, rfl, hsi, rfl, put_get hb, fun _ _ => rfl, hd⟩

theorem flattenM_append : ∀ (ms ms' : List ((Nat × Nat) × JVal)) (ti : Nat),
    flattenM ti (ms ++ ms') = flattenM ti ms ++ flattenM (ti + (flattenM ti ms).length) ms'
  | [], ms', ti => by simp [flattenM]
  | ((i, e), v) :: ms, ms', ti => by
    simp only [List.cons_append, flattenM, List.append_assoc]
    rw [flattenM_append ms ms']
    simp only [List.length_cons, List.length_append]
    congr 3
    congr 1; omega

/-- The loop over the members of an object decoded into a struct. -/
theorem sim_structLoop {pr : Prog} {b : Nat} {size : Nat} {fields : List (Bytes × Nat × Ty)} {f : Frame} (hf : pr.frames[b]? = some f)
    (hty : f.type = .struct) (hrf : RepFields pr.x pr.frames b fields (b + 1) f.fields)
    (ih : ∀ (j : Nat) (n : Bytes) (p fo : Nat) (t : Ty), f.fields[j]? = some (n, p) → fields[j]? = some (n, fo, t) → SimAt pr t p)
    {o : Options} (ho : pr.options = some o) :
    ∀ (N : Nat) (ms : List ((Nat × Nat) × JVal)), ms.length ≤ N → ∀ (s : St) (path : List Step) (off : Nat) (blk : Block) (te : Token) (rest : List Token),
    s.pc = .loop → s.si = b → (∀ q ∈ f.fields, (s.dyn q.2).dest = .at ⟨path, off⟩) →
    pr.toks.drop s.ti = flattenM s.ti ms ++ te :: rest → te.type = .objectEnd → getBlock s.mem path = some blk → DynOK pr.frames s.dyn →
    PostG pr s b b (b + (1 + widthF fields)) path ((flattenM s.ti ms).length + 1)
      (structB pr.x pr.src o (decFields pr.x pr.src pr.options fields) ms blk off) := by
  intro N
  induction N with
  | zero =>
    intro ms hN s path off blk te rest hpc hsi hp htk hte hb hd
    have : ms = [] := List.length_eq_zero_iff.1 (by omega)
    subst this
    simp only [flattenM, List.nil_append] at htk
    simp only [flattenM, structB, List.length_nil, Nat.zero_add]
    exact sim_structEnd hpc hsi hf hty htk hte hb hd
  | succ N ihN =>
    intro ms hN s path off blk te rest hpc hsi hp htk hte hb hd
    by_cases hms : ms = []
    · subst hms
      simp only [flattenM, List.nil_append] at htk
      simp only [flattenM, structB, List.length_nil, Nat.zero_add]
      exact sim_structEnd hpc hsi hf hty htk hte hb hd
    have hs : step pr s = match scanKeys pr.x pr.src o f.fields none (pr.toks.drop s.ti) s.ti with
        | .crash => .crash
        | .unknown i => .err i .unknownField s
        | .brk ti => .run { s with ti := ti + 1 }
        | .found ti fi => .run { s with ti := ti + 1, si := fi } := by
      obtain ⟨⟨⟨i, en⟩, v⟩, ms', rfl⟩ := List.exists_cons_of_ne_nil hms
      simp only [flattenM, List.append_assoc, List.cons_append] at htk
      have hs := step_loop hpc (toks_head htk) (by rw [hsi]; exact hf)
      simp only [dispatch, onKey, hty, ho] at hs
      exact hs
    rw [htk] at hs
    have hnames : f.fields.map (·.1) = (decFields pr.x pr.src pr.options fields).map (·.1) := by
      rw [decFields_names]; exact repFields_names hrf
    rcases scan_struct (x := pr.x) (src := pr.src) (o := o) hnames blk off te hte rest ms none s.ti (.inl ⟨rfl, hms⟩) with
      ⟨h1, h2⟩ | ⟨i, h1, h2⟩ | h1 | ⟨h1, h2⟩ | ⟨pre, i, e, v, ms', j, n, fo, g, p, h0, h1, h2, h3, h4, h5, -⟩
    · rw [h1]; rw [h2] at hs; exact Halts.one hs (by simp)
    · rw [h1]; rw [h2] at hs; exact ⟨s, Halts.one hs (by simp), put_get hb, hd⟩
    · rw [h1]; trivial
    · rw [h1]; rw [h2] at hs
      have hpos : 0 < (flattenM s.ti ms).length := by
        obtain ⟨⟨⟨i, en⟩, v⟩, ms', rfl⟩ := List.exists_cons_of_ne_nil hms
        simp [flattenM]
      refine PostG.trans (Reach.one hs) ?_ (put_get hb) (fun _ _ => rfl)
        (sim_structEnd (te := te) (rest := rest) hpc hsi hf hty ?_ hte hb hd)
      · simp only []; omega
      · simp only []
        have e1 : s.ti + (flattenM s.ti ms).length - 1 + 1 = s.ti + (flattenM s.ti ms).length := by omega
        rw [e1]
        exact toks_drop htk
    · rw [h3] at hs
      simp only [] at hs
      rw [decFields_get] at h1
      obtain ⟨fo', t, hfj, ⟨c, hc, hcp, hco⟩, hrt, hlo, hhi, hother⟩ := repFields_get hrf h2
      rw [hfj] at h1
      simp only [Option.map_some, Option.some.injEq, Prod.mk.injEq, true_and] at h1
      obtain ⟨rfl, rfl⟩ := h1
      -- tokens of the value
      subst h0
      rw [flattenM_append] at htk
      simp only [flattenM, List.append_assoc, List.cons_append] at htk
      have htk1 := toks_drop htk
      have htk2 : pr.toks.drop (s.ti + (flattenM s.ti pre).length + 1) =
          flatten (s.ti + (flattenM s.ti pre).length + 1) v ++
            (flattenM (s.ti + (flattenM s.ti pre).length + 1 + (flatten (s.ti + (flattenM s.ti pre).length + 1) v).length) ms' ++ te :: rest) := by
        have := toks_drop (t := [_]) (r := flatten (s.ti + (flattenM s.ti pre).length + 1) v ++
            (flattenM (s.ti + (flattenM s.ti pre).length + 1 + (flatten (s.ti + (flattenM s.ti pre).length + 1) v).length) ms' ++ te :: rest))
            (by rw [htk1]; simp; rfl)
        simpa using this
      have hpre : Pre pr { s with ti := s.ti + (flattenM s.ti pre).length + 1, si := p } p path (off + fo') blk v
          (flattenM (s.ti + (flattenM s.ti pre).length + 1 + (flatten (s.ti + (flattenM s.ti pre).length + 1) v).length) ms' ++ te :: rest) := by
        refine ⟨hpc, rfl, ?_, htk2, hb, hd⟩
        have hmem : (n, p) ∈ f.fields := List.mem_of_getElem? h2
        have hcn : c.type ≠ .structRecur := by
          obtain ⟨c', hc', hct, -⟩ := hrt.frame
          rw [hc] at hc'; cases hc'; rw [hct]; exact etype_ne t
        have hoff := hd.off p c b f hc hcn hcp hf (.inl hty)
        simp only []
        rw [hp _ hmem, hoff, hco]
        rfl
      have hchild := ih j n p fo' t h2 hfj _ v path (off + fo') blk _ hpre
      rw [post_iff] at hchild
      have hlen : (flattenM s.ti (pre ++ ((i, e), v) :: ms')).length = (flattenM s.ti pre).length + (1 + (flatten (s.ti + (flattenM s.ti pre).length + 1) v).length +
          (flattenM (s.ti + (flattenM s.ti pre).length + 1 + (flatten (s.ti + (flattenM s.ti pre).length + 1) v).length) ms').length) := by
        rw [flattenM_append]
        simp only [flattenM, List.length_append, List.length_cons]
        omega
      cases hdec : dec pr.x pr.src pr.options t v blk (off + fo') with
      | err i' er b' =>
        rw [h5 (fun b' hb' => by rw [hdec] at hb'; cases hb'), hdec]
        rw [hdec] at hchild
        obtain ⟨s', a1, a2, a3⟩ := hchild
        exact ⟨s', (Reach.one hs).halts a1, a2, a3⟩
      | crash =>
        rw [h5 (fun b' hb' => by rw [hdec] at hb'; cases hb'), hdec]
        rw [hdec] at hchild
        exact (Reach.one hs).halts hchild
      | unsup =>
        rw [h5 (fun b' hb' => by rw [hdec] at hb'; cases hb'), hdec]
        trivial
      | ok b' =>
        rw [h4 b' hdec]
        rw [hdec] at hchild
        obtain ⟨s1, a1, a2, a3, a4, a5, a6, a7⟩ := hchild
        have hst : step pr s1 = onValEnd pr s1 c := by simp [step, a2, a3, hc]
        simp only [onValEnd, hcp, hf, hty] at hst
        simp only [] at a4 a5 a6
        refine PostG.trans ((Reach.one hs).trans (a1.trans (Reach.one hst))) ?_ a5 ?_
          (ihN ms' (by simp at hN; omega) _ path off b' te rest rfl rfl ?_ ?_ hte (get_put a5) a7)
        · simp only [a4, hlen]
          omega
        · intro k hk; exact a6 k (by omega)
        · intro q hq
          simp only []
          rw [a6 q.2 (hother q hq)]
          exact hp q hq
        · simp only [a4]
          exact toks_drop htk2

theorem sim_struct {pr : Prog} {b : Nat} {size : Nat} {fields : List (Bytes × Nat × Ty)} (hr : Rep pr.x pr.frames (.struct size fields) b)
    (ih : ∀ f, pr.frames[b]? = some f → ∀ (j : Nat) (n : Bytes) (p fo : Nat) (t : Ty), f.fields[j]? = some (n, p) → fields[j]? = some (n, fo, t) → SimAt pr t p) :
    SimAt pr (.struct size fields) b := by
  intro s v path off blk rest h
  obtain ⟨f, hf, hty, hsz, hrf⟩ := hr
  cases v with
  | obj i ms k1 =>
    have hs := step_obj h hf
    have htk := h.toks
    simp only [flatten] at htk
    simp only [onObject, hty] at hs
    simp only [dec]
    by_cases hm : ms = []
    · subst hm
      simp only [List.length_nil, if_true] at hs
      rw [if_pos rfl]
      exact ⟨_, Reach.one hs, rfl, h.si, rfl, put_get h.blk, fun _ _ => rfl, h.dyn⟩
    · rw [if_neg (by simpa using hm)] at hs
      rw [if_neg hm]
      have htk1 : pr.toks.drop (s.ti + 1) = flattenM (s.ti + 1) ms ++ ⟨.objectEnd, k1, k1 + 1, 0⟩ :: rest := by
        have := toks_drop (t := [_]) (r := flattenM (s.ti + 1) ms ++ ⟨.objectEnd, k1, k1 + 1, 0⟩ :: rest) (by rw [htk]; simp; rfl)
        simpa using this
      cases ho : pr.options with
      | none =>
        refine (Reach.one hs).halts (Halts.one (o := .crash) ?_ (by simp))
        obtain ⟨⟨⟨i', en⟩, v'⟩, ms', rfl⟩ := List.exists_cons_of_ne_nil hm
        simp only [flattenM, List.append_assoc, List.cons_append] at htk1
        rw [step_loop (s := { s with ti := s.ti + 1, dyn := setFieldDests s.p f.fields s.dyn }) h.pc (toks_head htk1) (by simp only []; rw [h.si]; exact hf)]
        simp [dispatch, onKey, hty, ho]
      | some o =>
        simp only []
        rw [post_iff]
        have hloop := sim_structLoop (size := size) hf hty hrf (ih f hf) ho ms.length ms (Nat.le_refl _)
          { s with ti := s.ti + 1, dyn := setFieldDests s.p f.fields s.dyn } path off blk ⟨.objectEnd, k1, k1 + 1, 0⟩ rest h.pc h.si
          (fun q hq => by
            simp only [setFieldDests_eq]
            rw [if_pos (List.mem_map.2 ⟨q, hq, rfl⟩), h.sp])
          htk1 rfl h.blk (h.dyn.setFields _ _)
        rw [ho] at hloop
        refine PostG.trans (Reach.one hs) ?_ (put_get h.blk) ?_ hloop
        · simp [flatten]; omega
        · intro j hj
          simp only [setFieldDests_eq]
          rw [if_neg]
          intro hc
          obtain ⟨q, hq, hqj⟩ := List.mem_map.1 hc
          have := repFields_pos hrf q hq
          simp only [Ty.width] at hj
          omega
  | arr i es k => exact sim_mismatch h hf _ (.inl ⟨i, es, k, rfl, fun t => by simp [onArray, hty]⟩)
  | null _ _ | bool _ _ _ | num _ _ _ | str _ _ =>
    simp only [dec]
    rw [← hty]
    exact sim_leaf h hf rfl (by rw [hty]; simp)

/-! ## All types -/

mutual
/-- The machine follows the type-directed reading, for every type. -/
theorem sim {pr : Prog} : ∀ {ty : Ty} {b : Nat}, Rep pr.x pr.frames ty b → SimAt pr ty b
  | .any, b, h => sim_any h
  | .number, b, h => by obtain ⟨f, h1, h2, -⟩ := h; exact sim_scalar h1 h2 (.inl rfl)
  | .scalar k, b, h => by obtain ⟨f, h1, h2, -⟩ := h; exact sim_scalar h1 h2 (.inr (.inl ⟨k, rfl⟩))
  | .quoted k, b, h => by obtain ⟨f, h1, h2, -⟩ := h; exact sim_scalar h1 h2 (.inr (.inr ⟨k, rfl⟩))
  | .jsonU _ _ _, b, h => sim_json h
  | .textU _ _ _, b, h => sim_text h
  | .array0, b, h => sim_array0 h
  | .array n e, b, h => sim_array h (sim (ty := e) h.2.2.2)
  | .slice e, b, h => sim_slice h (sim (ty := e) h.2.2)
  | .sliceOf k, b, h => sim_sliceOf h
  | .sliceES, b, h => sim_sliceES h
  | .mapSS, b, h => sim_mapSS h
  | .map k e, b, h => sim_map h (sim (ty := e) h.2.2.2)
  | .struct size fields, b, h => sim_struct h (fun f hf => by
      obtain ⟨f', hf', -, -, hrf⟩ := h
      rw [hf] at hf'; cases hf'
      exact simF (fields := fields) hrf)
  | .emptyStruct, b, h => sim_emptyStruct h
  | .ptr e, b, h => sim_ptr h
theorem simF {pr : Prog} : ∀ {fields : List (Bytes × Nat × Ty)} {b pos : Nat} {tbl : List (Bytes × Nat)},
    RepFields pr.x pr.frames b fields pos tbl →
    ∀ (j : Nat) (n : Bytes) (p fo : Nat) (t : Ty), tbl[j]? = some (n, p) → fields[j]? = some (n, fo, t) → SimAt pr t p
  | [], b, pos, tbl, h, j, n, p, fo, t, h1, h2 => by simp at h2
  | (n0, o0, t0) :: fs, b, pos, tbl, h, 0, n, p, fo, t, h1, h2 => by
    simp only [RepFields] at h
    obtain ⟨tbl', rfl, -, hr, -⟩ := h
    simp only [List.getElem?_cons_zero, Option.some.injEq, Prod.mk.injEq] at h1 h2
    obtain ⟨-, rfl⟩ := h1
    obtain ⟨-, -, rfl⟩ := h2
    exact sim (ty := t0) hr
  | (n0, o0, t0) :: fs, b, pos, tbl, h, j + 1, n, p, fo, t, h1, h2 => by
    simp only [RepFields] at h
    obtain ⟨tbl', rfl, -, -, h'⟩ := h
    simp only [List.getElem?_cons_succ] at h1 h2
    exact simF (fields := fs) h' j n p fo t h1 h2
end

end Verif.Proof.Sim
