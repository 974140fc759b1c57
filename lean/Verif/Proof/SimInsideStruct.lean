import Verif.Proof.SimInsideComp
/-!
# Recursive structs inside other types: structs around them, and all types
-/
namespace Verif.Proof.Sim
open Verif.Model Verif.Big Verif.Spec Verif.Proof.Mem Verif.Proof.Any Verif.Proof.Fields

/-- The fields of a struct: the table of the frame at `b`, the decoders, and what the values satisfy. -/
structure FieldsX (pr : Prog) (b w : Nat) (tbl : List (Bytes × Nat)) (gs : List (Bytes × Nat × (JVal → Block → Nat → Res))) (Ts : List (JVal → Prop)) : Prop where
  names : tbl.map (·.1) = gs.map (·.1)
  pos : ∀ q ∈ tbl, b < q.2 ∧ q.2 < b + (1 + w)
  get : ∀ {j : Nat} {n : Bytes} {p : Nat}, tbl[j]? = some (n, p) → ∃ fo g w' T T' c, gs[j]? = some (n, fo, g) ∧ pr.frames[p]? = some c ∧ c.parent = some b ∧ c.offset = fo ∧
    Ts[j]? = some T' ∧ T' = T (fo == 0) ∧ SimX pr p w' g T ∧ b < p ∧ p + w' ≤ b + (1 + w) ∧ ∀ q ∈ tbl, ¬ (p < q.2 ∧ q.2 < p + w')

/-- What the members of an object decoded into a struct satisfy. -/
def MemT (x : Ext) (src : Bytes) (o : Options) (names : List Bytes) (Ts : List (JVal → Prop)) (m : (Nat × Nat) × JVal) : Prop :=
  ∀ raw name, Model.slice src (m.1.1 + 1) (m.1.2 - 1) = some raw → keyName o raw = some name →
    ∀ j, findField x o names.zipIdx name = some j → ∀ T, Ts[j]? = some T → T m.2

/-- The loop over the members of an object decoded into a struct. -/
theorem simX_structLoop {pr : Prog} {b w : Nat} {f : Frame} {gs : List (Bytes × Nat × (JVal → Block → Nat → Res))} {Ts : List (JVal → Prop)} (hf : pr.frames[b]? = some f)
    (hty : f.type = .struct) (hrf : FieldsX pr b w f.fields gs Ts) {o : Options} (ho : pr.options = some o) :
    ∀ (N : Nat) (ms : List ((Nat × Nat) × JVal)), ms.length ≤ N → ∀ (s : St) (path : List Step) (off : Nat) (blk : Block) (te : Token) (rest : List Token),
    s.pc = .loop → s.si = b → (∀ q ∈ f.fields, (s.dyn q.2).dest = .at ⟨path, off⟩) →
    pr.toks.drop s.ti = flattenM s.ti ms ++ te :: rest → te.type = .objectEnd → getBlock s.mem path = some blk → DynOK pr.frames s.dyn → Idle pr.frames s.dyn →
    (∀ m ∈ ms, MemT pr.x pr.src o (gs.map (·.1)) Ts m) →
    PostY pr s b b (b + (1 + w)) path ((flattenM s.ti ms).length + 1) (structB pr.x pr.src o gs ms blk off) := by
  intro N
  induction N with
  | zero =>
    intro ms hN s path off blk te rest hpc hsi hp htk hte hb hd hi ht
    have : ms = [] := List.length_eq_zero_iff.1 (by omega)
    subst this
    simp only [flattenM, List.nil_append] at htk
    simp only [flattenM, structB, List.length_nil, Nat.zero_add]
    exact postY_of (sim_structEnd hpc hsi hf hty htk hte hb hd) hi
  | succ N ihN =>
    intro ms hN s path off blk te rest hpc hsi hp htk hte hb hd hi ht
    by_cases hms : ms = []
    · subst hms
      simp only [flattenM, List.nil_append] at htk
      simp only [flattenM, structB, List.length_nil, Nat.zero_add]
      exact postY_of (sim_structEnd hpc hsi hf hty htk hte hb hd) hi
    have hs : step pr s = match scanKeys pr.x pr.src o f.fields none (pr.toks.drop s.ti) s.ti with
        | .crash => .crash
        | .unknown i => .err i .unknownField s
        | .brk ti => .run { s with ti := ti + 1 }
        | .found ti fi => .run { s with ti := ti + 1, si := fi } := by
      obtain ⟨⟨⟨i, en⟩, v⟩, ms', rfl⟩ := List.exists_cons_of_ne_nil hms
      simp only [flattenM, List.append_assoc, List.cons_append] at htk
      have hs := step_loop hpc (toks_head htk) (by rw [hsi]; exact hf)
      simp only [dispatch, onKey, hty, ho] at hs
      exact hs
    rw [htk] at hs
    rcases scan_struct (x := pr.x) (src := pr.src) (o := o) hrf.names blk off te hte rest ms none s.ti (.inl ⟨rfl, hms⟩) with
      ⟨h1, h2⟩ | ⟨i, h1, h2⟩ | h1 | ⟨h1, h2⟩ | ⟨pre, i, e, v, ms', j, n, fo, g, p, h0, h1, h2, h3, h4, h5, name, hname, hfind⟩
    · rw [h1]; rw [h2] at hs; exact Halts.one hs (by simp)
    · rw [h1]; rw [h2] at hs; exact ⟨s, Halts.one hs (by simp), put_get hb, hd⟩
    · rw [h1]; trivial
    · rw [h1]; rw [h2] at hs
      have hpos : 0 < (flattenM s.ti ms).length := by
        obtain ⟨⟨⟨i, en⟩, v⟩, ms', rfl⟩ := List.exists_cons_of_ne_nil hms
        simp [flattenM]
      refine PostQ.trans (Reach.one hs) ?_ (put_get hb) (fun _ _ => rfl)
        (postY_of (sim_structEnd (te := te) (rest := rest) hpc hsi hf hty ?_ hte hb hd) hi)
      · simp only []; omega
      · simp only []
        have e1 : s.ti + (flattenM s.ti ms).length - 1 + 1 = s.ti + (flattenM s.ti ms).length := by omega
        rw [e1]
        exact toks_drop htk
    · rw [h3] at hs
      simp only [] at hs
      obtain ⟨fo', g', w', T, T', c, hgj, hc, hcp, hco, hT, hTT, ih, hlo, hhi, hother⟩ := hrf.get h2
      rw [hgj] at h1
      simp only [Option.some.injEq, Prod.mk.injEq, true_and] at h1
      obtain ⟨rfl, rfl⟩ := h1
      have htv : T (fo' == 0) v := by
        subst hTT
        have hm := ht ((i, e), v) (by rw [h0]; simp)
        cases hsl : Model.slice pr.src (i + 1) (e - 1) with
        | none => rw [hsl] at hname; cases hname
        | some raw =>
          rw [hsl] at hname
          exact hm raw name hsl hname j hfind _ hT
      subst h0
      rw [flattenM_append] at htk
      simp only [flattenM, List.append_assoc, List.cons_append] at htk
      have htk1 := toks_drop htk
      have htk2 : pr.toks.drop (s.ti + (flattenM s.ti pre).length + 1) =
          flatten (s.ti + (flattenM s.ti pre).length + 1) v ++
            (flattenM (s.ti + (flattenM s.ti pre).length + 1 + (flatten (s.ti + (flattenM s.ti pre).length + 1) v).length) ms' ++ te :: rest) := by
        have := toks_drop (t := [_]) (r := flatten (s.ti + (flattenM s.ti pre).length + 1) v ++
            (flattenM (s.ti + (flattenM s.ti pre).length + 1 + (flatten (s.ti + (flattenM s.ti pre).length + 1) v).length) ms' ++ te :: rest))
            (by rw [htk1]; simp; rfl)
        simpa using this
      have hoff : (s.dyn p).offset = fo' := by rw [off_value hf (.inl hty) hc hcp hd hi, hco]
      have hpre : Pre pr { s with ti := s.ti + (flattenM s.ti pre).length + 1, si := p } p path (off + fo') blk v
          (flattenM (s.ti + (flattenM s.ti pre).length + 1 + (flatten (s.ti + (flattenM s.ti pre).length + 1) v).length) ms' ++ te :: rest) := by
        refine ⟨hpc, rfl, ?_, htk2, hb, hd⟩
        have hmem : (n, p) ∈ f.fields := List.mem_of_getElem? h2
        simp only []
        rw [hp _ hmem, hoff]
        rfl
      have hchild := ih _ v path (off + fo') blk _ (fo' == 0) hpre hi (fun hz => by simp only []; rw [hoff]; simpa using hz) htv
      have hlen : (flattenM s.ti (pre ++ ((i, e), v) :: ms')).length = (flattenM s.ti pre).length + (1 + (flatten (s.ti + (flattenM s.ti pre).length + 1) v).length +
          (flattenM (s.ti + (flattenM s.ti pre).length + 1 + (flatten (s.ti + (flattenM s.ti pre).length + 1) v).length) ms').length) := by
        rw [flattenM_append]
        simp only [flattenM, List.length_append, List.length_cons]
        omega
      cases hdec : g' v blk (off + fo') with
      | err i' er b' =>
        rw [h5 (fun b' hb' => by rw [hdec] at hb'; cases hb'), hdec]
        rw [hdec] at hchild
        obtain ⟨s', a1, a2, a3⟩ := hchild
        exact ⟨s', (Reach.one hs).halts a1, a2, a3⟩
      | crash =>
        rw [h5 (fun b' hb' => by rw [hdec] at hb'; cases hb'), hdec]
        rw [hdec] at hchild
        exact (Reach.one hs).halts hchild
      | unsup =>
        rw [h5 (fun b' hb' => by rw [hdec] at hb'; cases hb'), hdec]
        trivial
      | ok b' =>
        rw [h4 b' hdec]
        rw [hdec] at hchild
        obtain ⟨s1, a1, a2, a3, a4, a5, a6, a7, a8⟩ := hchild
        have hst : step pr s1 = onValEnd pr s1 c := by simp [step, a2, a3, hc]
        simp only [onValEnd, hcp, hf, hty] at hst
        simp only [] at a4 a5 a6
        refine PostQ.trans ((Reach.one hs).trans (a1.trans (Reach.one hst))) ?_ a5 ?_
          (ihN ms' (by simp at hN; omega) _ path off b' te rest rfl rfl ?_ ?_ hte (get_put a5) a7 a8 (fun m hm => ht m (by simp [hm])))
        · simp only [a4, hlen]
          omega
        · intro k hk; exact a6 k (by omega)
        · intro q hq
          simp only []
          rw [a6 q.2 (hother q hq)]
          exact hp q hq
        · simp only [a4]
          exact toks_drop htk2

/-- The decoder of a struct. -/
def structG (x : Ext) (src : Bytes) (o : Option Options) (gs : List (Bytes × Nat × (JVal → Block → Nat → Res))) (v : JVal) (b : Block) (off : Nat) : Res :=
  match v with
  | .obj _ ms _ =>
    if ms = [] then .ok b
    else match o with
      | none => .crash
      | some o' => structB x src o' gs ms b off
  | v => execB x none 0 false b off v.index (leaf x src .struct v)

/-- The members of an object. -/
def StructT (x : Ext) (src : Bytes) (o : Option Options) (names : List Bytes) (Ts : List (JVal → Prop)) (v : JVal) : Prop :=
  match v with
  | .obj _ ms _ => ∀ o', o = some o' → ∀ m ∈ ms, MemT x src o' names Ts m
  | _ => True

theorem simX_struct {pr : Prog} {b w : Nat} {f : Frame} {gs : List (Bytes × Nat × (JVal → Block → Nat → Res))} {Ts : List (JVal → Prop)} (hf : pr.frames[b]? = some f)
    (hty : f.type = .struct) (hrf : FieldsX pr b w f.fields gs Ts) :
    SimX pr b (1 + w) (structG pr.x pr.src pr.options gs) (fun _ => StructT pr.x pr.src pr.options (gs.map (·.1)) Ts) := by
  intro s v path off blk rest z h hi hz ht
  cases v with
  | obj i ms k1 =>
    have hs := step_obj h hf
    have htk := h.toks
    simp only [flatten] at htk
    simp only [onObject, hty] at hs
    simp only [structG]
    simp only [StructT] at ht
    by_cases hm : ms = []
    · subst hm
      simp only [List.length_nil, if_true] at hs
      rw [if_pos rfl]
      exact ⟨_, Reach.one hs, rfl, h.si, rfl, put_get h.blk, fun _ _ => rfl, h.dyn, hi⟩
    · rw [if_neg (by simpa using hm)] at hs
      rw [if_neg hm]
      have htk1 : pr.toks.drop (s.ti + 1) = flattenM (s.ti + 1) ms ++ ⟨.objectEnd, k1, k1 + 1, 0⟩ :: rest := by
        have := toks_drop (t := [_]) (r := flattenM (s.ti + 1) ms ++ ⟨.objectEnd, k1, k1 + 1, 0⟩ :: rest) (by rw [htk]; simp; rfl)
        simpa using this
      cases ho : pr.options with
      | none =>
        refine (Reach.one hs).halts (Halts.one (o := .crash) ?_ (by simp))
        obtain ⟨⟨⟨i', en⟩, v'⟩, ms', rfl⟩ := List.exists_cons_of_ne_nil hm
        simp only [flattenM, List.append_assoc, List.cons_append] at htk1
        rw [step_loop (s := { s with ti := s.ti + 1, dyn := setFieldDests s.p f.fields s.dyn }) h.pc (toks_head htk1) (by simp only []; rw [h.si]; exact hf)]
        simp [dispatch, onKey, hty, ho]
      | some o =>
        simp only []
        have hloop := simX_structLoop hf hty hrf ho ms.length ms (Nat.le_refl _)
          { s with ti := s.ti + 1, dyn := setFieldDests s.p f.fields s.dyn } path off blk ⟨.objectEnd, k1, k1 + 1, 0⟩ rest h.pc h.si
          (fun q hq => by
            simp only [setFieldDests_eq]
            rw [if_pos (List.mem_map.2 ⟨q, hq, rfl⟩), h.sp])
          htk1 rfl h.blk (h.dyn.setFields _ _) (hi.setFields _ _) (ht o ho)
        refine PostQ.trans (Reach.one hs) ?_ (put_get h.blk) ?_ hloop
        · simp [flatten]; omega
        · intro j hj
          simp only [setFieldDests_eq]
          rw [if_neg]
          intro hc
          obtain ⟨q, hq, hqj⟩ := List.mem_map.1 hc
          have := hrf.pos q hq
          omega
  | arr i es k => exact post_widen0 hi (sim_mismatch h hf _ (.inl ⟨i, es, k, rfl, fun t => by simp [onArray, hty]⟩))
  | null _ _ | bool _ _ _ | num _ _ _ | str _ _ =>
    simp only [structG]
    rw [← hty]
    exact post_widen0 hi (sim_leaf h hf rfl (by rw [hty]; simp))

/-! ## All types -/

theorem widthX_pos (t : RTy) : 0 < t.width := by cases t <;> simp only [RTy.width] <;> first | exact width_pos _ | omega

theorem repX_frame {x : Ext} {fr : List Frame} {ty : RTy} {b : Nat} (h : RepX x fr ty b) :
    ∃ f, fr[b]? = some f ∧ f.type = ty.etype ∧ f.size = ty.size x := by
  cases ty <;> simp only [RepX] at h <;> simp only [RTy.etype, RTy.size]
  case plain t => exact h.frame
  case self => obtain ⟨f, h1, h2, h3, -⟩ := h; exact ⟨f, h1, h2, h3⟩
  case array => exact h.1
  case slice => exact h.1
  case map => obtain ⟨⟨f, h1, h2, h3, -⟩, -⟩ := h; exact ⟨f, h1, h2, h3⟩
  case struct => obtain ⟨f, h1, h2, h3, -⟩ := h; exact ⟨f, h1, h2, h3⟩

theorem isSelf_iff (t : RTy) : t.etype = .structRecur ↔ t.isSelf = true := by
  cases t with
  | plain t => simp only [RTy.etype, RTy.isSelf]; exact ⟨fun h => absurd h (etype_ne t), by simp⟩
  | _ => simp [RTy.etype, RTy.isSelf]

theorem decXF_names (x : Ext) (src : Bytes) (o : Option Options) (n : Nat) : ∀ fs, (decXF x src o n fs).map (·.1) = fs.map (·.1)
  | [] => rfl
  | (nm, fo, t) :: fs => by simp [decXF, decXF_names x src o n fs]

theorem SimX.mono {pr : Prog} {b w : Nat} {g : JVal → Block → Nat → Res} {T T' : Bool → JVal → Prop} (h : SimX pr b w g T) (hT : ∀ z v, T' z v → T z v) : SimX pr b w g T' :=
  fun s v path off blk rest z hp hi hz ht => h s v path off blk rest z hp hi hz (hT z v ht)

mutual
/-- The machine follows the type-directed reading, for every type with recursive structs inside. -/
theorem simX {pr : Prog} (n : Nat) : ∀ {ty : RTy} {b : Nat}, RepX pr.x pr.frames ty b →
    SimX pr b ty.width (decX pr.x pr.src pr.options n ty) (TameX pr.x pr.src pr.options n ty)
  | .plain t, b, h => by simp only [RepX] at h; simp only [RTy.width, decX]; exact simX_plain h _
  | .self size fs, b, h => by
    simp only [RepX] at h; simp only [RTy.width, decX]
    exact (simX_self h n).mono fun z v ht => by simpa only [TameX] using ht
  | .array m e, b, h => by
    obtain ⟨⟨f, hf, hty, -⟩, hm, ⟨c, hc, hcp, hcap⟩, hre⟩ := h
    obtain ⟨c', hc', hct, hcs⟩ := repX_frame hre
    rw [hc] at hc'; cases hc'
    have := (simX_array hf hty hm hc hcp hcap hcs (widthX_pos e) (simX n (ty := e) hre)).mono (T' := TameX pr.x pr.src pr.options n (.array m e)) fun z v ht => by
      cases v <;> simp only [ArrT] <;> try trivial
      simp only [TameX] at ht
      rw [hct, isSelf_iff]
      exact ht
    simp only [RTy.width]
    intro s v path off blk rest z h1 h2 h3 h4
    have := this s v path off blk rest z h1 h2 h3 h4
    cases v <;> exact this
  | .slice e, b, h => by
    obtain ⟨⟨f, hf, hty, -⟩, ⟨c, hc, hcp, -⟩, hre⟩ := h
    obtain ⟨c', hc', hct, hcs⟩ := repX_frame hre
    rw [hc] at hc'; cases hc'
    have := (simX_slice hf hty hc hcp hcs (widthX_pos e) (simX n (ty := e) hre)).mono (T' := TameX pr.x pr.src pr.options n (.slice e)) fun z v ht => by
      cases v <;> simp only [SliceT] <;> try trivial
      simp only [TameX] at ht
      rw [hct, isSelf_iff]
      exact ht
    simp only [RTy.width]
    rw [hct] at this
    intro s v path off blk rest z h1 h2 h3 h4
    have := this s v path off blk rest z h1 h2 h3 h4
    cases v <;> exact this
  | .map k e, b, h => by
    obtain ⟨⟨f, hf, hty, -, hvs, hfast⟩, ⟨fk, hfk, -, hkr⟩, ⟨c, hc, hcp, hco⟩, hre⟩ := h
    obtain ⟨c', hc', hct, hcs⟩ := repX_frame hre
    rw [hc] at hc'; cases hc'
    have := (simX_map hf hty hvs hfast hfk hkr hc hcp hco hcs (widthX_pos e) (simX n (ty := e) hre)).mono (T' := TameX pr.x pr.src pr.options n (.map k e)) fun z v ht => by
      cases v <;> simp only [MapT] <;> try trivial
      simp only [TameX] at ht
      exact ht.2
    simp only [RTy.width]
    rw [hct] at this
    intro s v path off blk rest z h1 h2 h3 h4
    have := this s v path off blk rest z h1 h2 h3 h4
    cases v <;> exact this
  | .struct size fs, b, h => by
    obtain ⟨f, hf, hty, -, hrf⟩ := h
    have hF : FieldsX pr b (widthX fs) f.fields (decXF pr.x pr.src pr.options n fs) (TameXF pr.x pr.src pr.options n fs) := by
      obtain ⟨h1, h2, h3⟩ := simXF n (fs := fs) hrf
      refine ⟨h1, fun q hq => ?_, fun {j nm p} hj => ?_⟩
      · have := h2 q hq; omega
      · obtain ⟨fo, g, w', T, T', c, a1, a2, a3, a4, a5, a6, a7, a8, a9, a10⟩ := h3 j nm p hj
        exact ⟨fo, g, w', T, T', c, a1, a2, a3, a4, a5, a6, a7, by omega, by omega, a10⟩
    have := (simX_struct hf hty hF).mono (T' := TameX pr.x pr.src pr.options n (.struct size fs)) fun z v ht => by
      cases v <;> simp only [StructT] <;> try trivial
      simp only [TameX] at ht
      intro o' ho m hm raw name hr hk j hj T hT
      have := ht m hm o' ho raw name hr hk
      rw [decXF_names] at hj
      rw [hj] at this
      exact this T hT
    simp only [RTy.width]
    intro s v path off blk rest z h1 h2 h3 h4
    have := this s v path off blk rest z h1 h2 h3 h4
    cases v <;> exact this
/-- The fields of a struct. -/
theorem simXF {pr : Prog} (n : Nat) : ∀ {fs : List (Bytes × Nat × RTy)} {b pos : Nat} {tbl : List (Bytes × Nat)}, RepFieldsX pr.x pr.frames b fs pos tbl →
    tbl.map (·.1) = (decXF pr.x pr.src pr.options n fs).map (·.1) ∧ (∀ q ∈ tbl, pos ≤ q.2 ∧ q.2 < pos + widthX fs) ∧
    ∀ (j : Nat) (nm : Bytes) (p : Nat), tbl[j]? = some (nm, p) → ∃ fo g w' T T' c, (decXF pr.x pr.src pr.options n fs)[j]? = some (nm, fo, g) ∧ pr.frames[p]? = some c ∧
      c.parent = some b ∧ c.offset = fo ∧ (TameXF pr.x pr.src pr.options n fs)[j]? = some T' ∧ T' = T (fo == 0) ∧ SimX pr p w' g T ∧ pos ≤ p ∧ p + w' ≤ pos + widthX fs ∧
      ∀ q ∈ tbl, ¬ (p < q.2 ∧ q.2 < p + w')
  | [], b, pos, tbl, h => by simp only [RepFieldsX] at h; subst h; simp [decXF]
  | (n0, o0, t0) :: fs, b, pos, tbl, h => by
    simp only [RepFieldsX] at h
    obtain ⟨tbl', rfl, ⟨c, hc, hcp, hco⟩, hr, h'⟩ := h
    obtain ⟨i1, i2, i3⟩ := simXF n (fs := fs) h'
    have hw := widthX_pos t0
    refine ⟨by simp [decXF, i1], ?_, ?_⟩
    · intro q hq
      simp only [widthX]
      rcases List.mem_cons.1 hq with rfl | hq
      · simp only []; omega
      · have := i2 q hq; omega
    · intro j nm p hj
      cases j with
      | zero =>
        simp only [List.getElem?_cons_zero, Option.some.injEq, Prod.mk.injEq] at hj
        obtain ⟨rfl, rfl⟩ := hj
        refine ⟨o0, _, t0.width, TameX pr.x pr.src pr.options n t0, _, c, by simp [decXF], hc, hcp, hco, by simp only [TameXF, List.getElem?_cons_zero], rfl, simX n (ty := t0) hr, Nat.le_refl _,
          by simp only [widthX]; omega, ?_⟩
        intro q hq
        rcases List.mem_cons.1 hq with rfl | hq
        · simp
        · have := i2 q hq; omega
      | succ j =>
        simp only [List.getElem?_cons_succ] at hj
        obtain ⟨fo, g, w', T, T', c, a1, a2, a3, a4, a5, a6, a7, a8, a9, a10⟩ := i3 j nm p hj
        refine ⟨fo, g, w', T, T', c, by simpa [decXF] using a1, a2, a3, a4, by simpa [TameXF] using a5, a6, a7, by omega, by simp only [widthX]; omega, ?_⟩
        intro q hq
        rcases List.mem_cons.1 hq with rfl | hq
        · simp only []; omega
        · exact a10 q hq
end

end Verif.Proof.Sim
