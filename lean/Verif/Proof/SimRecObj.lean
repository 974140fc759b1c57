import Verif.Proof.SimRecComp
import Verif.Proof.Root
/-!
# Recursive structs: the members of an object, and the whole document
-/
namespace Verif.Proof.Sim
open Verif.Model Verif.Big Verif.Spec Verif.Proof.Mem Verif.Proof.Any Verif.Proof.Fields

/-- Any field. -/
theorem field_sim {pr : Prog} {size : Nat} {fs : RFields} {r : Nat} {f : Frame} (hr : RecAt pr size fs r f) {n : Nat} (hobj : ObjSim pr size fs r f n) {s : St}
    {p : Nat} {path : List Step} {off fo : Nat} {here top : Bool} {blk : Block} {v : JVal} {rest : List Token} {t : RField}
    (h : FPre pr s r f p path off fo here top blk v rest) (hl : Linked pr.frames r p (fun c => c.offset = fo)) (hrep : t.Rep pr.x pr.frames r size p)
    (hlo : r < p) (hhi : p + t.width ≤ r + 1 + widthR fs) (hmem : ∃ q ∈ f.fields, q.2 = p) (hother : ∀ q ∈ f.fields, ¬ (p < q.2 ∧ q.2 < p + t.width))
    (ht : TameField pr.x pr.src pr.options (TameR pr.x pr.src pr.options fs n) here top t v) :
    FPost pr s r fs f path off here t v (fieldB pr.x pr.src pr.options size (decR pr.x pr.src pr.options size fs n) t v blk (off + fo)) := by
  obtain ⟨c, hc, hcp, hco⟩ := hl
  cases t with
  | plain t => exact field_end hr h hc hcp (sim hrep s v path (off + fo) blk rest h.pre) hlo hhi hother
  | ptr =>
    obtain ⟨c', hc', hct, hcr⟩ := hrep
    rw [hc] at hc'; cases hc'
    exact field_ptr hr hobj h hc hcp hct hcr hlo hhi ht
  | slice =>
    obtain ⟨c', hc', hct, hcr⟩ := hrep
    rw [hc] at hc'; cases hc'
    exact field_slice hr (val_of_obj hr hobj) h hc hcp hct hcr hlo hhi ht
  | map k =>
    obtain ⟨⟨c', hc', hct, hcr, hvs⟩, ⟨fk, hfk, -, hkr⟩⟩ := hrep
    rw [hc] at hc'; cases hc'
    exact field_map hr (val_of_obj hr hobj) h hc hcp hct hcr hco hvs.1 hvs.2 hfk hkr hlo hhi hmem hother ht

/-- Frames of fields are no recursive structs. -/
theorem rfield_type {x : Ext} {fr : List Frame} {r size p : Nat} {t : RField} (hrep : t.Rep x fr r size p) {c : Frame} (hc : fr[p]? = some c) :
    c.type ≠ .structRecur := by
  cases t with
  | plain t =>
    obtain ⟨c', hc', hct, -⟩ := Rep.frame hrep
    rw [hc] at hc'; cases hc'; rw [hct]; exact etype_ne t
  | ptr => obtain ⟨c', hc', hct, -⟩ := hrep; rw [hc] at hc'; cases hc'; rw [hct]; simp
  | slice => obtain ⟨c', hc', hct, -⟩ := hrep; rw [hc] at hc'; cases hc'; rw [hct]; simp
  | map k => obtain ⟨⟨c', hc', hct, -⟩, -⟩ := hrep; rw [hc] at hc'; cases hc'; rw [hct]; simp

/-- What `TameR` says of a member. -/
def TameMem (x : Ext) (src : Bytes) (o' : Options) (o : Option Options) (fs : RFields) (n : Nat) (here top : Bool) (m : (Nat × Nat) × JVal) (last : Prop) : Prop :=
  ∀ raw name, Model.slice src (m.1.1 + 1) (m.1.2 - 1) = some raw → keyName o' raw = some name →
    match findField x o' ((fs.map (·.1)).zipIdx) name with
    | some j => ∀ f, fs[j]? = some f → TameField x src o (TameR x src o fs n) here top f.2.2 m.2 ∧ (here = false → enters f.2.2 m.2 → last)
    | none => o'.disallowUnknownFields = true ∨ hasObj m.2 = false

/-- The closing brace. -/
theorem recEnd {pr : Prog} {size : Nat} {fs : RFields} {r : Nat} {f : Frame} (hr : RecAt pr size fs r f) {s : St} {path : List Step} {blk : Block} {te : Token} {rest : List Token}
    (hpc : s.pc = .loop) (hsi : s.si = r) (htk : pr.toks.drop s.ti = te :: rest) (hte : te.type = .objectEnd)
    (hb : getBlock s.mem path = some blk) (hd : DynOK pr.frames s.dyn) : PostQ pr s .recurObjEnd r (K₀ r fs) (fun _ => True) path 1 (.ok blk) := by
  have hs := step_loop hpc (toks_head htk) (by rw [hsi]; exact hr.hf)
  simp only [dispatch, hte, onObjectEnd, hr.hty] at hs
  exact ⟨_, Reach.one hs, rfl, hsi, rfl, put_get hb, fun _ _ => rfl, hd, trivial⟩

/-- The loop over the members of an object. -/
theorem rec_loop {pr : Prog} {size : Nat} {fs : RFields} {r : Nat} {f : Frame} (hr : RecAt pr size fs r f) {n : Nat} (hobj : ObjSim pr size fs r f n)
    {o : Options} (ho : pr.options = some o) {here top : Bool} :
    ∀ (N : Nat) (ms : List ((Nat × Nat) × JVal)), ms.length ≤ N → ∀ (s : St) (path : List Step) (off : Nat) (blk : Block) (te : Token) (rest : List Token),
    s.pc = .loop → s.si = r → (ms ≠ [] → ∀ q ∈ f.fields, (s.dyn q.2).dest = .at ⟨path, off⟩) → (here = true → (s.dyn r).dest = .at ⟨path, off⟩) →
    (top = true → (s.dyn r).offset = 0) →
    pr.toks.drop s.ti = flattenM s.ti ms ++ te :: rest → te.type = .objectEnd → getBlock s.mem path = some blk → DynOK pr.frames s.dyn →
    (∀ (a : Nat) m, ms[a]? = some m → TameMem pr.x pr.src o pr.options fs n here top m (a + 1 = ms.length)) →
    PostQ pr s .recurObjEnd r (K₀ r fs) (fun _ => True) path ((flattenM s.ti ms).length + 1)
      (structB pr.x pr.src o (decRF pr.x pr.src pr.options size (decR pr.x pr.src pr.options size fs n) fs) ms blk off) := by
  intro N
  induction N with
  | zero =>
    intro ms hN s path off blk te rest hpc hsi hp hhere htop htk hte hb hd ht
    have : ms = [] := List.length_eq_zero_iff.1 (by omega)
    subst this
    simp only [flattenM, List.nil_append] at htk
    simp only [flattenM, structB, List.length_nil, Nat.zero_add]
    exact recEnd hr hpc hsi htk hte hb hd
  | succ N ihN =>
    intro ms hN s path off blk te rest hpc hsi hp hhere htop htk hte hb hd ht
    by_cases hms : ms = []
    · subst hms
      simp only [flattenM, List.nil_append] at htk
      simp only [flattenM, structB, List.length_nil, Nat.zero_add]
      exact recEnd hr hpc hsi htk hte hb hd
    have hpd := hp hms
    have hs : step pr s = match scanKeys pr.x pr.src o f.fields none (pr.toks.drop s.ti) s.ti with
        | .crash => .crash
        | .unknown i => .err i .unknownField s
        | .brk ti => .run { s with ti := ti + 1 }
        | .found ti fi => .run { s with ti := ti + 1, si := fi } := by
      obtain ⟨⟨⟨i, en⟩, v⟩, ms', rfl⟩ := List.exists_cons_of_ne_nil hms
      simp only [flattenM, List.append_assoc, List.cons_append] at htk
      have hs := step_loop hpc (toks_head htk) (by rw [hsi]; exact hr.hf)
      simp only [dispatch, onKey, hr.hty, ho] at hs
      exact hs
    rw [htk] at hs
    have hnames : f.fields.map (·.1) = (decRF pr.x pr.src pr.options size (decR pr.x pr.src pr.options size fs n) fs).map (·.1) := by
      rw [decRF_names]; exact repR_names hr.hrf
    rcases scan_struct (x := pr.x) (src := pr.src) (o := o) hnames blk off te hte rest ms none s.ti (.inl ⟨rfl, hms⟩) with
      ⟨h1, h2⟩ | ⟨i, h1, h2⟩ | h1 | ⟨h1, h2⟩ | ⟨pre, i, e, v, ms', j, nm, fo, g, p, h0, h1, h2, h3, h4, h5, name, hname, hfind⟩
    · rw [h1]; rw [h2] at hs; exact Halts.one hs (by simp)
    · rw [h1]; rw [h2] at hs; exact ⟨s, Halts.one hs (by simp), put_get hb, hd⟩
    · rw [h1]; trivial
    · rw [h1]; rw [h2] at hs
      have hpos : 0 < (flattenM s.ti ms).length := by
        obtain ⟨⟨⟨i, en⟩, v⟩, ms', rfl⟩ := List.exists_cons_of_ne_nil hms
        simp [flattenM]
      refine PostQ.trans (Reach.one hs) ?_ (put_get hb) (fun _ _ => rfl)
        (recEnd (te := te) (rest := rest) hr hpc hsi ?_ hte hb hd)
      · simp only []; omega
      · simp only []
        have e1 : s.ti + (flattenM s.ti ms).length - 1 + 1 = s.ti + (flattenM s.ti ms).length := by omega
        rw [e1]
        exact toks_drop htk
    · rw [h3] at hs
      simp only [] at hs
      rw [decRF_get] at h1
      obtain ⟨fo', t, hfj, hlink, hrt, hlo, hhi, hother⟩ := repR_get hr.hrf h2
      rw [hfj] at h1
      simp only [Option.map_some, Option.some.injEq, Prod.mk.injEq, true_and] at h1
      obtain ⟨rfl, rfl⟩ := h1
      subst h0
      -- what is known of the member
      have hmem : ((pre ++ ((i, e), v) :: ms')[pre.length]?) = some ((i, e), v) := by simp
      have htm := ht pre.length _ hmem
      obtain ⟨raw, hraw, hkn⟩ := Option.bind_eq_some_iff.1 hname
      have htm := htm raw name hraw hkn
      rw [decRF_names] at hfind
      rw [hfind] at htm
      obtain ⟨htf, hlast⟩ := htm _ hfj
      rw [flattenM_append] at htk
      simp only [flattenM, List.append_assoc, List.cons_append] at htk
      have htk1 := toks_drop htk
      have htk2 : pr.toks.drop (s.ti + (flattenM s.ti pre).length + 1) =
          flatten (s.ti + (flattenM s.ti pre).length + 1) v ++
            (flattenM (s.ti + (flattenM s.ti pre).length + 1 + (flatten (s.ti + (flattenM s.ti pre).length + 1) v).length) ms' ++ te :: rest) := by
        have := toks_drop (t := [_]) (r := flatten (s.ti + (flattenM s.ti pre).length + 1) v ++
            (flattenM (s.ti + (flattenM s.ti pre).length + 1 + (flatten (s.ti + (flattenM s.ti pre).length + 1) v).length) ms' ++ te :: rest))
            (by rw [htk1]; simp; rfl)
        simpa using this
      have hmem2 : (nm, p) ∈ f.fields := List.mem_of_getElem? h2
      have hpre : FPre pr { s with ti := s.ti + (flattenM s.ti pre).length + 1, si := p } r f p path off fo' here top blk v
          (flattenM (s.ti + (flattenM s.ti pre).length + 1 + (flatten (s.ti + (flattenM s.ti pre).length + 1) v).length) ms' ++ te :: rest) := by
        refine ⟨⟨hpc, rfl, ?_, htk2, hb, hd⟩, hpd, hhere, htop⟩
        obtain ⟨c, hc, hcp, hco⟩ := hlink
        have hoff := hd.off p c r f hc (rfield_type hrt hc) hcp hr.hf (.inr (.inr (.inr hr.hty)))
        simp only []
        rw [hpd _ hmem2, hoff, hco]
        rfl
      have hchild := field_sim hr hobj hpre hlink hrt (by omega) (by omega) ⟨_, hmem2, rfl⟩ hother htf
      have hlen : (flattenM s.ti (pre ++ ((i, e), v) :: ms')).length = (flattenM s.ti pre).length + (1 + (flatten (s.ti + (flattenM s.ti pre).length + 1) v).length +
          (flattenM (s.ti + (flattenM s.ti pre).length + 1 + (flatten (s.ti + (flattenM s.ti pre).length + 1) v).length) ms').length) := by
        rw [flattenM_append]
        simp only [flattenM, List.length_append, List.length_cons]
        omega
      cases hdec : fieldB pr.x pr.src pr.options size (decR pr.x pr.src pr.options size fs n) t v blk (off + fo') with
      | err i' er b' =>
        rw [h5 (fun b' hb' => by rw [hdec] at hb'; cases hb'), hdec]
        rw [hdec] at hchild
        obtain ⟨s', a1, a2, a3⟩ := hchild
        exact ⟨s', (Reach.one hs).halts a1, a2, a3⟩
      | crash =>
        rw [h5 (fun b' hb' => by rw [hdec] at hb'; cases hb'), hdec]
        rw [hdec] at hchild
        exact (Reach.one hs).halts hchild
      | unsup =>
        rw [h5 (fun b' hb' => by rw [hdec] at hb'; cases hb'), hdec]
        trivial
      | ok b' =>
        rw [h4 b' hdec]
        rw [hdec] at hchild
        obtain ⟨s1, a1, a2, a3, a4, a5, a6, a7, a8⟩ := hchild
        simp only [] at a4 a5 a6
        have hdr : s1.dyn r = s.dyn r := a6 r (K₀_iff.2 (.inl rfl))
        refine PostQ.trans ((Reach.one hs).trans a1) ?_ a5 (fun j hj => a6 j hj)
          (ihN ms' (by simp at hN; omega) s1 path off b' te rest a2 a3 ?_ (by rw [hdr]; exact hhere) (by rw [hdr]; exact htop) ?_ hte (get_put a5) a7 ?_)
        · simp only [a4, hlen]
          omega
        · intro hne
          apply a8
          cases hh : here with
          | true => exact .inl rfl
          | false =>
            refine .inr (fun hen => hne ?_)
            have := hlast hh hen
            simp only [List.length_append, List.length_cons] at this
            exact List.length_eq_zero_iff.1 (by omega)
        · simp only [a4]
          exact toks_drop htk2
        · intro a m ha
          have hthis := ht (pre.length + 1 + a) m (by
            rw [List.getElem?_append_right (by omega)]
            have : pre.length + 1 + a - pre.length = a + 1 := by omega
            rw [this]; simpa using ha)
          intro raw' name' hr' hn'
          have hthis := hthis raw' name' hr' hn'
          revert hthis
          cases findField pr.x o ((fs.map (·.1)).zipIdx) name' with
          | none => exact id
          | some j' =>
            simp only []
            intro hthis g hg
            refine ⟨(hthis g hg).1, fun hh he => ?_⟩
            have := (hthis g hg).2 hh he
            simp only [List.length_append, List.length_cons] at this
            omega

/-- The members of an object, for every nesting depth. -/
theorem obj_sim {pr : Prog} {size : Nat} {fs : RFields} {r : Nat} {f : Frame} (hr : RecAt pr size fs r f) : ∀ n, ObjSim pr size fs r f n := by
  intro n
  induction n with
  | zero =>
    intro s path off blk i k ms te rest here top _ _ _ _ _ _ _ _ _ _ ht
    exact absurd ht id
  | succ n ih =>
    intro s path off blk i k ms te rest here top hpc hsi hp hhere htop htk hte hb hd hm ht
    simp only [decR, if_neg hm]
    cases ho : pr.options with
    | none =>
      refine Halts.one (o := .crash) ?_ (by simp)
      obtain ⟨⟨⟨i', en⟩, v'⟩, ms', rfl⟩ := List.exists_cons_of_ne_nil hm
      simp only [flattenM, List.append_assoc, List.cons_append] at htk
      rw [step_loop hpc (toks_head htk) (by rw [hsi]; exact hr.hf)]
      simp [dispatch, onKey, hr.hty, ho]
    | some o =>
      simp only []
      have := rec_loop hr ih ho (here := here) (top := top) ms.length ms (Nat.le_refl _) s path off blk te rest hpc hsi (fun _ => hp) hhere htop htk hte hb hd
        (fun a m ha => ht i ms k rfl a m ha o ho)
      rw [ho] at this
      exact this

/-- A whole document decoded into a recursive struct at the root. -/
theorem top_rec {pr : Prog} {size : Nat} {fs : RFields} {f : Frame} (hr : RecAt pr size fs 0 f) (hroot : f.parent = none) {n : Nat}
    {s : St} {v : JVal} {off : Nat} {blk : Block} {path : List Step} (h : Pre pr s 0 path off blk v []) (hrs : (s.dyn 0).rstack = []) (h0 : (s.dyn 0).offset = 0)
    (ht : TameR pr.x pr.src pr.options fs n true true v) :
    TopPost pr s path (decR pr.x pr.src pr.options size fs n v blk off) := by
  have hb : TopFrame pr.frames 0 := ⟨f, hr.hf, .inl hroot⟩
  have hdst : (s.dyn 0).dest = .at ⟨path, off⟩ := by
    have := h.p
    rw [h0] at this
    cases hd : (s.dyn 0).dest with
    | «at» a => rw [hd] at this; simp only [Ptr.add, Nat.add_zero] at this; exact this
    | nil => rw [hd] at this; simp [Ptr.add] at this
    | stale => rw [hd] at this; simp [Ptr.add] at this
  by_cases hn : IsNull v
  · obtain ⟨i, e, rfl⟩ := hn
    cases n with
    | zero => exact absurd ht id
    | succ n =>
    simp only [decR]
    have := sim_leaf (w := 0) (rt := none) (size := 0) (impl := false) h hr.hf rfl (by rw [hr.hty]; simp)
    rw [hr.hty, leaf_structRecur] at this
    exact this.top hb h.toks
  · have hv := val_of_obj hr (obj_sim hr n) s v path off blk [] true true h (fun _ => hdst) (fun _ => h0) hn ht
    cases hres : decR pr.x pr.src pr.options size fs n v blk off with
    | err i er b' => rw [hres] at hv; exact hv
    | crash => rw [hres] at hv; exact hv
    | unsup => trivial
    | ok b' =>
      rw [hres] at hv
      obtain ⟨s1, h1, h2, h3, h4, h5, h6, h7, -⟩ := hv
      have hdr : s1.dyn 0 = s.dyn 0 := h6 0 (K₀_iff.2 (.inl rfl))
      have hst : step pr s1 = onRecurObjEnd pr s1 f := by simp [step, h2, h3, hr.hf]
      simp only [onRecurObjEnd, h3, hdr, hrs] at hst
      obtain ⟨s2, k1, k2, k3⟩ := top_end (pr := pr) (s := { ti := s1.ti, si := 0, pc := .valEnd, dyn := s1.dyn, mem := s1.mem }) hb rfl rfl (by rw [h4]; exact toks_drop h.toks)
      exact ⟨s2, (h1.trans (Reach.one hst)).halts k1, by rw [k2]; exact h5, by rw [k3]; exact hdr, by rw [k3]; exact h7⟩

end Verif.Proof.Sim
