import Verif.Big.Root
import Verif.Proof.Root
/-!
# An object decoded into a struct that is the destination itself
-/
namespace Verif.Proof.Sim
open Verif.Model Verif.Big Verif.Proof.Mem Verif.Proof.Any

/-! ## Skipping the value of an unknown key -/

mutual
theorem scan_in (x : Ext) (src : Bytes) (o : Options) (tbl : List (Bytes × Nat)) : ∀ (v : JVal) (l ti ti' : Nat) (r : List Token),
    scanKeys x src o tbl (some (l + 1)) (flatten ti v ++ r) ti' = scanKeys x src o tbl (some (l + 1)) r (ti' + (flatten ti v).length)
  | .null _ _, l, ti, ti', r | .str _ _, l, ti, ti', r => by simp [flatten, scanKeys]
  | .bool b _ _, l, ti, ti', r => by cases b <;> simp [flatten, scanKeys]
  | .num b _ _, l, ti, ti', r => by cases b <;> simp [flatten, scanKeys]
  | .arr i es k, l, ti, ti', r => by
    simp only [flatten, List.cons_append, List.append_assoc, scanKeys]
    rw [scan_inL x src o tbl es]
    simp only [List.nil_append, scanKeys, List.length_cons, List.length_append, List.length_nil]
    congr 1; omega
  | .obj i ms k, l, ti, ti', r => by
    simp only [flatten, List.cons_append, List.append_assoc, scanKeys]
    rw [scan_inM x src o tbl ms]
    simp only [List.nil_append, scanKeys, List.length_cons, List.length_append, List.length_nil]
    rw [if_neg (by omega)]
    simp only [Nat.add_sub_cancel]
    congr 1; omega
theorem scan_inL (x : Ext) (src : Bytes) (o : Options) (tbl : List (Bytes × Nat)) : ∀ (vs : List JVal) (l ti ti' : Nat) (r : List Token),
    scanKeys x src o tbl (some (l + 1)) (flattenL ti vs ++ r) ti' = scanKeys x src o tbl (some (l + 1)) r (ti' + (flattenL ti vs).length)
  | [], l, ti, ti', r => by simp [flattenL]
  | v :: vs, l, ti, ti', r => by
    simp only [flattenL, List.append_assoc]
    rw [scan_in x src o tbl v, scan_inL x src o tbl vs]
    simp only [List.length_append]
    congr 1; omega
theorem scan_inM (x : Ext) (src : Bytes) (o : Options) (tbl : List (Bytes × Nat)) : ∀ (ms : List ((Nat × Nat) × JVal)) (l ti ti' : Nat) (r : List Token),
    scanKeys x src o tbl (some (l + 1)) (flattenM ti ms ++ r) ti' = scanKeys x src o tbl (some (l + 1)) r (ti' + (flattenM ti ms).length)
  | [], l, ti, ti', r => by simp [flattenM]
  | ((i, e), v) :: ms, l, ti, ti', r => by
    simp only [flattenM, List.cons_append, List.append_assoc, scanKeys]
    rw [if_neg (by omega), scan_in x src o tbl v, scan_inM x src o tbl ms]
    simp only [List.length_cons, List.length_append]
    congr 1; omega
end

/-- An object as the value of an unknown key: the scan stops before its closing brace. -/
theorem scan_obj (x : Ext) (src : Bytes) (o : Options) (tbl : List (Bytes × Nat)) {v : JVal} (h : isObj v = true) (ti ti' : Nat) (r : List Token) :
    scanKeys x src o tbl (some 0) (flatten ti v ++ r) ti' = .brk (ti' + (flatten ti v).length - 2) := by
  cases v with
  | obj i ms k =>
    simp only [flatten, List.cons_append, List.append_assoc, scanKeys]
    rw [scan_inM x src o tbl ms]
    simp only [List.nil_append, scanKeys, List.length_cons, List.length_append, List.length_nil]
    rw [if_pos (by omega)]
    congr 1; omega
  | _ => simp [isObj] at h

theorem flatten_obj_close {v : JVal} (h : isObj v = true) (ti : Nat) : 2 ≤ (flatten ti v).length ∧ ∃ te, te.type = .objectEnd ∧ (flatten ti v).drop ((flatten ti v).length - 1) = [te] := by
  cases v with
  | obj i ms k =>
    refine ⟨by simp [flatten], ⟨.objectEnd, k, k + 1, 0⟩, rfl, ?_⟩
    simp [flatten]
  | _ => simp [isObj] at h

theorem scan_root {x : Ext} {src : Bytes} {o : Options} {tbl : List (Bytes × Nat)} {fs : List (Bytes × Nat × Ty)}
    (hnames : tbl.map (·.1) = fs.map (·.1)) (b : Block) (off : Nat) (te : Token) (hte : te.type = .objectEnd) (rest : List Token) :
    ∀ (ms : List ((Nat × Nat) × JVal)) (skip : Option Nat) (ti : Nat), (skip = none ∧ ms ≠ [] ∨ skip = some 0) →
      (rootB x src o fs ms b off = .crash ∧ scanKeys x src o tbl skip (flattenM ti ms ++ te :: rest) ti = .crash) ∨
      (∃ i, rootB x src o fs ms b off = .err i .unknownField b ∧ scanKeys x src o tbl skip (flattenM ti ms ++ te :: rest) ti = .unknown i) ∨
      rootB x src o fs ms b off = .unsup ∨
      (rootB x src o fs ms b off = .ok b ∧ scanKeys x src o tbl skip (flattenM ti ms ++ te :: rest) ti = .brk (ti + (flattenM ti ms).length - 1)) ∨
      (∃ (pre : List ((Nat × Nat) × JVal)) (k : Nat × Nat) (v : JVal) (ms' : List ((Nat × Nat) × JVal)), ms = pre ++ (k, v) :: ms' ∧ isObj v = true ∧
        scanKeys x src o tbl skip (flattenM ti ms ++ te :: rest) ti = .brk (ti + (flattenM ti pre).length + 1 + (flatten (ti + (flattenM ti pre).length + 1) v).length - 2) ∧
        rootB x src o fs ms b off = rootB x src o fs ms' b off) ∨
      (∃ (pre : List ((Nat × Nat) × JVal)) (i e : Nat) (v : JVal) (ms' : List ((Nat × Nat) × JVal)) (j : Nat) (n : Bytes) (fo : Nat)
          (t : Ty) (p : Nat), ms = pre ++ ((i, e), v) :: ms' ∧ fs[j]? = some (n, fo, t) ∧ tbl[j]? = some (n, p) ∧
        scanKeys x src o tbl skip (flattenM ti ms ++ te :: rest) ti = .found (ti + (flattenM ti pre).length) p ∧
        (∀ b', memberB x src o ms'.isEmpty t v b (off + fo) = .ok b' → rootB x src o fs ms b off = rootB x src o fs ms' b' off) ∧
        ((∀ b', memberB x src o ms'.isEmpty t v b (off + fo) ≠ .ok b') → rootB x src o fs ms b off = memberB x src o ms'.isEmpty t v b (off + fo))) := by
  intro ms
  induction ms with
  | nil =>
    intro skip ti hsk
    rcases hsk with ⟨-, h⟩ | rfl
    · exact absurd rfl h
    · refine .inr (.inr (.inr (.inl ⟨rfl, ?_⟩)))
      simp [flattenM, scanKeys, hte]
  | cons m ms ih =>
    obtain ⟨⟨i, e⟩, v⟩ := m
    intro skip ti hsk
    have hstart : scanKeys x src o tbl skip (flattenM ti (((i, e), v) :: ms) ++ te :: rest) ti =
        (match (Model.slice src (i + 1) (e - 1)).bind (keyName o) with
          | none => .crash
          | some name =>
            match findField x o tbl name with
            | some fi => .found ti fi
            | none => if o.disallowUnknownFields then .unknown i
              else scanKeys x src o tbl (some 0) (flatten (ti + 1) v ++ (flattenM (ti + 1 + (flatten (ti + 1) v).length) ms ++ te :: rest)) (ti + 1)) := by
      simp only [flattenM, List.cons_append, List.append_assoc]
      rcases hsk with ⟨rfl, -⟩ | rfl <;> simp only [scanKeys, Nat.lt_one_iff, if_true]
      all_goals rfl
    rw [hstart]
    simp only [rootB]
    cases hk : (Model.slice src (i + 1) (e - 1)).bind (keyName o) with
    | none => exact .inl ⟨rfl, rfl⟩
    | some name =>
      simp only []
      rw [← hnames]
      rcases findField_tbl x o tbl name with ⟨h1, h2⟩ | ⟨j, n, p, h1, h2, h3⟩
      · rw [h1, h2]
        simp only []
        by_cases hd : o.disallowUnknownFields = true
        · rw [if_pos hd, if_pos hd]
          exact .inr (.inl ⟨i, rfl, rfl⟩)
        · rw [if_neg hd, if_neg hd]
          by_cases hob : isObj v = true
          · rw [if_pos hob]
            refine .inr (.inr (.inr (.inr (.inl ⟨[], (i, e), v, ms, rfl, hob, ?_, rfl⟩))))
            rw [scan_obj x src o tbl hob]
            simp [flattenM]
          rw [if_neg hob]
          by_cases ho : hasObj v = true
          · rw [if_pos ho]; exact .inr (.inr (.inl rfl))
          · rw [if_neg ho]
            rw [scan_skip x src o tbl v 0 (ti + 1) (ti + 1) _ (by simpa using ho)]
            rcases ih (some 0) (ti + 1 + (flatten (ti + 1) v).length) (.inr rfl) with h | h | h | ⟨ha, hb⟩ | ⟨pre, k', v', ms', ha, hb, hc, hd⟩ | ⟨pre, i', e', v', ms', j, n, fo, f, p, ha, hb, hc, hd', he, hf⟩
            · exact .inl h
            · exact .inr (.inl h)
            · exact .inr (.inr (.inl h))
            · refine .inr (.inr (.inr (.inl ⟨ha, ?_⟩)))
              rw [hb]
              simp only [flattenM, List.length_cons, List.length_append]
              congr 1; omega
            · refine .inr (.inr (.inr (.inr (.inl ⟨((i, e), v) :: pre, k', v', ms', by simp [ha], hb, ?_, hd⟩))))
              rw [hc]
              have e1 : ti + 1 + (flatten (ti + 1) v).length + (flattenM (ti + 1 + (flatten (ti + 1) v).length) pre).length = ti + (flattenM ti (((i, e), v) :: pre)).length := by
                simp only [flattenM, List.length_cons, List.length_append]; omega
              rw [e1]
            · refine .inr (.inr (.inr (.inr (.inr ⟨((i, e), v) :: pre, i', e', v', ms', j, n, fo, f, p, by simp [ha], hb, hc, ?_, he, hf⟩))))
              rw [hd']
              simp only [flattenM, List.length_cons, List.length_append]
              congr 1; omega
      · have hj : ∃ q, fs[j]? = some q := by
          have h4 : j < tbl.length := by
            rcases Nat.lt_or_ge j tbl.length with h | h
            · exact h
            · rw [List.getElem?_eq_none h] at h2; cases h2
          have h5 := congrArg List.length hnames
          simp only [List.length_map] at h5
          exact ⟨fs[j]'(by omega), List.getElem?_eq_getElem _⟩
        obtain ⟨⟨n', fo, t⟩, hq⟩ := hj
        have hnn : n' = n := by
          have := congrArg (fun l => l[j]?) hnames
          simp only [List.getElem?_map, h2, hq, Option.map_some, Option.some.injEq] at this
          exact this.symm
        subst hnn
        rw [h1, h3]
        simp only [hq]
        refine .inr (.inr (.inr (.inr (.inr ⟨[], i, e, v, ms, j, n', fo, t, p, rfl, hq, h2, by simp [flattenM], ?_, ?_⟩))))
        · intro b' hb'; rw [hb']
        · intro hb'
          cases hfv : memberB x src o ms.isEmpty t v b (off + fo) with
          | ok b' => exact absurd hfv (hb' b')
          | _ => rfl

/-! ## The last member -/

/-- The frame of a field of the root struct, or of a pointee below one. -/
def LastFrame (fr : List Frame) (b : Nat) : Prop :=
  ∃ f q g, fr[b]? = some f ∧ f.parent = some q ∧ fr[q]? = some g ∧
    ((g.type = .struct ∧ g.parent = none) ∨
      (g.type = .ptr ∧ q + 1 = b ∧ ∃ p g', g.parent = some p ∧ fr[p]? = some g' ∧ (g'.type = .ptr ∨ g'.type = .struct)))

theorem last_end {pr : Prog} {s : St} {b : Nat} (hb : LastFrame pr.frames b) (hpc : s.pc = .valEnd) (hsi : s.si = b) {te : Token} (hte : te.type = .objectEnd)
    (ht : pr.toks.drop s.ti = [te]) (hd : DynOK pr.frames s.dyn) : ∃ s', Halts pr s (.done s') ∧ s'.mem = s.mem ∧ s'.dyn = s.dyn := by
  obtain ⟨f, q, g, hf, hp, hg, h⟩ := hb
  have hs : step pr s = onValEnd pr s f := by simp [step, hpc, hsi, hf]
  have hend : pr.toks.drop (s.ti + 1) = [] := by
    have := toks_drop (t := [te]) (r := []) (by simpa using ht)
    simpa using this
  rcases h with ⟨h1, h2⟩ | ⟨h1, h2, p, g', h3, h4, h5⟩
  · simp only [onValEnd, hp, hg, h1] at hs
    have hs1 := step_loop (pr := pr) (s := { s with pc := .loop, si := q }) rfl (toks_head ht) hg
    simp only [dispatch, hte, onObjectEnd, h1] at hs1
    have hs2 : step pr { s with pc := .valEnd, si := q, ti := s.ti + 1 } = .run { s with pc := .loop, si := q, ti := s.ti + 1 } := by
      simp [step, hg, onValEnd, h2]
    exact ⟨_, (Reach.head hs (Reach.head hs1 (Reach.one hs2))).halts (Halts.one (step_done rfl hend) (by simp)), rfl, rfl⟩
  · simp only [onValEnd, hp, hg, h1] at hs
    have e1 : decSi s.si = q := by rw [hsi, ← h2]; simp [decSi]
    rw [e1] at hs
    have hs1 := step_loop (pr := pr) (s := { s with pc := .loop, si := q }) rfl (toks_head ht) hg
    simp only [dispatch, hte, onObjectEnd, h1] at hs1
    have hs2 : step pr { s with pc := .recurObjEnd, si := q, ti := s.ti + 1 } = .run { s with pc := .valEnd, si := q, ti := s.ti + 1 } := by
      simp [step, hg, onRecurObjEnd, hd.rs q (fun f' hf' => by rw [hg] at hf'; cases hf'; rw [h1]; decide)]
    have hs3 : ∃ si', step pr { s with pc := .valEnd, si := q, ti := s.ti + 1 } = .run { s with pc := .loop, si := si', ti := s.ti + 1 } := by
      rcases h5 with h5 | h5
      · exact ⟨_, by simp [step, hg, onValEnd, h3, h4, h5]; rfl⟩
      · exact ⟨_, by simp [step, hg, onValEnd, h3, h4, h5]; rfl⟩
    obtain ⟨si', hs3⟩ := hs3
    exact ⟨_, (Reach.head hs (Reach.head hs1 (Reach.head hs2 (Reach.one hs3)))).halts (Halts.one (step_done rfl hend) (by simp)), rfl, rfl⟩

theorem Post.last {pr : Prog} {s : St} {b w : Nat} {path : List Step} {v : JVal} {r : Res} (hb : LastFrame pr.frames b) {te : Token} (hte : te.type = .objectEnd)
    (h0 : 0 < b) (ht : pr.toks.drop s.ti = flatten s.ti v ++ [te]) (h : Post pr s b w path (flatten s.ti v).length r) : TopPost pr s path r := by
  cases r with
  | ok blk' =>
    obtain ⟨s1, h1, h2, h3, h4, h5, h6, h7⟩ := h
    obtain ⟨s2, k1, k2, k3⟩ := last_end hb h2 h3 hte (by rw [h4]; exact toks_drop ht) h7
    exact ⟨s2, h1.halts k1, by rw [k2]; exact h5, by rw [k3]; exact h6 0 (by omega), by rw [k3]; exact h7⟩
  | err i e blk' => exact h
  | crash => exact h
  | unsup => trivial

/-- The value of the last member. -/
theorem last_sim {pr : Prog} {te : Token} (hte : te.type = .objectEnd) : ∀ {ty : Ty} {b : Nat}, Rep pr.x pr.frames ty b → LastFrame pr.frames b → 0 < b →
    ∀ {s : St} {v : JVal} {path : List Step} {off : Nat} {blk : Block}, (ty = .emptyStruct → isObj v = false) → Pre pr s b path off blk v [te] →
      TopPost pr s path (decTop pr.x pr.src pr.options ty v blk off)
  | .ptr e, b, hr, hb, hb0, s, v, path, off, blk, _, h => by
    have hr' := hr
    obtain ⟨⟨f, hf, hty, -⟩, ⟨c, hc, hcp, hco⟩, hre⟩ := hr
    obtain ⟨c', hc', hct, hcs⟩ := hre.frame
    rw [hc] at hc'; cases hc'
    have hW := W_pos pr.x
    by_cases hv : ∃ i e, v = .null i e
    · obtain ⟨i, e', rfl⟩ := hv
      exact (sim hr' s _ path off blk _ h).last hb hte hb0 h.toks
    · have hdec : decTop pr.x pr.src pr.options (.ptr e) v blk off =
          if tokOK pr.src v = false then .crash
          else if e.size pr.x = 0 then .unsup
          else match blit blk off (seg pr.x.W (.ptr (zeros (e.size pr.x)))) with
            | none => .crash
            | some b => (decTop pr.x pr.src pr.options e v (zeros (e.size pr.x)) 0).bindB (putIn b off .deref) := by
        cases v <;> first | rfl | exact absurd ⟨_, _, rfl⟩ hv
      rw [hdec]
      have hs := top_ptr_step h hf hty (fun i e hc => hv ⟨i, e, hc⟩)
      by_cases hok : tokOK pr.src v = false
      · rw [if_pos hok] at hs ⊢
        exact Halts.one hs (by simp)
      · rw [if_neg hok] at hs ⊢
        by_cases hz : e.size pr.x = 0
        · rw [if_pos hz]; trivial
        · rw [if_neg hz]
          have hp' : ({ s with pc := PC.onPtr } : St).p = .at ⟨path, off⟩ := by simp only [St.p, h.si]; exact h.p
          have hs2 : step pr { s with pc := .onPtr } = onPtr pr { s with pc := .onPtr } := rfl
          simp only [onPtr, hp'] at hs2
          simp only [h.si, hc, hcs, writeSeg_at h.blk] at hs2
          cases hbl : blit blk off (seg pr.x.W (.ptr (zeros (e.size pr.x)))) with
          | none =>
            rw [hbl] at hs2
            have : ({ s with pc := PC.onPtr } : St) = { ti := s.ti, si := b, pc := .onPtr, dyn := s.dyn, mem := s.mem } := by rw [← h.si]
            rw [this] at hs
            exact (Reach.one hs).halts (Halts.one (o := .crash) hs2 (by simp))
          | some b1 =>
            rw [hbl] at hs2
            obtain ⟨m1, hm1⟩ := putBlock_total b1 h.blk
            simp only [Option.bind_some, hm1, if_neg hz] at hs2
            have hcell := blit_seg_get hW hbl
            have hder : getBlock b1 [⟨off, .deref⟩] = some (zeros (e.size pr.x)) := by simp [getBlock, hcell, ownedBlock]
            have hpre : Pre pr ({ s with mem := m1, si := b + 1, pc := PC.loop, dyn := upd s.dyn (b + 1) (fun y => { y with dest := .at (Addr.into ⟨path, off⟩ .deref) }) } : St)
                (b + 1) (path ++ [⟨off, .deref⟩]) 0 (zeros (e.size pr.x)) v [te] := by
              refine ⟨rfl, rfl, ?_, h.toks, ?_, h.dyn.upd_dest (b + 1) (g := fun y => { y with dest := .at (Addr.into ⟨path, off⟩ .deref) }) rfl rfl⟩
              · have := h.dyn.off (b + 1) c b f hc (by rw [hct]; exact etype_ne e) hcp hf (.inr (.inr (.inl hty)))
                simp [upd, Ptr.add, Addr.into, this, hco]
              · simp only []
                rw [getBlock_append, get_put hm1]; exact hder
            have hlast : LastFrame pr.frames (b + 1) := by
              refine ⟨c, b, f, hc, hcp, hf, .inr ⟨hty, rfl, ?_⟩⟩
              obtain ⟨f', q, g, hf', hp, hg, h'⟩ := hb
              rw [hf] at hf'; cases hf'
              refine ⟨q, g, hp, hg, ?_⟩
              rcases h' with ⟨h1, -⟩ | ⟨h1, -⟩
              · exact .inr h1
              · exact .inl h1
            have hchild := last_sim hte (ty := e) hre hlast (by omega) (fun he => absurd (by rw [he]; rfl) hz) hpre
            have : ({ s with pc := PC.onPtr } : St) = { ti := s.ti, si := b, pc := .onPtr, dyn := s.dyn, mem := s.mem } := by rw [← h.si]
            rw [this] at hs
            have hreach : Reach pr s _ := (Reach.one hs).trans (Reach.one hs2)
            have key : ∀ a m', putBlock m1 (path ++ [⟨off, .deref⟩]) a = some m' → ∃ b', putIn b1 off .deref a = some b' ∧ putBlock s.mem path b' = some m' := by
              intro a m' ha
              rw [putBlock_append (get_put hm1)] at ha
              cases hp : putBlock b1 [⟨off, .deref⟩] a with
              | none => rw [hp] at ha; cases ha
              | some b' =>
                rw [hp] at ha
                exact ⟨b', hp, by rw [← put_put hm1]; exact ha⟩
            simp only []
            cases hres : decTop pr.x pr.src pr.options e v (zeros (e.size pr.x)) 0 with
            | ok a =>
              rw [hres] at hchild
              obtain ⟨s', k1, k2, k3, k4⟩ := hchild
              obtain ⟨b', hb', hm'⟩ := key _ _ k2
              simp only [Res.bindB, hb']
              refine ⟨s', hreach.halts k1, hm', ?_, k4⟩
              rw [k3]
              simp only [upd]
              rw [if_neg (by omega)]
            | err i er a =>
              rw [hres] at hchild
              obtain ⟨s', k1, k2, k3⟩ := hchild
              obtain ⟨b', hb', hm'⟩ := key _ _ k2
              simp only [Res.bindB, hb']
              exact ⟨s', hreach.halts k1, hm', k3⟩
            | crash => rw [hres] at hchild; exact hreach.halts hchild
            | unsup => trivial
  | .emptyStruct, b, hr, hb, hb0, s, v, path, off, blk, hne, h => by
    have := (sim hr s _ path off blk _ h).last hb hte hb0 h.toks
    cases v with
    | obj i ms k => exact absurd (hne rfl) (by simp [isObj])
    | null _ _ | bool _ _ _ | num _ _ _ | str _ _ | arr _ _ _ => exact this
  | .any, b, hr, hb, hb0, s, v, path, off, blk, _, h => (sim hr s _ path off blk _ h).last hb hte hb0 h.toks
  | .number, b, hr, hb, hb0, s, v, path, off, blk, _, h => (sim hr s _ path off blk _ h).last hb hte hb0 h.toks
  | .scalar _, b, hr, hb, hb0, s, v, path, off, blk, _, h => (sim hr s _ path off blk _ h).last hb hte hb0 h.toks
  | .quoted _, b, hr, hb, hb0, s, v, path, off, blk, _, h => (sim hr s _ path off blk _ h).last hb hte hb0 h.toks
  | .jsonU _ _ _, b, hr, hb, hb0, s, v, path, off, blk, _, h => (sim hr s _ path off blk _ h).last hb hte hb0 h.toks
  | .textU _ _ _, b, hr, hb, hb0, s, v, path, off, blk, _, h => (sim hr s _ path off blk _ h).last hb hte hb0 h.toks
  | .array0, b, hr, hb, hb0, s, v, path, off, blk, _, h => (sim hr s _ path off blk _ h).last hb hte hb0 h.toks
  | .array _ _, b, hr, hb, hb0, s, v, path, off, blk, _, h => (sim hr s _ path off blk _ h).last hb hte hb0 h.toks
  | .slice _, b, hr, hb, hb0, s, v, path, off, blk, _, h => (sim hr s _ path off blk _ h).last hb hte hb0 h.toks
  | .sliceOf _, b, hr, hb, hb0, s, v, path, off, blk, _, h => (sim hr s _ path off blk _ h).last hb hte hb0 h.toks
  | .sliceES, b, hr, hb, hb0, s, v, path, off, blk, _, h => (sim hr s _ path off blk _ h).last hb hte hb0 h.toks
  | .mapSS, b, hr, hb, hb0, s, v, path, off, blk, _, h => (sim hr s _ path off blk _ h).last hb hte hb0 h.toks
  | .map _ _, b, hr, hb, hb0, s, v, path, off, blk, _, h => (sim hr s _ path off blk _ h).last hb hte hb0 h.toks
  | .struct _ _, b, hr, hb, hb0, s, v, path, off, blk, _, h => (sim hr s _ path off blk _ h).last hb hte hb0 h.toks

/-! ## The members -/

theorem TopPost.trans {pr : Prog} {s s1 : St} {path : List Step} {r : Res} {b1 : Block} (h : Reach pr s s1) (hm : putBlock s.mem path b1 = some s1.mem) (hd : s1.dyn 0 = s.dyn 0)
    (hr : TopPost pr s1 path r) : TopPost pr s path r := by
  cases r with
  | ok blk' =>
    obtain ⟨s', h1, h2, h3, h4⟩ := hr
    exact ⟨s', h.halts h1, by rw [← h2, put_put hm], by rw [h3, hd], h4⟩
  | err i e blk' =>
    obtain ⟨s', h1, h2, h3⟩ := hr
    exact ⟨s', h.halts h1, by rw [← h2, put_put hm], h3⟩
  | crash => exact h.halts hr
  | unsup => trivial

/-- The closing brace of an object inside the struct, met in the frame of the struct. -/
theorem root_brace {pr : Prog} {s : St} {b : Nat} {f : Frame} {te : Token} {rest : List Token} (hpc : s.pc = .loop) (hsi : s.si = b) (hf : pr.frames[b]? = some f) (hty : f.type = .struct)
    (hp : f.parent = none) (htk : pr.toks.drop s.ti = te :: rest) (hte : te.type = .objectEnd) : Reach pr s { s with ti := s.ti + 1 } := by
  have hs := step_loop hpc (toks_head htk) (by rw [hsi]; exact hf)
  simp only [dispatch, hte, onObjectEnd, hty] at hs
  have hs2 : step pr { s with ti := s.ti + 1, pc := .valEnd } = .run { s with ti := s.ti + 1, pc := .loop } := by
    simp [step, hsi, hf, onValEnd, hp]
  have := Reach.head hs (Reach.one hs2)
  have e : ({ s with ti := s.ti + 1, pc := .loop } : St) = { s with ti := s.ti + 1 } := by rw [← hpc]
  rw [e] at this
  exact this

theorem root_loop {pr : Prog} {b : Nat} {fields : List (Bytes × Nat × Ty)} {f : Frame} (hf : pr.frames[b]? = some f)
    (hty : f.type = .struct) (hp : f.parent = none) (hrf : RepFields pr.x pr.frames b fields (b + 1) f.fields)
    {o : Options} (ho : pr.options = some o) :
    ∀ (N : Nat) (ms : List ((Nat × Nat) × JVal)), ms.length ≤ N → ∀ (s : St) (path : List Step) (off : Nat) (blk : Block) (te : Token),
    s.pc = .loop → s.si = b → (∀ q ∈ f.fields, (s.dyn q.2).dest = .at ⟨path, off⟩) →
    pr.toks.drop s.ti = flattenM s.ti ms ++ [te] → te.type = .objectEnd → getBlock s.mem path = some blk → DynOK pr.frames s.dyn →
    TopPost pr s path (rootB pr.x pr.src o fields ms blk off) := by
  have hend : ∀ (s : St) (path : List Step) (blk : Block) (te : Token), s.pc = .loop → s.si = b → pr.toks.drop s.ti = [te] → te.type = .objectEnd → getBlock s.mem path = some blk →
      DynOK pr.frames s.dyn → TopPost pr s path (.ok blk) := by
    intro s path blk te hpc hsi htk hte hb hd
    have h1 := root_brace hpc hsi hf hty hp htk hte
    have h2 : pr.toks.drop (s.ti + 1) = [] := by
      have := toks_drop (t := [te]) (r := []) (by simpa using htk)
      simpa using this
    exact ⟨_, h1.halts (Halts.one (step_done hpc h2) (by simp)), put_get hb, rfl, hd⟩
  intro N
  induction N with
  | zero =>
    intro ms hN s path off blk te hpc hsi hp htk hte hb hd
    have : ms = [] := List.length_eq_zero_iff.1 (by omega)
    subst this
    exact hend s path blk te hpc hsi (by simpa [flattenM] using htk) hte hb hd
  | succ N ihN =>
    intro ms hN s path off blk te hpc hsi hfd htk hte hb hd
    by_cases hms : ms = []
    · subst hms
      exact hend s path blk te hpc hsi (by simpa [flattenM] using htk) hte hb hd
    have hs : step pr s = match scanKeys pr.x pr.src o f.fields none (pr.toks.drop s.ti) s.ti with
        | .crash => .crash
        | .unknown i => .err i .unknownField s
        | .brk ti => .run { s with ti := ti + 1 }
        | .found ti fi => .run { s with ti := ti + 1, si := fi } := by
      obtain ⟨⟨⟨i, en⟩, v⟩, ms', rfl⟩ := List.exists_cons_of_ne_nil hms
      simp only [flattenM, List.append_assoc, List.cons_append] at htk
      have hs := step_loop hpc (toks_head htk) (by rw [hsi]; exact hf)
      simp only [dispatch, onKey, hty, ho] at hs
      exact hs
    rw [htk] at hs
    have hnames : f.fields.map (·.1) = fields.map (·.1) := repFields_names hrf
    rcases scan_root (x := pr.x) (src := pr.src) (o := o) hnames blk off te hte [] ms none s.ti (.inl ⟨rfl, hms⟩) with
      ⟨h1, h2⟩ | ⟨i, h1, h2⟩ | h1 | ⟨h1, h2⟩ | ⟨pre, k, v, ms', h0, h1, h2, h3⟩ | ⟨pre, i, e, v, ms', j, n, fo, t, p, h0, h1, h2, h3, h4, h5⟩
    · rw [h1]; rw [h2] at hs; exact Halts.one hs (by simp)
    · rw [h1]; rw [h2] at hs; exact ⟨s, Halts.one hs (by simp), put_get hb, hd⟩
    · rw [h1]; trivial
    · rw [h1]; rw [h2] at hs
      have hpos : 0 < (flattenM s.ti ms).length := by
        obtain ⟨⟨⟨i, en⟩, v⟩, ms', rfl⟩ := List.exists_cons_of_ne_nil hms
        simp [flattenM]
      refine TopPost.trans (Reach.one hs) (put_get hb) rfl (hend _ path blk te hpc hsi ?_ hte hb hd)
      simp only []
      have e1 : s.ti + (flattenM s.ti ms).length - 1 + 1 = s.ti + (flattenM s.ti ms).length := by omega
      rw [e1]
      exact toks_drop htk
    · rw [h3]; rw [h2] at hs
      subst h0
      rw [flattenM_append] at htk
      simp only [flattenM, List.append_assoc, List.cons_append] at htk
      have htk1 := toks_drop htk
      have htk2 : pr.toks.drop (s.ti + (flattenM s.ti pre).length + 1) =
          flatten (s.ti + (flattenM s.ti pre).length + 1) v ++
            (flattenM (s.ti + (flattenM s.ti pre).length + 1 + (flatten (s.ti + (flattenM s.ti pre).length + 1) v).length) ms' ++ [te]) := by
        have := toks_drop (t := [_]) (r := flatten (s.ti + (flattenM s.ti pre).length + 1) v ++
            (flattenM (s.ti + (flattenM s.ti pre).length + 1 + (flatten (s.ti + (flattenM s.ti pre).length + 1) v).length) ms' ++ [te]))
            (by rw [htk1]; simp; rfl)
        simpa using this
      generalize hA : s.ti + (flattenM s.ti pre).length + 1 = A at htk2 hs
      obtain ⟨hlen2, te', hte', hcl⟩ := flatten_obj_close h1 A
      have htk3 : pr.toks.drop (A + (flatten A v).length - 2 + 1) = te' :: (flattenM (A + (flatten A v).length) ms' ++ [te]) := by
        have e1 : A + (flatten A v).length - 2 + 1 = A + ((flatten A v).length - 1) := by omega
        rw [e1, ← List.drop_drop, htk2, List.drop_append_of_le_length (by omega), hcl]
        rfl
      have hbr := root_brace (pr := pr) (s := { s with ti := A + (flatten A v).length - 2 + 1 }) hpc hsi hf hty hp htk3 hte'
      simp only [] at hbr
      have e2 : A + (flatten A v).length - 2 + 1 + 1 = A + (flatten A v).length := by omega
      rw [e2] at hbr
      refine TopPost.trans ((Reach.one hs).trans hbr) (put_get hb) rfl
        (ihN ms' (by simp at hN; omega) _ path off blk te hpc hsi hfd ?_ hte hb hd)
      exact toks_drop htk2
    · rw [h3] at hs
      simp only [] at hs
      obtain ⟨fo', t', hfj, ⟨c, hc, hcp, hco⟩, hrt, hlo, hhi, hother⟩ := repFields_get hrf h2
      rw [hfj] at h1
      simp only [Option.some.injEq, Prod.mk.injEq, true_and] at h1
      obtain ⟨rfl, rfl⟩ := h1
      subst h0
      rw [flattenM_append] at htk
      simp only [flattenM, List.append_assoc, List.cons_append] at htk
      have htk1 := toks_drop htk
      have htk2 : pr.toks.drop (s.ti + (flattenM s.ti pre).length + 1) =
          flatten (s.ti + (flattenM s.ti pre).length + 1) v ++
            (flattenM (s.ti + (flattenM s.ti pre).length + 1 + (flatten (s.ti + (flattenM s.ti pre).length + 1) v).length) ms' ++ [te]) := by
        have := toks_drop (t := [_]) (r := flatten (s.ti + (flattenM s.ti pre).length + 1) v ++
            (flattenM (s.ti + (flattenM s.ti pre).length + 1 + (flatten (s.ti + (flattenM s.ti pre).length + 1) v).length) ms' ++ [te]))
            (by rw [htk1]; simp; rfl)
        simpa using this
      generalize hA : s.ti + (flattenM s.ti pre).length + 1 = A at htk2 hs
      have hcn : c.type ≠ .structRecur := by
        obtain ⟨c', hc', hct, -⟩ := hrt.frame
        rw [hc] at hc'; cases hc'; rw [hct]; exact etype_ne t'
      have hpre : Pre pr { s with ti := A, si := p } p path (off + fo') blk v (flattenM (A + (flatten A v).length) ms' ++ [te]) := by
        refine ⟨hpc, rfl, ?_, htk2, hb, hd⟩
        have hmem : (n, p) ∈ f.fields := List.mem_of_getElem? h2
        have hoff := hd.off p c b f hc hcn hcp hf (.inl hty)
        simp only []
        rw [hfd _ hmem, hoff, hco]
        rfl
      by_cases hes : t' = .emptyStruct ∧ isObj v = true
      · obtain ⟨rfl, hob⟩ := hes
        have hmb : memberB pr.x pr.src o ms'.isEmpty .emptyStruct v blk (off + fo') = .ok blk := by
          cases v with
          | obj i ms k => simp [memberB, Ty.isES, decTop]
          | _ => simp [isObj] at hob
        rw [h4 blk hmb]
        obtain ⟨hlen2, te', hte', hcl⟩ := flatten_obj_close hob A
        have htk3 : pr.toks.drop (A + (flatten A v).length - 1) = te' :: (flattenM (A + (flatten A v).length) ms' ++ [te]) := by
          have e1 : A + (flatten A v).length - 1 = A + ((flatten A v).length - 1) := by omega
          rw [e1, ← List.drop_drop, htk2, List.drop_append_of_le_length (by omega), hcl]
          rfl
        have hs1 : step pr { s with ti := A, si := p } = .run { s with ti := A + (flatten A v).length - 1, si := p, pc := .valEnd } := by
          cases v with
          | obj i' ms'' k' =>
            obtain ⟨c', hc', hct, -⟩ := hrt
            rw [step_obj hpre hc']
            simp only [onObject, hct, flatten, List.length_cons, List.length_append, List.length_nil]
            congr 2; omega
          | _ => simp [isObj] at hob
        have hs2 : step pr { s with ti := A + (flatten A v).length - 1, si := p, pc := .valEnd } = .run { s with ti := A + (flatten A v).length - 1, si := b, pc := .loop } := by
          simp [step, hc, onValEnd, hcp, hf, hty]
        have hbr := root_brace (pr := pr) (s := { s with ti := A + (flatten A v).length - 1, si := b, pc := .loop }) rfl rfl hf hty hp htk3 hte'
        simp only [] at hbr
        have e2 : A + (flatten A v).length - 1 + 1 = A + (flatten A v).length := by omega
        rw [e2] at hbr
        refine TopPost.trans ((Reach.one hs).trans ((Reach.head hs1 (Reach.one hs2)).trans hbr)) (put_get hb) rfl
          (ihN ms' (by simp at hN; omega) _ path off blk te rfl rfl hfd ?_ hte hb hd)
        exact toks_drop htk2
      have hne : t' = .emptyStruct → isObj v = false := by
        intro h; cases hob : isObj v with
        | false => rfl
        | true => exact absurd ⟨h, hob⟩ hes
      by_cases hlast : ms' = []
      · subst hlast
        have hlf : LastFrame pr.frames p := ⟨c, b, f, hc, hcp, hf, .inl ⟨hty, hp⟩⟩
        simp only [flattenM, List.nil_append] at hpre
        have hchild := last_sim hte hrt hlf (by omega) hne hpre
        have hmb : memberB pr.x pr.src o ([] : List ((Nat × Nat) × JVal)).isEmpty t' = decTop pr.x pr.src pr.options t' := by simp [memberB, ho]
        rw [hmb] at h4 h5
        have : rootB pr.x pr.src o fields (pre ++ [((i, e), v)]) blk off = decTop pr.x pr.src pr.options t' v blk (off + fo') := by
          cases hdec : decTop pr.x pr.src pr.options t' v blk (off + fo') with
          | ok b' => rw [h4 b' hdec]; rfl
          | _ => rw [h5 (fun b' hb' => by rw [hdec] at hb'; cases hb'), hdec]
        rw [this]
        exact TopPost.trans (Reach.one hs) (put_get hb) rfl hchild
      have hmb : memberB pr.x pr.src o ms'.isEmpty t' v = dec pr.x pr.src pr.options t' v := by
        have hE : ms'.isEmpty = false := by cases ms' with | nil => exact absurd rfl hlast | cons _ _ => rfl
        simp only [memberB, hE, Bool.false_or, ho]
        cases t' <;> first | rfl | skip
        have := hne rfl
        cases v <;> first | rfl | simp [isObj] at this
      rw [hmb] at h4 h5
      have hchild := sim hrt _ v path (off + fo') blk _ hpre
      cases hdec : dec pr.x pr.src pr.options t' v blk (off + fo') with
      | err i' er b' =>
        rw [h5 (fun b' hb' => by rw [hdec] at hb'; cases hb'), hdec]
        rw [hdec] at hchild
        obtain ⟨s', a1, a2, a3⟩ := hchild
        exact ⟨s', (Reach.one hs).halts a1, a2, a3⟩
      | crash =>
        rw [h5 (fun b' hb' => by rw [hdec] at hb'; cases hb'), hdec]
        rw [hdec] at hchild
        exact (Reach.one hs).halts hchild
      | unsup =>
        rw [h5 (fun b' hb' => by rw [hdec] at hb'; cases hb'), hdec]
        trivial
      | ok b' =>
        rw [h4 b' hdec]
        rw [hdec] at hchild
        obtain ⟨s1, a1, a2, a3, a4, a5, a6, a7⟩ := hchild
        have hst : step pr s1 = onValEnd pr s1 c := by simp [step, a2, a3, hc]
        simp only [onValEnd, hcp, hf, hty] at hst
        simp only [] at a4 a5 a6
        refine TopPost.trans ((Reach.one hs).trans (a1.trans (Reach.one hst))) a5 (a6 0 (by omega))
          (ihN ms' (by simp at hN; omega) _ path off b' te rfl rfl ?_ ?_ hte (get_put a5) a7)
        · intro q hq
          simp only []
          rw [a6 q.2 (by have := hother q hq; omega)]
          exact hfd q hq
        · simp only [a4]
          exact toks_drop htk2

/-- An object into a struct that is the destination itself. -/
theorem root_sim {pr : Prog} {b : Nat} {size : Nat} {fields : List (Bytes × Nat × Ty)} (hr : Rep pr.x pr.frames (.struct size fields) b) (hroot : ∀ f, pr.frames[b]? = some f → f.parent = none) (hb0 : b = 0)
    {o : Options} (ho : pr.options = some o) {s : St} {i k : Nat} {ms : List ((Nat × Nat) × JVal)} {path : List Step} {off : Nat} {blk : Block} (h : Pre pr s b path off blk (.obj i ms k) []) :
    TopPost pr s path (rootB pr.x pr.src o fields ms blk off) := by
  obtain ⟨f, hf, hty, hsz, hrf⟩ := hr
  have hp := hroot f hf
  have hs := step_obj h hf
  have htk := h.toks
  simp only [flatten] at htk
  simp only [onObject, hty] at hs
  by_cases hm : ms = []
  · subst hm
    simp only [List.length_nil, if_true] at hs
    have h2 : pr.toks.drop (s.ti + 2) = [] := by
      have := toks_drop htk
      simpa [flattenM] using this
    obtain ⟨s2, k1, k2, k3⟩ := top_end (pr := pr) (s := { s with ti := s.ti + 2, pc := .valEnd }) ⟨f, hf, .inl hp⟩ rfl h.si h2
    exact ⟨s2, (Reach.one hs).halts k1, by rw [k2]; exact put_get h.blk, by rw [k3], by rw [k3]; exact h.dyn⟩
  · rw [if_neg (by simpa using hm)] at hs
    have htk1 : pr.toks.drop (s.ti + 1) = flattenM (s.ti + 1) ms ++ [⟨.objectEnd, k, k + 1, 0⟩] := by
      have := toks_drop (t := [_]) (r := flattenM (s.ti + 1) ms ++ [⟨.objectEnd, k, k + 1, 0⟩]) (by rw [htk]; simp; rfl)
      simpa using this
    have hloop := root_loop hf hty hp hrf ho ms.length ms (Nat.le_refl _)
      { s with ti := s.ti + 1, dyn := setFieldDests s.p f.fields s.dyn } path off blk ⟨.objectEnd, k, k + 1, 0⟩ h.pc h.si
      (fun q hq => by
        simp only [setFieldDests_eq]
        rw [if_pos (List.mem_map.2 ⟨q, hq, rfl⟩), h.sp])
      htk1 rfl h.blk (h.dyn.setFields _ _)
    refine TopPost.trans (Reach.one hs) (put_get h.blk) ?_ hloop
    simp only [setFieldDests_eq]
    rw [if_neg]
    intro hc
    obtain ⟨q, hq, hqj⟩ := List.mem_map.1 hc
    have := repFields_pos hrf q hq
    omega

end Verif.Proof.Sim
