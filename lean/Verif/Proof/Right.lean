import Verif.Proof.ValRight
import Verif.Proof.Reads
/-!
# `Decode` on documents with pointers at the right end
-/
namespace Verif.Proof.Right
open Verif.Model Verif.Big Verif.Spec Verif.Proof Verif.Proof.Sim Verif.Proof.Reads Verif.Proof.Fragment

/-! ## The reading is defined -/

mutual
theorem decP_ne {x : Ext} {src : Bytes} {o : Option Options} : ∀ (ty : Ty) (p : Place) (v : JVal) (b : Block) (off : Nat), Right x src o ty p v → decP x src o ty v b off ≠ .unsup
  | .jsonU rt n i, p, v, b, off, _ => dec_ne (o := o) (.jsonU rt n i) v b off (by simp [Tame])
  | .textU rt n i, p, v, b, off, _ => dec_ne (o := o) (.textU rt n i) v b off (by simp [Tame])
  | .any, p, v, b, off, _ => dec_ne (o := o) .any v b off (by simp [Tame])
  | .array0, p, v, b, off, _ => dec_ne (o := o) .array0 v b off (by simp [Tame])
  | .sliceOf k, p, v, b, off, _ => dec_ne (o := o) (.sliceOf k) v b off (by simp [Tame])
  | .sliceES, p, v, b, off, _ => dec_ne (o := o) .sliceES v b off (by simp [Tame])
  | .mapSS, p, v, b, off, _ => dec_ne (o := o) .mapSS v b off (by simp [Tame])
  | .number, p, v, b, off, _ => dec_ne (o := o) .number v b off (by simp [Tame])
  | .scalar k, p, v, b, off, _ => dec_ne (o := o) (.scalar k) v b off (by simp [Tame])
  | .quoted k, p, v, b, off, _ => dec_ne (o := o) (.quoted k) v b off (by simp [Tame])
  | .array n e, p, v, b, off, h => by
    cases v <;> simp only [decP]
    case arr i vs k =>
      simp only [Right] at h
      refine elemsB_ne _ _ _ (fun w hw b off => ?_)
      split at h
      · obtain ⟨q, hq⟩ := ButLast.mem (R := fun w => ∃ q, Right x src o e q w) (fun _ h => ⟨_, h⟩) (fun _ h => ⟨_, h⟩) h w (List.mem_of_mem_take hw)
        exact decP_ne e q w b off hq
      · exact decP_ne e .inside w b off (h w hw)
    all_goals exact leafB_ne (by simp) (by simp) _
  | .slice e, p, v, b, off, h => by
    cases v <;> simp only [decP]
    case arr i vs k =>
      simp only [Right] at h
      refine sliceB_ne (fun w hw b off => ?_)
      obtain ⟨q, hq⟩ := ButLast.mem (R := fun w => ∃ q, Right x src o e q w) (fun _ h => ⟨_, h⟩) (fun _ h => ⟨_, h⟩) h w hw
      exact decP_ne e q w b off hq
    all_goals exact leafB_ne (by simp) (by simp) _
  | .map k e, p, v, b, off, h => by
    cases v <;> simp only [decP]
    case obj i ms k' =>
      simp only [Right] at h
      split
      · simp
      · rw [if_neg (fun hc => hc.2 (h.1 hc.1))]
        refine mapB_ne _ _ _ (fun m hm b off => ?_)
        obtain ⟨q, hq⟩ := ButLast.mem (R := fun m : (Nat × Nat) × JVal => ∃ q, Right x src o e q m.2) (fun _ h => ⟨_, h⟩) (fun _ h => ⟨_, h⟩) h.2 m hm
        exact decP_ne e q m.2 b off hq
    all_goals exact leafB_ne (by simp) (by simp) _
  | .struct n fs, p, v, b, off, h => by
    cases v <;> simp only [decP]
    case obj i ms k' =>
      simp only [Right] at h
      split
      · simp
      · cases o with
        | none => simp
        | some o' =>
          simp only []
          refine structB_ne _ _ _ (fun m hm raw name hr hn => ?_)
          obtain ⟨q, hq⟩ := ButLast.mem (R := fun m => ∃ q, RightM x src o' (fs.map (·.1)) (RightF x src (some o') fs) q m) (fun _ h => ⟨_, h⟩) (fun _ h => ⟨_, h⟩) (h o' rfl) m hm
          have := hq raw name hr hn
          rw [decPF_names]
          cases hf : findField x o' ((fs.map (·.1)).zipIdx) name with
          | none => simpa [hf] using this
          | some j =>
            simp only [hf] at this ⊢
            exact fun f hf b off => decPF_ne fs j q m.2 f hf this b off
    all_goals exact leafB_ne (by simp) (by simp) _
  | .emptyStruct, p, v, b, off, h => by
    cases v <;> simp only [decP]
    case obj => simp
    all_goals exact leafB_ne (by simp) (by simp) _
  | .ptr e, p, v, b, off, h => by
    have hn : ∀ w, (∃ q, Right x src o e q w) → (match blit b off (seg x.W (.ptr (zeros (e.size x)))) with
      | none => Res.crash
      | some b => (decP x src o e w (zeros (e.size x)) 0).bindB (putIn b off .deref)) ≠ .unsup := by
      intro w ⟨q, hq⟩
      split
      · simp
      · exact bindB_ne (decP_ne e q w _ _ hq)
    cases v <;> simp only [decP]
    case null => exact execB_ne (by simp [leaf, onNull])
    all_goals refine hn _ ?_; simp only [Right] at h; cases p <;> first | exact h.2.elim | exact ⟨_, h.2⟩
theorem decPF_ne {x : Ext} {src : Bytes} {o : Option Options} : ∀ (fs : List (Bytes × Nat × Ty)) (j : Nat) (p : Place) (v : JVal) (f : Bytes × Nat × (JVal → Block → Nat → Res)),
    (decPF x src o fs)[j]? = some f → (∀ T, (RightF x src o fs)[j]? = some T → T p v) → ∀ b off, f.2.2 v b off ≠ .unsup
  | [], j, p, v, f, hf, _, _, _ => by simp [decPF] at hf
  | (n, fo, t) :: fs, 0, p, v, f, hf, h, b, off => by
    simp only [decPF, List.getElem?_cons_zero, Option.some.injEq] at hf
    subst hf
    exact decP_ne t p v b off (h _ (by simp [RightF]))
  | (n, fo, t) :: fs, j + 1, p, v, f, hf, h, b, off => by
    simp only [decPF, List.getElem?_cons_succ] at hf
    exact decPF_ne fs j p v f hf (fun T hT => h T (by simpa [RightF] using hT)) b off
end

theorem decPV_ne {x : Ext} {src : Bytes} {o : Option Options} {ty : Ty} (hok : OK x ty) {v : JVal} {b : Block} {V : Val} (hV : Holds x ty b 0 V) (h : RightDoc x src o ty v) :
    decPV x src o ty v V ≠ .unsup := by
  intro hc
  have hrel := Val.decP_rel (src := src) (o := o) ty hok v b 0 V hV
  rw [hc] at hrel
  cases hb : decP x src o ty v b 0 with
  | unsup => exact decP_ne ty .final v b 0 h hb
  | _ => rw [hb] at hrel; exact hrel.elim

/-! ## `Decode` follows it -/

theorem decode_right {x : Ext} {ty : Ty} {d : Decoder} (h : Ready x ty d) {src : Bytes} {v : JVal} {mem : Block} {o : Option Options} {V : Val}
    (hl : mem.length = ty.size x) (hV : Holds x ty mem 0 V) (hw : Wf src v) (hR : RightDoc x src o ty v) :
    Exact (decode x d src (.ok v) (some mem) o) (decP x src o ty v mem 0) := by
  obtain ⟨f, hf, hp, ho⟩ := h.root
  obtain ⟨fs, hfr⟩ : ∃ fs, d.frames = f :: fs := by
    cases hd : d.frames with
    | nil => rw [hd] at hf; cases hf
    | cons g fs => rw [hd] at hf; cases hf; exact ⟨fs, rfl⟩
  obtain ⟨f', hf', hft, hsz⟩ := h.rep.frame
  rw [hf] at hf'; cases hf'
  have hpre : Pre { x := x, src := src, toks := flatten 0 v, frames := d.frames, options := o, epoch := d.calls } (initSt d.dyn mem) 0 [] 0 mem v [] := by
    refine ⟨rfl, rfl, ?_, by simp [initSt], rfl, init_dynOK h.dyn mem⟩
    have := h.dyn.root 0 f hf (fun hc => absurd (h.table.nr hf hc) (by decide)) hp
    simp [initSt, upd, Ptr.add, this, ho]
  have hsim := simP (pr := { x := x, src := src, toks := flatten 0 v, frames := d.frames, options := o, epoch := d.calls }) h.rep .final (initSt d.dyn mem) v [] 0 mem [] hpre hw hR
    (fun _ => ⟨.root hf (by rw [hft]; exact etype_ne' ty) (by rw [hft]; exact etype_ne ty) hp, fun t ht => by
      rw [toks_drop hpre.toks] at ht; cases ht⟩)
  have hrel := Val.decP_rel (src := src) (o := o) ty h.ok v mem 0 V hV
  have hstop := Term.run_stops (pr := { x := x, src := src, toks := flatten 0 v, frames := d.frames, options := o, epoch := d.calls }) (Term.tokOK_flatten v) d.dyn mem
  simp only [] at hsim
  cases hb : decP x src o ty v mem 0 with
  | ok b' =>
    rw [hb] at hsim hrel
    obtain ⟨s', k1, ⟨k3, k4, k5⟩, k2, -⟩ := hsim
    have hlen' : b'.length = mem.length := by
      cases hv : decPV x src o ty v V with
      | ok V' => rw [hv] at hrel; exact hrel.2.1
      | err _ _ _ | crash | unsup => rw [hv] at hrel; exact hrel.elim
    have hrun := (k1.halts (Halts.one (step_done k4 k5) (by simp))).unique hstop
    simp only [putBlock, Option.some.injEq] at k2
    have hdest : (s'.dyn 0).dest = .at ⟨[], 0⟩ := by rw [k3 0 (by omega)]; simp [initSt, upd]
    have hrd : (readSeg s'.mem (s'.dyn 0).dest f.size).bind (fun b => blit s'.mem 0 b) = some s'.mem := by
      rw [hdest, hsz]
      have hlen : s'.mem.length = ty.size x := by rw [← k2, hlen', hl]
      simp only [readSeg, getBlock, Option.bind_some, Nat.zero_add, hlen, Nat.le_refl, if_pos, List.drop_zero]
      rw [List.take_of_length_le (by omega)]
      exact blit_self _
    refine ⟨_, by simp only [decode, hfr]; rw [← hfr, hrun]; simp only [hrd]; rw [← k2]⟩
  | err i e b' =>
    rw [hb] at hsim
    obtain ⟨s', k1, k2, k3⟩ := hsim
    have hrun := k1.unique hstop
    simp only [putBlock, Option.some.injEq] at k2
    refine ⟨_, by simp only [decode, hfr]; rw [← hfr, hrun]; simp only []; rw [← k2]⟩
  | crash =>
    rw [hb] at hsim
    have hrun := Halts.unique hsim hstop
    show decode x d src (.ok v) (some mem) o = none
    simp only [decode, hfr]; rw [← hfr, hrun]
  | unsup => trivial

theorem decode_rightV {x : Ext} {ty : Ty} {d : Decoder} (h : Ready x ty d) {src : Bytes} {v : JVal} {mem : Block} {o : Option Options} {V : Val}
    (hl : mem.length = ty.size x) (hV : Holds x ty mem 0 V) (hw : Wf src v) (hR : RightDoc x src o ty v) :
    Reads x ty mem (decode x d src (.ok v) (some mem) o) (decPV x src o ty v V) := by
  have hrel := Val.decP_rel (src := src) (o := o) ty h.ok v mem 0 V hV
  have hex := decode_right h (o := o) hl hV hw hR
  have hne := decP_ne (o := o) ty .final v mem 0 hR
  cases hb : decP x src o ty v mem 0 <;> rw [hb] at hex hrel <;> first | exact absurd hb hne | skip
  all_goals cases hv : decPV x src o ty v V <;> rw [hv] at hrel <;> first | exact hrel.elim | skip
  · obtain ⟨d', hd⟩ := hex
    exact ⟨_, _, hd, rfl, rfl, rfl, hrel.2.1, hrel.1⟩
  · obtain ⟨d', hd⟩ := hex
    obtain ⟨rfl, rfl, r1, r2⟩ := hrel
    exact ⟨_, _, hd, rfl, rfl, rfl, r2.1, r1⟩
  · exact hex

end Verif.Proof.Right
