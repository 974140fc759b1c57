import Verif.Spec.Session
import Verif.Spec.Doc
import Verif.Proof.Reads
import Verif.Proof.ErrIdx
import Verif.Proof.Atoi
/-!
# Decoders that have been used
-/
namespace Verif.Proof.Reads
open Verif.Model Verif.Big Verif.Spec Verif.Proof Verif.Proof.Sim Verif.Proof.Types Verif.Proof.ErrIdx

theorem hasTree_ready {env : TypeEnv} {x : Ext} {opts : Option InitOptions} {depth : Nat} {t : Option TypeId} {ty : Ty} (h : HasTree env x opts depth t ty) {d : Decoder}
    (hd : newDecoder env x.W opts depth t = .ok d) : Ready x ty d := by
  cases t with
  | none =>
    cases h
    cases depth with
    | zero => simp [newDecoder, appendType] at hd
    | succ n =>
      simp only [newDecoder, appendType, NewRes.ok.injEq] at hd
      subst hd
      exact ⟨rfl, ⟨_, rfl, rfl, rfl⟩, ⟨_, rfl, rfl, rfl⟩, trivial, fresh_dynOK _⟩
  | some t =>
    obtain ⟨hL, allow, seen, hopt, htr⟩ := h
    obtain ⟨d', hd', hr, -⟩ := newDecoder_ready hL hopt htr
    rw [hd] at hd'
    cases hd'
    exact hr

theorem served_ready {x : Ext} {ty : Ty} {d₀ d : Decoder} (h : Ready x ty d₀) (hs : Served x d₀ d) : Ready x ty d := by
  induction hs with
  | new => exact h
  | call _ hr ih => exact decode_ready ih hr

theorem decoderFor_ready {x : Ext} {ty : Ty} {d : Decoder} (h : DecoderFor x ty d) : Ready x ty d := by
  obtain ⟨env, opts, depth, t, d₀, h1, h2, h3⟩ := h
  exact served_ready (hasTree_ready h1 h2) h3

theorem decode_frames {x : Ext} {d : Decoder} {src : Bytes} {doc : Except (Nat × Nat) JVal} {t : Option Block} {o : Option Options} {r : DecodeRes}
    (hr : decode x d src doc t o = some r) : r.dec.frames = d.frames := by
  cases t with
  | none => cases hr; rfl
  | some mem =>
    cases doc with
    | error ic => simp only [decode] at hr; split at hr <;> cases hr; rfl
    | ok v =>
      simp only [decode] at hr
      split at hr
      · cases hr
      · split at hr
        · cases hr; rfl
        · split at hr <;> cases hr; rfl
        · cases hr

/-- No pointer into a destination in the frames. -/
def NilDests (d : Decoder) : Prop := ∀ i, (d.dyn i).dest = .nil

theorem decode_nilDests {x : Ext} {d : Decoder} {src : Bytes} {doc : Except (Nat × Nat) JVal} {t : Option Block} {o : Option Options} {r : DecodeRes}
    (hr : decode x d src doc t o = some r) : NilDests r.dec := by
  cases t with
  | none => cases hr; exact fun i => rfl
  | some mem =>
    cases doc with
    | error ic => simp only [decode] at hr; split at hr <;> cases hr; exact fun i => rfl
    | ok v =>
      simp only [decode] at hr
      split at hr
      · cases hr
      · split at hr
        · cases hr; exact fun i => rfl
        · split at hr <;> cases hr; exact fun i => rfl
        · cases hr

theorem fresh_nilDests {env : TypeEnv} {W : Nat} {opts : Option InitOptions} {depth : Nat} {t : Option TypeId} {d : Decoder} (h : newDecoder env W opts depth t = .ok d) : NilDests d := by
  simp only [newDecoder] at h
  split at h <;> cases h
  intro i
  simp only [freshDyn]
  split <;> rfl

theorem served_nilDests {x : Ext} {d₀ d : Decoder} (h : NilDests d₀) (hs : Served x d₀ d) : NilDests d := by
  induction hs with
  | new => exact h
  | call _ hr _ => exact decode_nilDests hr

theorem reset_nil {d : Decoder} (h : NilDests d) : { d with dyn := resetDests d.dyn } = d := by
  have : resetDests d.dyn = d.dyn := by
    funext i
    simp only [resetDests]
    rw [← h i]
  rw [this]

theorem reset_init {d : Decoder} (h : NilDests d) (mem : Block) : { d with dyn := resetDests (initSt d.dyn mem).dyn } = d := by
  have : resetDests (initSt d.dyn mem).dyn = d.dyn := by
    funext i
    simp only [resetDests, initSt, upd]
    split
    · rename_i hi; subst hi; rw [← h 0]
    · rw [← h i]
  rw [this]

mutual
theorem flatten_starts : ∀ (v : JVal) (ti : Nat), (flatten ti v).map (·.index) = starts v
  | .null _ _, _ => rfl
  | .bool _ _ _, _ => rfl
  | .num _ _ _, _ => rfl
  | .str _ _, _ => rfl
  | .arr i es k, ti => by
    simp only [flatten, List.map_cons, List.map_append, List.map_nil, starts]
    rw [flatten_startsL es]
  | .obj i ms k, ti => by
    simp only [flatten, List.map_cons, List.map_append, List.map_nil, starts]
    rw [flatten_startsM ms]
theorem flatten_startsL : ∀ (vs : List JVal) (ti : Nat), (flattenL ti vs).map (·.index) = startsL vs
  | [], _ => rfl
  | v :: vs, ti => by simp only [flattenL, List.map_append, startsL]; rw [flatten_starts v, flatten_startsL vs]
theorem flatten_startsM : ∀ (ms : List ((Nat × Nat) × JVal)) (ti : Nat), (flattenM ti ms).map (·.index) = startsM ms
  | [], _ => rfl
  | ((i, e), v) :: ms, ti => by simp only [flattenM, List.map_cons, List.map_append, startsM]; rw [flatten_starts v, flatten_startsM ms]
end

mutual
theorem starts_lt {src : Bytes} : ∀ (v : JVal), Wf src v → ∀ i ∈ starts v, i < src.length
  | .null i e, h, j, hj => by
    obtain ⟨h1, h2, h3⟩ := h
    simp only [starts, List.mem_singleton] at hj; subst hj
    have := congrArg List.length h3
    simp [text] at this; omega
  | .bool b i e, h, j, hj => by
    obtain ⟨h1, h2, h3⟩ := h
    simp only [starts, List.mem_singleton] at hj; subst hj
    have := congrArg List.length h3
    cases b <;> simp [text] at this <;> omega
  | .num b i e, h, j, hj => by
    obtain ⟨h1, h2, h3, -⟩ := h
    simp only [starts, List.mem_singleton] at hj; subst hj
    have : text src j e ≠ [] := by
      intro hn
      rw [hn] at h3
      obtain ⟨sg, i, f, e, h, -, hi, -⟩ := h3
      simp at h
      exact Proof.Atoi.natLit_ne_nil hi h.2.1
    have hl := List.length_pos_iff.2 this
    simp [text] at hl; omega
  | .str i e, h, j, hj => by
    obtain ⟨h1, h2, -⟩ := h
    simp only [starts, List.mem_singleton] at hj; subst hj
    omega
  | .arr i es k, h, j, hj => by
    obtain ⟨h1, h2, -, -, h5⟩ := h
    simp only [starts, List.mem_cons, List.mem_append, List.not_mem_nil, or_false] at hj
    rcases hj with rfl | hj | rfl
    · omega
    · exact startsL_lt es h5 j hj
    · exact h2
  | .obj i ms k, h, j, hj => by
    obtain ⟨h1, h2, -, -, h5⟩ := h
    simp only [starts, List.mem_cons, List.mem_append, List.not_mem_nil, or_false] at hj
    rcases hj with rfl | hj | rfl
    · omega
    · exact startsM_lt ms h5 j hj
    · exact h2
theorem startsL_lt {src : Bytes} : ∀ (vs : List JVal), WfL src vs → ∀ i ∈ startsL vs, i < src.length
  | [], _, j, hj => by simp [startsL] at hj
  | v :: vs, h, j, hj => by
    simp only [startsL, List.mem_append] at hj
    rcases hj with hj | hj
    · exact starts_lt v h.1 j hj
    · exact startsL_lt vs h.2 j hj
theorem startsM_lt {src : Bytes} : ∀ (ms : List ((Nat × Nat) × JVal)), WfM src ms → ∀ i ∈ startsM ms, i < src.length
  | [], _, j, hj => by simp [startsM] at hj
  | ((a, b), v) :: ms, h, j, hj => by
    obtain ⟨⟨h1, h2, -⟩, h3, h4⟩ := h
    simp only [startsM, List.mem_cons, List.mem_append] at hj
    rcases hj with rfl | hj | hj
    · simp only at h1 h2; omega
    · exact starts_lt v h3 j hj
    · exact startsM_lt ms h4 j hj
end

end Verif.Proof.Reads
