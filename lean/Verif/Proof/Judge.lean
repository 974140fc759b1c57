import Verif.Spec.Judge
import Verif.Proof.AliasRun
import Verif.Proof.PlaceRun
/-!
# What `Decode` returns does not depend on the contents of the destination

Two runs with different memories: the token index, the frame and the lengths and containers of the frames stay the same.
-/
namespace Verif.Proof.Judge
open Verif.Model Verif.Spec

/-- The control part of the frames. -/
def D (d d' : Nat → Dyn) : Prop := ∀ i, (d i).len = (d' i).len ∧ (d i).rstack.map (·.container) = (d' i).rstack.map (·.container)

/-- The control part of the states. -/
structure Ctl (s s' : St) : Prop where
  ti : s.ti = s'.ti
  si : s.si = s'.si
  pc : s.pc = s'.pc
  dyn : D s.dyn s'.dyn

/-- Outcomes with the same control part, unless one is a panic. -/
def OutC : Out → Out → Prop
  | .run s, .run s' => Ctl s s'
  | .done s, .done s' => Ctl s s'
  | .err i e s, .err i' e' s' => i = i' ∧ e = e' ∧ D s.dyn s'.dyn
  | .crash, _ => True
  | _, .crash => True
  | _, _ => False

theorem OutC.left {o : Out} : OutC .crash o := by cases o <;> trivial
theorem OutC.right {o : Out} : OutC o .crash := by cases o <;> trivial

theorem D.upd {d d' : Nat → Dyn} (h : D d d') (i : Nat) {f g : Dyn → Dyn}
    (hf : ∀ y y' : Dyn, y.len = y'.len → y.rstack.map (·.container) = y'.rstack.map (·.container) → (f y).len = (g y').len ∧ (f y).rstack.map (·.container) = (g y').rstack.map (·.container)) :
    D (upd d i f) (Model.upd d' i g) := by
  intro j
  simp only [Model.upd]
  split
  · exact hf _ _ (h i).1 (h i).2
  · exact h j

theorem D.fields {p p' : Ptr} : ∀ (fs : List (Bytes × Nat)) {d d' : Nat → Dyn}, D d d' → D (setFieldDests p fs d) (setFieldDests p' fs d')
  | [], _, _, h => h
  | f :: fs, _, _, h => D.fields fs (h.upd f.2 fun _ _ h1 h2 => ⟨h1, h2⟩)

theorem D.pop {pr pr' : Prog} {d d' : Nat → Dyn} (h : D d d') {i : Nat} {fs : List (Bytes × Nat)} {r r' : RecFrame} {l l' : List RecFrame} (hl : l.map (·.container) = l'.map (·.container)) :
    D (popRec pr d i fs r l) (popRec pr' d' i fs r' l') :=
  D.fields fs (h.upd i fun _ _ h1 _ => ⟨h1, hl⟩)

theorem exec_C {pr : Prog} {ti si : Nat} {pc : PC} {dyn dyn' : Nat → Dyn} {mem mem' : Block} {f : Frame} {t : Token} (h : D dyn dyn')
    (a : Act) (ht : ∀ b, a = .text b → ∀ rt, f.rtype = some rt → ∀ old old' b, (pr.x.unmarshalText rt old b).2 = (pr.x.unmarshalText rt old' b).2) :
    OutC (exec pr ⟨ti, si, pc, dyn, mem⟩ f t a) (exec pr ⟨ti, si, pc, dyn', mem'⟩ f t a) := by
  cases a with
  | store n c =>
    simp only [exec]
    split
    · exact .left
    split
    · exact .right
    exact ⟨rfl, rfl, rfl, h⟩
  | clear n =>
    simp only [exec]
    split
    · exact .left
    split
    · exact .right
    exact ⟨rfl, rfl, rfl, h⟩
  | nop => exact ⟨rfl, rfl, rfl, h⟩
  | text b =>
    simp only [exec]
    split
    · rename_i rt old h1 h2 h3
      simp only [h1, h2]
      split
      · exact .left
      cases h4 : readSeg mem' (St.p ⟨ti, si, pc, dyn', mem'⟩) f.size with
      | none => exact .right
      | some old' =>
        simp only []
        rw [ht b rfl rt h2 old old' b]
        split
        · split
          · exact .right
          · exact ⟨rfl, rfl, h⟩
        · split
          · exact .right
          · exact ⟨rfl, rfl, rfl, h⟩
    · exact .left
  | toPtr => exact ⟨rfl, rfl, rfl, h⟩
  | toJSON => exact ⟨rfl, rfl, rfl, h⟩
  | err e => exact ⟨rfl, rfl, h⟩
  | crash => exact .left

/-- The element loops of two runs with different arrays. -/
theorem elems_C {x : Ext} {src : Bytes} {k : SKind} : ∀ (ts : List Token) (i : Nat) (a a' : Block), match sliceElems x src k ts i a, sliceElems x src k ts i a' with
    | .ok _, .ok _ => True
    | .err i e _, .err i' e' _ => i = i' ∧ e = e'
    | .crash, _ => True
    | _, .crash => True
    | _, _ => False
  | [], _, _, _ => trivial
  | t :: ts, i, a, a' => by
    simp only [sliceElems]
    cases elemOf x src k t with
    | store n c =>
      simp only []
      cases blit a (i * k.bytes x) (seg n c) <;> cases blit a' (i * k.bytes x) (seg n c) <;> simp only []
      · split <;> simp_all
      · exact elems_C ts _ _ _
    | clear n =>
      simp only []
      cases blit a (i * k.bytes x) (zeros n) <;> cases blit a' (i * k.bytes x) (zeros n) <;> simp only []
      · split <;> simp_all
      · exact elems_C ts _ _ _
    | err e => exact ⟨rfl, rfl⟩
    | _ => trivial

theorem elems_cases {x : Ext} {src : Bytes} {k : SKind} (ts : List Token) (a a' : Block) : sliceElems x src k ts 0 a = .crash ∨ sliceElems x src k ts 0 a' = .crash ∨
    (∃ i e b b', sliceElems x src k ts 0 a = .err i e b ∧ sliceElems x src k ts 0 a' = .err i e b') ∨ ∃ b b', sliceElems x src k ts 0 a = .ok b ∧ sliceElems x src k ts 0 a' = .ok b' := by
  have := elems_C (x := x) (src := src) (k := k) ts 0 a a'
  cases h3 : sliceElems x src k ts 0 a <;> cases h4 : sliceElems x src k ts 0 a' <;> simp_all

local macro "sc" : tactic => `(tactic| (
  iterate 3
    all_goals try first
      | with_reducible exact OutC.left
      | with_reducible exact OutC.right
      | exact ⟨rfl, rfl, rfl, by assumption⟩
      | exact ⟨rfl, rfl, by assumption⟩
      | split))

/-- Continuing after a step that may panic. -/
theorem opt_C {o o' : Option Block} {k k' : Block → Out} (h : ∀ a a', OutC (k a) (k' a')) :
    OutC (match o with | none => .crash | some a => k a) (match o' with | none => .crash | some a => k' a) := by
  cases o with
  | none => exact .left
  | some a =>
    cases o' with
    | none => exact .right
    | some a' => exact h a a'

theorem sliceOf_C {pr : Prog} {ti si : Nat} {pc : PC} {dyn dyn' : Nat → Dyn} {mem mem' : Block} {t : Token} {k : SKind} (h : D dyn dyn') :
    OutC (onSliceOf pr ⟨ti, si, pc, dyn, mem⟩ t k) (onSliceOf pr ⟨ti, si, pc, dyn', mem'⟩ t k) := by
  unfold onSliceOf
  simp only []
  split
  · split
    · exact .left
    split
    · exact .right
    exact ⟨rfl, rfl, rfl, h⟩
  cases sliceHdr (readCell mem (St.p ⟨ti, si, pc, dyn, mem⟩)) with
  | none => exact .left
  | some q =>
  cases sliceHdr (readCell mem' (St.p ⟨ti, si, pc, dyn', mem'⟩)) with
  | none => exact .right
  | some q' =>
    obtain ⟨l, c, a⟩ := q
    obtain ⟨l', c', a'⟩ := q'
    simp only []
    split
    · exact .left
    by_cases g : c < t.elements <;> by_cases g' : c' < t.elements
    · simp only [g, g', if_true, if_false]
      rcases elems_cases (x := pr.x) (src := pr.src) (k := k) ((pr.toks.take t.end_).drop (ti + 1)) (zeros (t.elements * k.bytes pr.x)) (zeros (t.elements * k.bytes pr.x)) with h1 | h1 | ⟨i, e, b, b', h1, h2⟩ | ⟨b, b', h1, h2⟩
      · simp only [h1]; exact .left
      · simp only [h1]; exact .right
      · simp only [h1, h2]
        sc
      · simp only [h1, h2]
        sc
    · simp only [g, g', if_true, if_false]
      rcases elems_cases (x := pr.x) (src := pr.src) (k := k) ((pr.toks.take t.end_).drop (ti + 1)) (zeros (t.elements * k.bytes pr.x)) (a'.take (t.elements * k.bytes pr.x)) with h1 | h1 | ⟨i, e, b, b', h1, h2⟩ | ⟨b, b', h1, h2⟩
      · simp only [h1]; exact .left
      · simp only [h1]; exact .right
      · simp only [h1, h2]
        sc
      · simp only [h1, h2]
        sc
    · simp only [g, g', if_true, if_false]
      rcases elems_cases (x := pr.x) (src := pr.src) (k := k) ((pr.toks.take t.end_).drop (ti + 1)) (a.take (t.elements * k.bytes pr.x)) (zeros (t.elements * k.bytes pr.x)) with h1 | h1 | ⟨i, e, b, b', h1, h2⟩ | ⟨b, b', h1, h2⟩
      · simp only [h1]; exact .left
      · simp only [h1]; exact .right
      · simp only [h1, h2]
        sc
      · simp only [h1, h2]
        sc
    · simp only [g, g', if_true, if_false]
      rcases elems_cases (x := pr.x) (src := pr.src) (k := k) ((pr.toks.take t.end_).drop (ti + 1)) (a.take (t.elements * k.bytes pr.x)) (a'.take (t.elements * k.bytes pr.x)) with h1 | h1 | ⟨i, e, b, b', h1, h2⟩ | ⟨b, b', h1, h2⟩
      · simp only [h1]; exact .left
      · simp only [h1]; exact .right
      · simp only [h1, h2]
        sc
      · simp only [h1, h2]
        sc

theorem D.push {d d' : Nat → Dyn} (h : D d d') (i c e e' : Nat) {q q' : Dyn → Ptr} {o o' : Dyn → Nat} :
    D (Model.upd d i fun y => { y with dest := q y, offset := o y, rstack := ⟨y.dest, y.offset, c, e⟩ :: y.rstack })
      (Model.upd d' i fun y => { y with dest := q' y, offset := o' y, rstack := ⟨y.dest, y.offset, c, e'⟩ :: y.rstack }) :=
  h.upd i fun _ _ h1 h2 => ⟨h1, by simpa using h2⟩

theorem D.dest {d d' : Nat → Dyn} (h : D d d') (i : Nat) {q q' : Dyn → Ptr} {o o' : Dyn → Nat} :
    D (Model.upd d i fun y => { y with dest := q y, offset := o y }) (Model.upd d' i fun y => { y with dest := q' y, offset := o' y }) :=
  h.upd i fun _ _ h1 h2 => ⟨h1, h2⟩

theorem D.rlen {d d' : Nat → Dyn} (h : D d d') (i : Nat) : (d i).rstack.length = (d' i).rstack.length := by simpa using congrArg List.length (h i).2

theorem array_C {pr : Prog} {ti si : Nat} {pc : PC} {dyn dyn' : Nat → Dyn} {mem mem' : Block} {f : Frame} {t : Token} (h : D dyn dyn') :
    OutC (onArray pr ⟨ti, si, pc, dyn, mem⟩ f t) (onArray pr ⟨ti, si, pc, dyn', mem'⟩ f t) := by
  unfold onArray
  simp only []
  cases f.type with
  | any =>
    simp only []
    cases decodeAny pr.x pr.src (pr.toks.length + 1) (pr.toks.drop ti) <;> simp only []
    · sc
    · exact ⟨rfl, rfl, h⟩
    · exact .left
  | arrayLen0 => exact ⟨rfl, rfl, rfl, h⟩
  | array =>
    simp only []
    split
    · exact ⟨rfl, rfl, rfl, h⟩
    · exact ⟨rfl, rfl, rfl, h.upd _ fun _ _ _ h2 => ⟨rfl, h2⟩⟩
  | slice =>
    simp only []
    cases pr.frames[si + 1]? with
    | none => exact .left
    | some fe =>
      simp only []
      split
      · sc
      · split
        · split
          · exact .left
          split
          · split
            · exact .right
            exact ⟨rfl, rfl, rfl, h.dest _⟩
          · exact .right
        · exact .left
  | sliceRecur =>
    simp only []
    cases pr.frames[f.recurFrame]? with
    | none => exact .left
    | some fr =>
      simp only []
      have hr := h.rlen f.recurFrame
      split
      · rw [hr]
        refine opt_C fun m m' => ?_
        split
        · exact ⟨rfl, rfl, rfl, h⟩
        · exact ⟨rfl, rfl, rfl, h⟩
      · split
        · split
          · exact .left
          split
          · split
            · exact .right
            exact ⟨rfl, rfl, rfl, h.push _ _ _ _⟩
          · exact .right
        · exact .left
  | sliceEmptyStruct => simp only []; sc
  | sliceOf k => exact sliceOf_C h
  | ptr => exact ⟨rfl, rfl, rfl, h⟩
  | jsonUnmarshaler => exact ⟨rfl, rfl, rfl, h⟩
  | _ => exact ⟨rfl, rfl, h⟩

theorem object_C {pr : Prog} {ti si : Nat} {pc : PC} {dyn dyn' : Nat → Dyn} {mem mem' : Block} {f : Frame} {t : Token} (h : D dyn dyn') :
    OutC (onObject pr ⟨ti, si, pc, dyn, mem⟩ f t) (onObject pr ⟨ti, si, pc, dyn', mem'⟩ f t) := by
  unfold onObject
  simp only []
  cases f.type with
  | emptyStruct => exact ⟨rfl, rfl, rfl, h⟩
  | any =>
    simp only []
    cases decodeAny pr.x pr.src (pr.toks.length + 1) (pr.toks.drop ti) <;> simp only []
    · sc
    · exact ⟨rfl, rfl, h⟩
    · exact .left
  | ptrRecur =>
    simp only []
    cases pr.frames[f.recurFrame]? with
    | none => exact .left
    | some fr =>
      cases hp : St.p ⟨ti, si, pc, dyn, mem⟩ with
      | «at» ad =>
        cases hp' : St.p ⟨ti, si, pc, dyn', mem'⟩ with
        | «at» ad' =>
          simp only []
          refine opt_C fun m m' => ?_
          have hd := (h.push (q := Dyn.dest) (q' := Dyn.dest) (o := Dyn.offset) (o' := Dyn.offset) f.recurFrame si pr.epoch pr.epoch).dest (q := fun _ => .at (ad.into .deref)) (q' := fun _ => .at (ad'.into .deref)) (o := Dyn.offset) (o' := Dyn.offset) f.recurFrame
          split
          · exact ⟨rfl, rfl, rfl, hd⟩
          · exact ⟨rfl, rfl, rfl, hd.fields _⟩
        | _ => exact .right
      | _ => exact .left
  | mapRecur =>
    simp only []
    cases pr.frames[f.recurFrame]? with
    | none => exact .left
    | some fr =>
      simp only []
      have hd := h.push (q := Dyn.dest) (q' := Dyn.dest) (o := Dyn.offset) (o' := Dyn.offset) f.recurFrame si pr.epoch pr.epoch
      refine opt_C fun m m' => ?_
      split
      · exact ⟨rfl, rfl, rfl, hd⟩
      · exact ⟨rfl, rfl, rfl, hd⟩
  | map =>
    simp only []
    refine opt_C fun m m' => ?_
    split
    · exact ⟨rfl, rfl, rfl, h⟩
    · exact ⟨rfl, rfl, rfl, h⟩
  | mapStringString =>
    simp only []
    split
    · sc
    split
    · exact .left
    split
    · exact .left
    · exact ⟨rfl, rfl, h⟩
    · sc
  | struct =>
    simp only []
    split
    · exact ⟨rfl, rfl, rfl, h⟩
    · exact ⟨rfl, rfl, rfl, h.fields _⟩
  | structRecur =>
    simp only []
    split
    · exact ⟨rfl, rfl, rfl, h⟩
    · exact ⟨rfl, rfl, rfl, h.fields _⟩
  | ptr => exact ⟨rfl, rfl, rfl, h⟩
  | jsonUnmarshaler => exact ⟨rfl, rfl, rfl, h⟩
  | _ => exact ⟨rfl, rfl, h⟩

theorem key_C {pr : Prog} {ti si : Nat} {pc : PC} {dyn dyn' : Nat → Dyn} {mem mem' : Block} {f : Frame} {t : Token} (h : D dyn dyn') :
    OutC (onKey pr ⟨ti, si, pc, dyn, mem⟩ f t) (onKey pr ⟨ti, si, pc, dyn', mem'⟩ f t) := by
  have hs : ∀ fields, OutC
      (match pr.options with
        | none => .crash
        | some o => match scanKeys pr.x pr.src o fields none (pr.toks.drop ti) ti with
          | .crash => .crash
          | .unknown i => .err i .unknownField ⟨ti, si, pc, dyn, mem⟩
          | .brk ti => .run ⟨ti + 1, si, pc, dyn, mem⟩
          | .found ti fi => .run ⟨ti + 1, fi, pc, dyn, mem⟩)
      (match pr.options with
        | none => .crash
        | some o => match scanKeys pr.x pr.src o fields none (pr.toks.drop ti) ti with
          | .crash => .crash
          | .unknown i => .err i .unknownField ⟨ti, si, pc, dyn', mem'⟩
          | .brk ti => .run ⟨ti + 1, si, pc, dyn', mem'⟩
          | .found ti fi => .run ⟨ti + 1, fi, pc, dyn', mem'⟩) := by
    intro fields
    split
    · exact .left
    split
    · exact .left
    · exact ⟨rfl, rfl, h⟩
    · exact ⟨rfl, rfl, rfl, h⟩
    · exact ⟨rfl, rfl, rfl, h⟩
  have hm : ∀ r : Bool, OutC
      (match slice pr.src (t.index + 1) (t.end_ - 1), pr.frames[si + 1]?, St.p ⟨ti, si, pc, dyn, mem⟩ with
        | some key, some fk, .at ad => match mapKeyOf pr.x fk key with
          | none => .crash
          | some (.error e) => .err t.index e ⟨ti, si, pc, dyn, mem⟩
          | some (.ok k?) =>
            let mp : Option (Block × Ptr) := match k? with
              | none => some (mem, .nil)
              | some k => (mapAssign pr.x.W f fk mem ad k).map fun m => (m, .at (ad.into (.entry k)))
            match mp with
            | none => .crash
            | some (m, pNew) =>
              let si := if r then f.recurFrame else si + 2
              match pr.frames[si]? with
              | none => .crash
              | some fv =>
                let d := upd dyn si fun y => { y with dest := pNew }
                if fv.type = .struct ∨ fv.type = .structRecur then
                  match writeSeg m pNew (zeros f.mapValueSize) with
                  | none => .crash
                  | some m => .run ⟨ti + 1, si, pc, d, m⟩
                else .run ⟨ti + 1, si, pc, d, m⟩
        | _, _, _ => .crash)
      (match slice pr.src (t.index + 1) (t.end_ - 1), pr.frames[si + 1]?, St.p ⟨ti, si, pc, dyn', mem'⟩ with
        | some key, some fk, .at ad => match mapKeyOf pr.x fk key with
          | none => .crash
          | some (.error e) => .err t.index e ⟨ti, si, pc, dyn', mem'⟩
          | some (.ok k?) =>
            let mp : Option (Block × Ptr) := match k? with
              | none => some (mem', .nil)
              | some k => (mapAssign pr.x.W f fk mem' ad k).map fun m => (m, .at (ad.into (.entry k)))
            match mp with
            | none => .crash
            | some (m, pNew) =>
              let si := if r then f.recurFrame else si + 2
              match pr.frames[si]? with
              | none => .crash
              | some fv =>
                let d := upd dyn' si fun y => { y with dest := pNew }
                if fv.type = .struct ∨ fv.type = .structRecur then
                  match writeSeg m pNew (zeros f.mapValueSize) with
                  | none => .crash
                  | some m => .run ⟨ti + 1, si, pc, d, m⟩
                else .run ⟨ti + 1, si, pc, d, m⟩
        | _, _, _ => .crash) := by
    intro r
    cases slice pr.src (t.index + 1) (t.end_ - 1) with
    | none => exact .left
    | some key =>
    cases pr.frames[si + 1]? with
    | none => exact .left
    | some fk =>
    cases St.p ⟨ti, si, pc, dyn, mem⟩ with
    | «at» ad =>
      cases St.p ⟨ti, si, pc, dyn', mem'⟩ with
      | «at» ad' =>
        simp only []
        cases mapKeyOf pr.x fk key with
        | none => exact .left
        | some q =>
        cases q with
        | error e => exact ⟨rfl, rfl, h⟩
        | ok k? =>
          simp only []
          generalize (match k? with | none => some (mem, Ptr.nil) | some k => (mapAssign pr.x.W f fk mem ad k).map fun m => (m, Ptr.at (ad.into (.entry k)))) = m1
          generalize (match k? with | none => some (mem', Ptr.nil) | some k => (mapAssign pr.x.W f fk mem' ad' k).map fun m => (m, Ptr.at (ad'.into (.entry k)))) = m2
          cases m1 with
          | none => exact .left
          | some m1 =>
          cases m2 with
          | none => exact .right
          | some m2 =>
            obtain ⟨m1, p1⟩ := m1
            obtain ⟨m2, p2⟩ := m2
            simp only []
            generalize (if r = true then f.recurFrame else si + 2) = si'
            cases pr.frames[si']? with
            | none => exact .left
            | some fv =>
              simp only []
              have hd := h.dest (q := fun _ => p1) (q' := fun _ => p2) (o := Dyn.offset) (o' := Dyn.offset) si'
              split
              · split
                · exact .left
                split
                · exact .right
                exact ⟨rfl, rfl, rfl, hd⟩
              · exact ⟨rfl, rfl, rfl, hd⟩
      | _ => exact .right
    | _ => exact .left
  unfold onKey
  simp only []
  cases f.type with
  | struct => exact hs _
  | structRecur => exact hs _
  | map => exact hm false
  | mapRecur => exact hm true
  | _ => exact ⟨rfl, rfl, h⟩

theorem objectEnd_C {pr : Prog} {ti si : Nat} {pc : PC} {dyn dyn' : Nat → Dyn} {mem mem' : Block} {f : Frame} (h : D dyn dyn') :
    OutC (onObjectEnd pr ⟨ti, si, pc, dyn, mem⟩ f) (onObjectEnd pr ⟨ti, si, pc, dyn', mem'⟩ f) := by
  unfold onObjectEnd
  simp only []
  cases f.type with
  | struct => exact ⟨rfl, rfl, rfl, h⟩
  | mapRecur =>
    simp only []
    cases pr.frames[f.recurFrame]? with
    | none => exact .left
    | some fr =>
      simp only []
      have h2 := (h f.recurFrame).2
      cases h3 : (dyn f.recurFrame).rstack <;> cases h4 : (dyn' f.recurFrame).rstack <;> rw [h3, h4] at h2
      · exact ⟨rfl, rfl, rfl, h⟩
      · cases h2
      · cases h2
      · exact ⟨rfl, rfl, rfl, h.pop (List.cons.inj h2).2⟩
  | _ => exact ⟨rfl, rfl, rfl, h⟩

theorem arrayEnd_C {pr : Prog} {ti si : Nat} {pc : PC} {dyn dyn' : Nat → Dyn} {mem mem' : Block} {f : Frame} (h : D dyn dyn') :
    OutC (onArrayEnd pr ⟨ti, si, pc, dyn, mem⟩ f) (onArrayEnd pr ⟨ti, si, pc, dyn', mem'⟩ f) := by
  unfold onArrayEnd
  simp only []
  split
  · have h2 := (h si).2
    cases h3 : (dyn si).rstack <;> cases h4 : (dyn' si).rstack <;> rw [h3, h4] at h2
    · exact ⟨rfl, rfl, rfl, h⟩
    · cases h2
    · cases h2
    · rename_i r rest r' rest'
      have hc : r.container = r'.container := (List.cons.inj h2).1
      simp only [hc]
      split
      · exact .left
      · exact ⟨rfl, rfl, rfl, h.pop (List.cons.inj h2).2⟩
  · exact ⟨rfl, rfl, rfl, h⟩

theorem recurObjEnd_C {pr : Prog} {ti si : Nat} {pc : PC} {dyn dyn' : Nat → Dyn} {mem mem' : Block} {f : Frame} (h : D dyn dyn') :
    OutC (onRecurObjEnd pr ⟨ti, si, pc, dyn, mem⟩ f) (onRecurObjEnd pr ⟨ti, si, pc, dyn', mem'⟩ f) := by
  unfold onRecurObjEnd
  simp only []
  have h2 := (h si).2
  cases h3 : (dyn si).rstack <;> cases h4 : (dyn' si).rstack <;> rw [h3, h4] at h2
  · exact ⟨rfl, rfl, rfl, h⟩
  · cases h2
  · cases h2
  · rename_i r rest r' rest'
    have hc : r.container = r'.container := (List.cons.inj h2).1
    simp only [hc]
    split
    · exact .left
    · split
      · exact ⟨rfl, rfl, rfl, h.dest (q := Dyn.dest) (q' := Dyn.dest) (o := fun y => y.offset + f.size) (o' := fun y => y.offset + f.size) _⟩
      · exact ⟨rfl, rfl, rfl, h.pop (List.cons.inj h2).2⟩
      · exact ⟨rfl, rfl, rfl, h.upd _ fun _ _ h1 h2 => ⟨h1, h2⟩⟩
      · exact ⟨rfl, rfl, rfl, h⟩

theorem valEnd_C {pr : Prog} {ti si : Nat} {pc : PC} {dyn dyn' : Nat → Dyn} {mem mem' : Block} {f : Frame} (h : D dyn dyn') :
    OutC (onValEnd pr ⟨ti, si, pc, dyn, mem⟩ f) (onValEnd pr ⟨ti, si, pc, dyn', mem'⟩ f) := by
  unfold onValEnd
  simp only []
  split
  · exact ⟨rfl, rfl, rfl, h⟩
  split
  · exact .left
  split
  · exact ⟨rfl, rfl, rfl, h⟩
  · have hd : D (upd dyn si fun y => { y with len := y.len + 1 }) (upd dyn' si fun y => { y with len := y.len + 1 }) :=
      h.upd si fun _ _ h1 h2 => ⟨by simp [h1], h2⟩
    rw [(hd si).1]
    split
    · split
      · exact .left
      · exact ⟨rfl, rfl, rfl, hd⟩
    · exact ⟨rfl, rfl, rfl, hd.upd _ fun _ _ h1 h2 => ⟨h1, h2⟩⟩
  · exact ⟨rfl, rfl, rfl, h.upd _ fun _ _ h1 h2 => ⟨h1, h2⟩⟩
  · exact ⟨rfl, rfl, rfl, h⟩
  · exact ⟨rfl, rfl, rfl, h⟩
  · exact ⟨rfl, rfl, rfl, h⟩
  · exact ⟨rfl, rfl, rfl, h⟩

theorem ptr_C {pr : Prog} {ti si : Nat} {pc : PC} {dyn dyn' : Nat → Dyn} {mem mem' : Block} (h : D dyn dyn') :
    OutC (onPtr pr ⟨ti, si, pc, dyn, mem⟩) (onPtr pr ⟨ti, si, pc, dyn', mem'⟩) := by
  unfold onPtr
  simp only []
  cases pr.frames[si + 1]? with
  | none => exact .left
  | some fe =>
  simp only []
  refine opt_C fun m m' => ?_
  by_cases hz : fe.size = 0
  · simp only [hz, if_true]
    exact ⟨rfl, rfl, rfl, h⟩
  · simp only [hz, if_false]
    cases St.p ⟨ti, si, pc, dyn, mem⟩ with
    | «at» ad =>
      cases St.p ⟨ti, si, pc, dyn', mem'⟩ with
      | «at» ad' => exact ⟨rfl, rfl, rfl, h.upd _ fun _ _ h1 h2 => ⟨h1, h2⟩⟩
      | _ => exact .right
    | _ => exact .left

theorem json_C {pr : Prog} {ti si : Nat} {pc : PC} {dyn dyn' : Nat → Dyn} {mem mem' : Block} {f : Frame} {t : Token} (h : D dyn dyn')
    (ht : ∀ rt, f.rtype = some rt → ∀ old old' b, (pr.x.unmarshalJSON rt old b).2 = (pr.x.unmarshalJSON rt old' b).2) :
    OutC (onJSONUnmarshaler pr ⟨ti, si, pc, dyn, mem⟩ f t) (onJSONUnmarshaler pr ⟨ti, si, pc, dyn', mem'⟩ f t) := by
  unfold onJSONUnmarshaler
  simp only []
  split
  · rename_i raw tj rt old h0 h1 h2 h3
    simp only [h0, h1, h2]
    split
    · exact .left
    cases h4 : readSeg mem' (St.p ⟨ti, si, pc, dyn', mem'⟩) f.size with
    | none => exact .right
    | some old' =>
      simp only []
      rw [ht rt h2 old old' raw]
      split
      · split
        · exact .right
        · exact ⟨rfl, rfl, h⟩
      · split
        · exact .right
        · exact ⟨rfl, rfl, rfl, h⟩
  · exact .left

/-! ## Steps and runs -/

/-- The assumption on the methods, for the frames of a program. -/
def Judges (pr : Prog) : Prop :=
  ∀ f ∈ pr.frames, ∀ rt, f.rtype = some rt →
    (f.type = .jsonUnmarshaler → ∀ old old' b, (pr.x.unmarshalJSON rt old b).2 = (pr.x.unmarshalJSON rt old' b).2) ∧
    (f.type = .textUnmarshaler → ∀ old old' b, (pr.x.unmarshalText rt old b).2 = (pr.x.unmarshalText rt old' b).2)

theorem dispatch_C {pr : Prog} (hj : Judges pr) {ti si : Nat} {pc : PC} {dyn dyn' : Nat → Dyn} {mem mem' : Block} {f : Frame} {t : Token} (hf : f ∈ pr.frames) (h : D dyn dyn') :
    OutC (dispatch pr ⟨ti, si, pc, dyn, mem⟩ f t) (dispatch pr ⟨ti, si, pc, dyn', mem'⟩ f t) := by
  unfold dispatch
  split
  · exact exec_C h _ fun b hb => absurd hb Alias.noText_bool
  · exact exec_C h _ fun b hb => absurd hb Alias.noText_bool
  · split
    · exact .left
    · exact exec_C h _ fun b hb => absurd hb Alias.noText_integer
  · split
    · exact .left
    · exact exec_C h _ fun b hb => absurd hb Alias.noText_number
  · split
    · exact .left
    · exact exec_C h _ fun b hb rt hrt => (hj f hf rt hrt).2 (Alias.text_type hb)
  · exact exec_C h _ fun b hb => absurd hb Alias.noText_null
  · exact array_C h
  · exact object_C h
  · exact key_C h
  · exact objectEnd_C h
  · exact arrayEnd_C h

theorem step_C {pr : Prog} (hj : Judges pr) {s s' : St} (hc : Ctl s s') (ha : Place.AtJSON pr s) : OutC (step pr s) (step pr s') := by
  obtain ⟨ti, si, pc, dyn, mem⟩ := s
  obtain ⟨ti', si', pc', dyn', mem'⟩ := s'
  obtain ⟨h1, h2, h3, h⟩ := hc
  cases h1; cases h2; cases h3
  unfold step
  simp only []
  cases pc with
  | loop =>
    simp only []
    cases pr.toks[ti]? with
    | none => exact ⟨rfl, rfl, rfl, h⟩
    | some t =>
      simp only []
      cases hf : pr.frames[si]? with
      | none => exact .left
      | some f => exact dispatch_C hj (List.mem_of_getElem? hf) h
  | recurObjEnd =>
    simp only []
    cases pr.frames[si]? with
    | none => exact .left
    | some f => exact recurObjEnd_C h
  | valEnd =>
    simp only []
    cases pr.frames[si]? with
    | none => exact .left
    | some f => exact valEnd_C h
  | onPtr => exact ptr_C h
  | onJSON =>
    simp only []
    obtain ⟨⟨f, hm, hf, hft⟩, -⟩ := ha rfl
    cases pr.toks[ti]? with
    | none => exact .left
    | some t =>
      simp only [show pr.frames[si]? = some f from hf]
      exact json_C h fun rt hrt => (hj f hm rt hrt).1 hft

theorem run_C {pr : Prog} (hj : Judges pr) : ∀ (n : Nat) {s s' : St}, Ctl s s' → Place.AtJSON pr s → OutC (run pr n s) (run pr n s')
  | 0, _, _, hc, _ => hc
  | n + 1, s, s', hc, ha => by
    have h := step_C hj hc ha
    simp only [run]
    cases h1 : step pr s with
    | run s1 =>
      rw [h1] at h
      cases h2 : step pr s' with
      | run s2 => rw [h2] at h; exact run_C hj n h (Place.step_json h1)
      | crash => exact .right
      | _ => rw [h2] at h; exact h.elim
    | crash => exact .left
    | done s1 =>
      rw [h1] at h
      cases h2 : step pr s' with
      | done s2 => rw [h2] at h; exact h
      | crash => exact .right
      | _ => rw [h2] at h; exact h.elim
    | err i e s1 =>
      rw [h1] at h
      cases h2 : step pr s' with
      | err i2 e2 s2 => rw [h2] at h; exact h
      | crash => exact .right
      | _ => rw [h2] at h; exact h.elim

/-- Decoders with the same control part. -/
structure SameD (d d' : Decoder) : Prop where
  frames : d.frames = d'.frames
  calls : d.calls = d'.calls
  dyn : D d.dyn d'.dyn

theorem init_C {d d' : Nat → Dyn} (h : D d d') (m m' : Block) : Ctl (initSt d m) (initSt d' m') := ⟨rfl, rfl, rfl, h.upd 0 fun _ _ h1 h2 => ⟨h1, h2⟩⟩

theorem reset_D {d d' : Nat → Dyn} (h : D d d') : D (resetDests d) (resetDests d') := fun i => h i

theorem decode_C {x : Ext} {d d' : Decoder} (hd : SameD d d') (hj : MethodsJudge x d) {src : Bytes} {doc : Except (Nat × Nat) JVal} {m m' : Block} {o : Option Options} {r r' : DecodeRes}
    (h : decode x d src doc (some m) o = some r) (h' : decode x d' src doc (some m') o = some r') :
    r.errIndex = r'.errIndex ∧ r.err = r'.err ∧ SameD r.dec r'.dec ∧ r.dec.frames = d.frames := by
  obtain ⟨fr, dyn, calls⟩ := d
  obtain ⟨fr', dyn', calls'⟩ := d'
  obtain ⟨h1, h2, h3⟩ := hd
  cases h1; cases h2
  cases doc with
  | error e =>
    obtain ⟨i, c⟩ := e
    simp only [decode] at h h'
    split at h
    · cases h
    · cases h
      rename_i hne
      rw [if_neg hne] at h'
      cases h'
      exact ⟨rfl, rfl, ⟨rfl, rfl, reset_D (init_C h3 m m').dyn⟩, rfl⟩
  | ok v =>
    cases fr with
    | nil => simp [decode] at h
    | cons f0 fs =>
      simp only [decode] at h h'
      generalize hpr : ({ x := x, src := src, toks := flatten 0 v, frames := f0 :: fs, options := o, epoch := calls } : Prog) = pr at h h'
      have hj' : Judges pr := by subst hpr; exact hj
      have hr := run_C hj' (fuelFor pr) (init_C h3 m m') (fun hh => by cases hh)
      cases h1 : run pr (fuelFor pr) (initSt dyn m) with
      | err i e s =>
        rw [h1] at h hr
        cases h2 : run pr (fuelFor pr) (initSt dyn' m') with
        | err i2 e2 s2 =>
          rw [h2] at h' hr
          cases h; cases h'
          obtain ⟨rfl, rfl, hD⟩ := hr
          exact ⟨rfl, rfl, ⟨rfl, rfl, reset_D hD⟩, rfl⟩
        | crash => rw [h2] at h'; cases h'
        | _ => rw [h2] at hr; exact hr.elim
      | done s =>
        rw [h1] at h hr
        cases h2 : run pr (fuelFor pr) (initSt dyn' m') with
        | done s2 =>
          rw [h2] at h' hr
          simp only [] at h h'
          split at h
          · cases h
          split at h'
          · cases h'
          cases h; cases h'
          exact ⟨rfl, rfl, ⟨rfl, rfl, reset_D hr.dyn⟩, rfl⟩
        | crash => rw [h2] at h'; cases h'
        | _ => rw [h2] at hr; exact hr.elim
      | run s => rw [h1] at h; cases h
      | crash => rw [h1] at h; cases h

theorem verdicts_C {x : Ext} : ∀ (cs : List Call) {d d' : Decoder} (ms ms' : List Block) {l l' : List (Int × Option Err)}, SameD d d' → MethodsJudge x d → ms.length = ms'.length →
    verdicts x d cs ms = some l → verdicts x d' cs ms' = some l' → l = l'
  | [], _, _, ms, ms', _, _, _, _, _, h, h' => by
    simp only [verdicts] at h h'; cases h; cases h'; rfl
  | _ :: _, _, _, [], [], _, _, _, _, _, h, h' => by
    simp only [verdicts] at h h'; cases h; cases h'; rfl
  | c :: cs, d, d', m :: ms, m' :: ms', l, l', hd, hj, hl, h, h' => by
    simp only [verdicts] at h h'
    cases h1 : decode x d c.src c.doc (some m) c.options with
    | none => rw [h1] at h; cases h
    | some r =>
    cases h2 : decode x d' c.src c.doc (some m') c.options with
    | none => rw [h2] at h'; cases h'
    | some r' =>
      rw [h1] at h; rw [h2] at h'
      simp only [] at h h'
      obtain ⟨e1, e2, e3, e4⟩ := decode_C hd hj h1 h2
      cases h3 : verdicts x r.dec cs ms with
      | none => rw [h3] at h; cases h
      | some q =>
      cases h4 : verdicts x r'.dec cs ms' with
      | none => rw [h4] at h'; cases h'
      | some q' =>
        rw [h3] at h; rw [h4] at h'
        cases h; cases h'
        rw [e1, e2, verdicts_C cs ms ms' e3 (by intro f hf; exact hj f (e4 ▸ hf)) (by simpa using hl) h3 h4]

end Verif.Proof.Judge
