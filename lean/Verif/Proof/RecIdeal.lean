import Verif.Proof.RecMeans
import Verif.Proof.RecVal
/-!
# Recursive struct types: the reading of a document is the one of the unrolled type
-/
namespace Verif.Proof.RecIdeal
open Verif.Model Verif.Spec Verif.Big Verif.Proof.Val Verif.Proof.Means

/-- The second outcome is the first one, up to the value written so far before an error; nothing if the first one is outside the fragment. -/
def Like {α : Type} : R α → R α → Prop
  | .ok a, s => s = .ok a
  | .err i e _, s => ∃ b, s = .err i e b
  | .crash, s => s = .crash
  | .unsup, _ => True

theorem like_refl {α : Type} (r : R α) : Like r r := by cases r <;> first | rfl | exact ⟨_, rfl⟩ | trivial

theorem like_map {α β : Type} {r s : R α} (f : α → β) (h : Like r s) : Like (r.map f) (s.map f) := by
  cases r with
  | ok a => cases h; rfl
  | err i e a => obtain ⟨b, rfl⟩ := h; exact ⟨f b, rfl⟩
  | crash => cases h; rfl
  | unsup => trivial

theorem elems_like {f g : JVal → Val → R Val} : ∀ (vs : List JVal) (Ws : List Val), (∀ v ∈ vs, ∀ W, Like (f v W) (g v W)) → Like (elemsV f vs Ws) (elemsV g vs Ws)
  | [], Ws, _ => rfl
  | v :: vs, [], _ => rfl
  | v :: vs, W :: Ws, h => by
    have h1 := h v List.mem_cons_self W
    have ih := elems_like vs Ws fun v hv => h v (List.mem_cons_of_mem _ hv)
    simp only [elemsV]
    generalize f v W = r at h1
    cases r with
    | ok a => rw [show g v W = .ok a from h1]; exact like_map _ ih
    | err i e a => obtain ⟨b, hb⟩ := h1; rw [hb]; exact ⟨_, rfl⟩
    | crash => rw [show g v W = .crash from h1]; rfl
    | unsup => trivial

theorem slice_like {f g : JVal → Val → R Val} {z : Val} {c : Bool} {vs : List JVal} {V : Val} (h : ∀ v ∈ vs, ∀ W, Like (f v W) (g v W)) : Like (sliceV f z c vs V) (sliceV g z c vs V) := by
  unfold sliceV
  split
  · rfl
  · exact like_map _ (elems_like _ _ h)

theorem map_like {x : Ext} {src : Bytes} {f g : JVal → Val → R Val} {k : KeyTy} {z : Val} {fresh : Bool} : ∀ (ms : List ((Nat × Nat) × JVal)) (es : List (Key × Val)),
    (∀ m ∈ ms, ∀ W, Like (f m.2 W) (g m.2 W)) → Like (mapV x src f k z fresh ms es) (mapV x src g k z fresh ms es)
  | [], es, _ => rfl
  | ((i, e), v) :: ms, es, h => by
    have ih := fun es => map_like (x := x) (src := src) (k := k) (z := z) (fresh := fresh) ms es fun v hv => h v (List.mem_cons_of_mem _ hv)
    have h1 := h _ List.mem_cons_self
    simp only [mapV]
    split
    · rfl
    · exact ⟨_, rfl⟩
    · rename_i k' _
      have h1 := h1 (if fresh = true then z else (lookupV k' es).getD z)
      simp only [] at h1
      generalize (if fresh = true then z else (lookupV k' es).getD z) = W at h1
      generalize f v W = r at h1
      cases r with
      | ok a => rw [show g v W = .ok a from h1]; exact ih _
      | err i e a => obtain ⟨b, hb⟩ := h1; rw [hb]; exact ⟨_, rfl⟩
      | crash => rw [show g v W = .crash from h1]; rfl
      | unsup => trivial

theorem struct_like {x : Ext} {src : Bytes} {o : Options} {F G : List (Bytes × (JVal → Val → R Val))} (hn : G.map (·.1) = F.map (·.1)) : ∀ (ms : List ((Nat × Nat) × JVal)) (Ws : List Val),
    (∀ m ∈ ms, ∀ raw name j, Model.slice src (m.1.1 + 1) (m.1.2 - 1) = some raw → keyName o raw = some name → findField x o ((F.map (·.1)).zipIdx) name = some j →
      ∀ f g, F[j]? = some f → G[j]? = some g → ∀ W, Like (f.2 m.2 W) (g.2 m.2 W)) → Like (structV x src o F ms Ws) (structV x src o G ms Ws)
  | [], Ws, _ => rfl
  | ((i, e), v) :: ms, Ws, h => by
    have ih := fun Ws => struct_like hn ms Ws fun v hv => h v (List.mem_cons_of_mem _ hv)
    simp only [structV, hn]
    cases hk : (Model.slice src (i + 1) (e - 1)).bind (keyName o) with
    | none => rfl
    | some name =>
      simp only []
      obtain ⟨raw, h1, h2⟩ := Option.bind_eq_some_iff.1 hk
      cases hj : findField x o ((F.map (·.1)).zipIdx) name with
      | none =>
        simp only []
        split
        · exact ⟨_, rfl⟩
        · split
          · trivial
          · exact ih _
      | some j =>
        simp only []
        have hl := Sim.findField_lt hj
        rw [List.length_map] at hl
        have hl' : j < G.length := by have := congrArg List.length hn; simp at this; omega
        have hF : F[j]? = some F[j] := List.getElem?_eq_getElem hl
        have hG : G[j]? = some G[j] := List.getElem?_eq_getElem hl'
        rw [hF, hG]
        cases hW : Ws[j]? with
        | none => rfl
        | some W =>
          simp only []
          have h1 := h _ List.mem_cons_self raw name j h1 h2 hj _ _ hF hG W
          simp only [] at h1
          generalize F[j].2 v W = r at h1
          cases r with
          | ok a => rw [show G[j].2 v W = .ok a from h1]; exact ih _
          | err i e a => obtain ⟨b, hb⟩ := h1; rw [hb]; exact ⟨_, rfl⟩
          | crash => rw [show G[j].2 v W = .crash from h1]; rfl
          | unsup => trivial

theorem leaf_z {x : Ext} {src : Bytes} {v : JVal} {V z z' : Val} : actV v.index z none V (leaf x src .struct v) = actV v.index z' none V (leaf x src .struct v) := by
  cases hl : leaf x src .struct v with
  | clear m =>
    cases v with
    | num c i e => cases c <;> simp only [leaf] at hl <;> split at hl <;> simp [onInteger, onNumber] at hl
    | str i e => simp only [leaf] at hl; split at hl <;> simp [onString] at hl
    | _ => simp [leaf, onNull, onBool] at hl
  | _ => rfl

/-- What a pointer to `T` and `T` itself do with a value that is no object. -/
theorem ptr_leaf {x : Ext} {src : Bytes} {v : JVal} {V W z z' : Val} (h1 : ∀ i ms k, v ≠ .obj i ms k) (h2 : ∀ i k, v ≠ .null i k) :
    Like (actV v.index z none V (leaf x src .ptrRecur v)) ((actV v.index z' none W (leaf x src .struct v)).map .ptr) := by
  cases v with
  | obj => exact absurd rfl (h1 _ _ _)
  | null => exact absurd rfl (h2 _ _)
  | bool b i e => exact ⟨_, rfl⟩
  | arr i vs k => exact ⟨_, rfl⟩
  | num c i e =>
    cases c <;> simp only [leaf] <;> split <;> simp only [onInteger, onNumber, actV, R.map] <;> first | exact ⟨_, rfl⟩ | rfl
  | str i e => simp only [leaf]; split <;> simp only [onString, actV, R.map] <;> first | exact ⟨_, rfl⟩ | rfl

theorem field_like {x : Ext} {src : Bytes} {o : Option Options} {e : Ty} {es : Nat} {efs : List (Bytes × Nat × Ty)} (he : e = .struct es efs) {sub : Bool → Bool → JVal → Prop} {g : JVal → Val → R Val}
    (hg : ∀ here top v, sub here top v → ∀ V, Like (g v V) (decV x src o e v V)) {here top : Bool} :
    ∀ (rf : RField) (v : JVal) (V : Val), TameField x src o sub here top rf v → Like (fieldV x src o g (zeroV x e) rf v V) (decV x src o (rf.ty e) v V)
  | .plain t, v, V, _ => like_refl _
  | .ptr, v, V, h => by
    by_cases hnull : ∃ i k, v = .null i k
    · obtain ⟨i, k, rfl⟩ := hnull; rfl
    · have hn : ∀ i k, v ≠ .null i k := fun i k hc => hnull ⟨i, k, hc⟩
      show Like (ptrV x src g (zeroV x e) v V) (decV x src o (.ptr e) v V)
      rw [Safe.dec_ptr hn]
      by_cases hobj : ∃ i ms k, v = .obj i ms k
      · obtain ⟨i, ms, k, rfl⟩ := hobj
        exact like_map _ (hg _ _ _ (h i ms k rfl) _)
      · have ho : ∀ i ms k, v ≠ .obj i ms k := fun i ms k hc => hobj ⟨i, ms, k, hc⟩
        have h1 : ptrV x src g (zeroV x e) v V = actV v.index .nil none V (leaf x src .ptrRecur v) := by cases v <;> first | rfl | exact absurd rfl (ho _ _ _)
        have h2 : ∀ W, decV x src o e v W = actV v.index (zeroV x e) none W (leaf x src .struct v) := by
          intro W
          subst he
          cases v <;> first | rfl | exact absurd rfl (ho _ _ _)
        rw [h1, h2]
        exact ptr_leaf ho hn
  | .slice, v, V, h => by
    subst he
    cases v with
    | arr i vs k =>
      refine slice_like fun w hw W => ?_
      obtain ⟨j, hj⟩ := List.getElem?_of_mem hw
      exact hg _ _ w (h i vs k rfl j w hj).2 W
    | _ => exact like_refl _
  | .map k, v, V, h => by
    subst he
    cases v with
    | obj i ms z =>
      obtain ⟨-, -, h1, -, h2⟩ := h i ms z rfl
      show Like ((mapV x src g k _ true ms (mapParts V)).map Val.map) (if k = .other ∧ ms ≠ [] then .unsup else _)
      rw [if_neg fun hc => h1 hc.1]
      exact like_map _ (map_like ms _ fun m hm W => hg _ _ m.2 (h2 m hm).2 W)
    | _ => exact like_refl _

/-- On `TameR` documents the reading of a recursive type is the one of the unrolled type. -/
theorem rec_like {x : Ext} {src : Bytes} {o : Option Options} {size : Nat} {fs : RFields} : ∀ (n : Nat) (here top : Bool) (v : JVal), TameR x src o fs n here top v →
    ∀ V, Like (decRV x src o size fs n v V) (decV x src o (unroll size fs (n + 1)) v V)
  | 0, _, _, _, h, _ => h.elim
  | n + 1, here, top, v, h, V => by
    have hleaf : ∀ fs', Like (leafV x src (.struct size []) v V) (leafV x src (.struct size fs') v V) := fun fs' => by
      have : leafV x src (.struct size []) v V = leafV x src (.struct size fs') v V := leaf_z
      rw [this]; exact like_refl _
    cases v with
    | obj i ms k =>
      cases V with
      | struct Ws =>
        show Like (if ms = [] then _ else _) (if ms = [] then _ else _)
        split
        · rfl
        · cases o with
          | none => rfl
          | some o' =>
            refine like_map _ (struct_like ?_ ms Ws ?_)
            · rw [decVF_names, tyF_names]; simp [Function.comp_def]
            · intro m hm raw name j h1 h2 hj f g hf hg W
              obtain ⟨a, ha⟩ := List.getElem?_of_mem hm
              have := h i ms k rfl a m ha o' rfl raw name h1 h2
              simp only [List.map_map, Function.comp_def] at hj
              rw [hj] at this
              rw [decVF_get, tyF_get] at hg
              rw [List.getElem?_map] at hf
              cases hfj : fs[j]? with
              | none => rw [hfj] at hf; cases hf
              | some q =>
                rw [hfj] at hf hg
                cases hf; cases hg
                exact field_like (e := unroll size fs (n + 1)) rfl (fun here top v hs V => rec_like n here top v hs V) q.2.2 m.2 W (this q hfj).1
      | _ => exact hleaf _
    | _ => exact hleaf _

end Verif.Proof.RecIdeal
