import Verif.Proof.Outcome
/-!
# Memory holds at most one value of a type
-/
namespace Verif.Proof.Unique
open Verif.Model Verif.Big Verif.Spec

theorem holdsS_unique {k : SKind} {c : Option Cell} {V V' : Val} (h : HoldsS k c V) (h' : HoldsS k c V') : V = V' := by
  rcases h with ⟨h1, rfl⟩ | h <;> rcases h' with ⟨h2, rfl⟩ | h'
  · rfl
  · cases k <;> obtain ⟨b, hb, -⟩ := h' <;> rw [h1] at hb <;> cases hb
  · cases k <;> obtain ⟨b, hb, -⟩ := h <;> rw [h2] at hb <;> cases hb
  · cases k <;> obtain ⟨b, hb, rfl⟩ := h <;> obtain ⟨b', hb', rfl⟩ := h' <;> rw [hb] at hb' <;> cases hb' <;> rfl

theorem list_unique {P : Nat → Val → Prop} (hP : ∀ i V V', P i V → P i V' → V = V') {l l' : List Val} (hl : l.length = l'.length)
    (h : ∀ (i : Nat) W, l[i]? = some W → P i W) (h' : ∀ (i : Nat) W, l'[i]? = some W → P i W) : l = l' := by
  apply List.ext_getElem? 
  intro i
  rcases Nat.lt_or_ge i l.length with hi | hi
  · have hi' : i < l'.length := by omega
    rw [List.getElem?_eq_getElem hi, List.getElem?_eq_getElem hi']
    exact congrArg some (hP i _ _ (h i _ (List.getElem?_eq_getElem hi)) (h' i _ (List.getElem?_eq_getElem hi')))
  · rw [List.getElem?_eq_none hi, List.getElem?_eq_none (by omega)]

theorem holdsSlice_unique {n : Nat} {P : Block → Nat → Val → Prop} (hP : ∀ b off V V', P b off V → P b off V' → V = V') {c : Option Cell} {V V' : Val}
    (h : HoldsSlice n P c V) (h' : HoldsSlice n P c V') : V = V' := by
  rcases h with ⟨h1, rfl⟩ | ⟨a, es, sp, h1, rfl, -, h3⟩ <;> rcases h' with ⟨h2, rfl⟩ | ⟨a', es', sp', h2, rfl, -, h4⟩
  · rfl
  · rw [h1] at h2; cases h2
  · rw [h2] at h1; cases h1
  · rw [h1] at h2
    simp only [Option.some.injEq, Cell.slice.injEq] at h2
    obtain ⟨e1, e2, rfl⟩ := h2
    have := list_unique (fun i V V' => hP a (i * n) V V') e2 h3 h4
    obtain ⟨r1, r2⟩ := List.append_inj this e1
    rw [r1, r2]

theorem holdsEntries_unique {n : Nat} {P : Block → Nat → Val → Prop} (hP : ∀ b off V V', P b off V → P b off V' → V = V') :
    ∀ {es : List (Key × Block)} {Vs Vs' : List (Key × Val)}, HoldsEntries n P es Vs → HoldsEntries n P es Vs' → Vs = Vs'
  | [], [], [], _, _ => rfl
  | [], [], _ :: _, _, h => h.elim
  | [], _ :: _, _, h, _ => h.elim
  | _ :: _, [], _, h, _ => h.elim
  | _ :: _, _ :: _, [], _, h => h.elim
  | e :: es, W :: Ws, W' :: Ws', h, h' => by
    obtain ⟨k, W⟩ := W
    obtain ⟨k', W'⟩ := W'
    have h1 : e.1 = k := h.1
    have h2 : e.1 = k' := h'.1
    have h3 : W = W' := hP _ _ _ _ h.2.2.1 h'.2.2.1
    rw [← h1, ← h2, h3, holdsEntries_unique hP h.2.2.2 h'.2.2.2]

theorem holdsMap_unique {n : Nat} {P : Block → Nat → Val → Prop} (hP : ∀ b off V V', P b off V → P b off V' → V = V') {c : Option Cell} {V V' : Val}
    (h : HoldsMap n P c V) (h' : HoldsMap n P c V') : V = V' := by
  rcases h with ⟨h1, rfl⟩ | ⟨es, Vs, h1, rfl, h3⟩ <;> rcases h' with ⟨h2, rfl⟩ | ⟨es', Vs', h2, rfl, h4⟩
  · rfl
  · rw [h1] at h2; cases h2
  · rw [h2] at h1; cases h1
  · rw [h1] at h2
    simp only [Option.some.injEq, Cell.map.injEq] at h2
    subst h2
    rw [holdsEntries_unique hP h3 h4]

mutual
theorem holds_unique {x : Ext} : ∀ (ty : Ty) {b : Block} {off : Nat} {V V' : Val}, Holds x ty b off V → Holds x ty b off V' → V = V'
  | .any, b, off, V, V', h, h' => by
    rcases h.2 with ⟨h1, rfl⟩ | ⟨a, h1, rfl⟩ <;> rcases h'.2 with ⟨h2, rfl⟩ | ⟨a', h2, rfl⟩ <;> rw [h1] at h2 <;> cases h2 <;> rfl
  | .number, b, off, V, V', h, h' => holdsS_unique h.2 h'.2
  | .scalar k, b, off, V, V', h, h' => holdsS_unique h.2 h'.2
  | .quoted k, b, off, V, V', h, h' => holdsS_unique h.2 h'.2
  | .jsonU rt n i, b, off, V, V', h, h' => h.2.trans h'.2.symm
  | .textU rt n i, b, off, V, V', h, h' => h.2.trans h'.2.symm
  | .array0, b, off, V, V', h, h' => h.2.trans h'.2.symm
  | .emptyStruct, b, off, V, V', h, h' => h.2.trans h'.2.symm
  | .array n e, b, off, V, V', h, h' => by
    obtain ⟨-, es, rfl, hl, he⟩ := h
    obtain ⟨-, es', rfl, hl', he'⟩ := h'
    exact congrArg _ (list_unique (P := fun i W => Holds x e b (off + i * e.size x) W) (fun i V V' => holds_unique e) (hl.trans hl'.symm) he he')
  | .slice e, b, off, V, V', h, h' => holdsSlice_unique (fun b off V V' h h' => holds_unique (b := b) (off := off) e h h') h.2 h'.2
  | .sliceOf k, b, off, V, V', h, h' => holdsSlice_unique (fun b off V V' h h' => holdsS_unique h.2 h'.2) h.2 h'.2
  | .sliceES, b, off, V, V', h, h' => holdsSlice_unique (fun b off V V' h h' => h.trans h'.symm) h.2 h'.2
  | .mapSS, b, off, V, V', h, h' => holdsMap_unique (fun b off V V' h h' => holdsS_unique h.2 h'.2) h.2 h'.2
  | .map k e, b, off, V, V', h, h' => holdsMap_unique (fun b off V V' h h' => holds_unique (b := b) (off := off) e h h') h.2 h'.2
  | .struct n fs, b, off, V, V', h, h' => by
    obtain ⟨-, Ws, rfl, hW⟩ := h
    obtain ⟨-, Ws', rfl, hW'⟩ := h'
    exact congrArg _ (holdsF_unique fs hW hW')
  | .ptr e, b, off, V, V', h, h' => by
    rcases h.2 with ⟨h1, rfl⟩ | ⟨blk, W, h1, rfl, -, hW⟩ <;> rcases h'.2 with ⟨h2, rfl⟩ | ⟨blk', W', h2, rfl, -, hW'⟩ <;> rw [h1] at h2 <;> cases h2 <;> first | rfl | skip
    exact congrArg _ (holds_unique e hW hW')
theorem holdsF_unique {x : Ext} : ∀ (fs : List (Bytes × Nat × Ty)) {b : Block} {off : Nat} {Ws Ws' : List Val}, HoldsF x fs b off Ws → HoldsF x fs b off Ws' → Ws = Ws'
  | [], b, off, Ws, Ws', h, h' => h.trans h'.symm
  | (_, _, t) :: fs, b, off, Ws, Ws', h, h' => by
    obtain ⟨W, Us, rfl, h1, h2⟩ := h
    obtain ⟨W', Us', rfl, h1', h2'⟩ := h'
    rw [holds_unique t h1 h1', holdsF_unique fs h2 h2']
end

/-- What a call returns is determined. -/
theorem returns_unique {x : Ext} {ty : Ty} {res : Option DecodeRes} {i i' : Int} {e e' : Option Err} {V V' : Val} (h : Returns x ty res i e V) (h' : Returns x ty res i' e' V') :
    i = i' ∧ e = e' ∧ V = V' := by
  obtain ⟨r, m, h1, h2, h3, h4, h5⟩ := h
  obtain ⟨r', m', h1', h2', h3', h4', h5'⟩ := h'
  rw [h1] at h1'; cases h1'
  rw [h4] at h4'; cases h4'
  exact ⟨h2.symm.trans h2', h3.symm.trans h3', holds_unique ty h5.2 h5'.2⟩

/-- Reading and outcome determine each other: success. -/
theorem returns_ok_iff {x : Ext} {ty : Ty} {d : Decoder} (hd : DecoderFor x ty d) {src : Bytes} {v : JVal} {mem : Block} {V V' : Val} (hm : Dest x ty mem V)
    {o : Option Options} (ht : TameDoc x src o ty v) : Returns x ty (decode x d src (.ok v) (some mem) o) (-1) none V' ↔ decTopV x src o ty v V = .ok V' := by
  constructor
  · intro h
    obtain ⟨r, m, h1, h2, h3, h4, h5⟩ := id h
    obtain ⟨V'', m', g1, -, g3, g4⟩ := Outcome.ok_inv hd hm ht h1 h3
    rw [g1, holds_unique ty g4.2 (by rw [h4] at g3; cases g3; exact h5.2)]
  · exact Outcome.returns_ok hd hm ht

/-- Reading and outcome determine each other: failure. -/
theorem returns_err_iff {x : Ext} {ty : Ty} {d : Decoder} (hd : DecoderFor x ty d) {src : Bytes} {v : JVal} {mem : Block} {V V' : Val} (hm : Dest x ty mem V)
    {o : Option Options} (ht : TameDoc x src o ty v) {i : Nat} {e : Err} :
    Returns x ty (decode x d src (.ok v) (some mem) o) i (some e) V' ↔ decTopV x src o ty v V = .err i e V' := by
  constructor
  · intro h
    obtain ⟨r, m, h1, h2, h3, h4, h5⟩ := id h
    obtain ⟨i', V'', m', g1, g2, g3, g4⟩ := Outcome.err_inv hd hm ht h1 h3
    rw [h2] at g2
    rw [g1, holds_unique ty g4.2 (by rw [h4] at g3; cases g3; exact h5.2), Int.ofNat.inj g2]
  · exact Outcome.returns_err hd hm ht

end Verif.Proof.Unique
