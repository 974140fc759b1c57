import Verif.Spec.Fragment
import Verif.Proof.Reads
/-!
# Tame documents are in the fragment
-/
namespace Verif.Proof.Fragment
open Verif.Model Verif.Big Verif.Spec

theorem storeInt_ne (x : Ext) (k : IKind) (tv : Bytes) (e : Err) : storeInt x k tv e ≠ .toPtr ∧ storeInt x k tv e ≠ .toJSON := by
  unfold storeInt; split <;> simp

theorem storeFlt_ne (n : Nat) (r : Except Nat Flt) : storeFlt n r ≠ .toPtr ∧ storeFlt n r ≠ .toJSON := by
  cases r <;> simp [storeFlt]

theorem onInteger_ne {x : Ext} {et : EType} (hp : et ≠ .ptr) (hj : et ≠ .jsonUnmarshaler) (tv : Bytes) :
    onInteger x et tv ≠ .toPtr ∧ onInteger x et tv ≠ .toJSON := by
  unfold onInteger
  split
  · split <;> simp
  · split
    · split
      · simp
      · split
        · simp
        · exact storeInt_ne ..
    · exact storeInt_ne ..
  · exact storeFlt_ne ..
  · simp
  · exact absurd rfl hp
  · exact absurd rfl hj
  · simp

theorem onNumber_ne {x : Ext} {et : EType} (hp : et ≠ .ptr) (hj : et ≠ .jsonUnmarshaler) (tv : Bytes) :
    onNumber x et tv ≠ .toPtr ∧ onNumber x et tv ≠ .toJSON := by
  unfold onNumber
  split
  · split <;> simp
  · exact storeFlt_ne ..
  · simp
  · exact absurd rfl hp
  · exact absurd rfl hj
  · simp

theorem onString_ne {x : Ext} {et : EType} (hp : et ≠ .ptr) (hj : et ≠ .jsonUnmarshaler) (tv : Bytes) :
    onString x et tv ≠ .toPtr ∧ onString x et tv ≠ .toJSON := by
  unfold onString
  split
  · split <;> simp
  · split <;> simp
  · split <;> simp
  · split
    · simp
    · split <;> simp
  · split
    · simp
    · dsimp only; split <;> simp
  · split
    · simp
    · split <;> simp
  · split
    · simp
    · split
      · simp
      · exact storeFlt_ne ..
  · split <;> simp
  · exact absurd rfl hp
  · exact absurd rfl hj
  · simp

theorem leaf_ne {x : Ext} {src : Bytes} {et : EType} (hp : et ≠ .ptr) (hj : et ≠ .jsonUnmarshaler) (v : JVal) : leaf x src et v ≠ .toPtr ∧ leaf x src et v ≠ .toJSON := by
  cases v with
  | null => cases et <;> simp [leaf, onNull] at hp hj ⊢
  | bool b => simp only [leaf, onBool]; split <;> simp_all
  | num b i e =>
    cases b <;> simp only [leaf] <;> split
    · simp
    · exact onNumber_ne hp hj _
    · simp
    · exact onInteger_ne hp hj _
  | str i e =>
    simp only [leaf]; split
    · simp
    · exact onString_ne hp hj _
  | arr => simp [leaf]
  | obj => simp [leaf]

theorem execB_ne {x : Ext} {rt : Option TypeId} {size : Nat} {impl : Bool} {b : Block} {off idx : Nat} {a : Act} (h : a ≠ .toPtr ∧ a ≠ .toJSON) :
    execB x rt size impl b off idx a ≠ .unsup := by
  cases a <;> simp only [execB]
  · split <;> simp
  · split <;> simp
  · simp
  · split
    · split
      · unfold callB; split
        · simp
        · split <;> simp
      · simp
    · simp
  · exact absurd rfl h.1
  · exact absurd rfl h.2
  · simp
  · simp

theorem leafB_ne {x : Ext} {src : Bytes} {et : EType} (hp : et ≠ .ptr) (hj : et ≠ .jsonUnmarshaler) {rt : Option TypeId} {size : Nat} {impl : Bool} {b : Block} {off idx : Nat} (v : JVal) :
    execB x rt size impl b off idx (leaf x src et v) ≠ .unsup := execB_ne (leaf_ne hp hj v)

theorem bindB_ne {r : Res} {f : Block → Option Block} (h : r ≠ .unsup) : r.bindB f ≠ .unsup := by
  cases r <;> simp only [Res.bindB]
  · split <;> simp
  · split <;> simp
  · simp
  · exact absurd rfl h

theorem elemsB_ne {f : JVal → Block → Nat → Res} {esz : Nat} : ∀ (vs : List JVal) (b : Block) (off : Nat), (∀ v ∈ vs, ∀ b off, f v b off ≠ .unsup) → elemsB f esz vs b off ≠ .unsup
  | [], b, off, _ => by simp [elemsB]
  | v :: vs, b, off, h => by
    simp only [elemsB]
    split
    · exact elemsB_ne vs _ _ (fun w hw => h w (List.mem_cons_of_mem _ hw))
    · exact h v (List.mem_cons_self ..) _ _

theorem elemAct_ne (x : Ext) (src : Bytes) (k : SKind) (v : JVal) : elemAct x src k v ≠ .toPtr ∧ elemAct x src k v ≠ .toJSON := by
  unfold elemAct
  split
  · simp
  · split <;> simp
  · split
    · split
      · split
        · simp
        · exact onInteger_ne (by simp) (by simp) _
      · simp
    · split
      · simp
      · exact storeFlt_ne ..
    · simp
  · split
    · split <;> simp
    · simp
  · simp

theorem mapB_ne {x : Ext} {src : Bytes} {f : JVal → Block → Nat → Res} {k : KeyTy} {vsz : Nat} {s : Bool} : ∀ (ms : List ((Nat × Nat) × JVal)) (b : Block) (off : Nat),
    (∀ m ∈ ms, ∀ b off, f m.2 b off ≠ .unsup) → mapB x src f k vsz s ms b off ≠ .unsup
  | [], b, off, _ => by simp [mapB]
  | ((i, e), v) :: ms, b, off, h => by
    simp only [mapB]
    split
    · simp
    split
    · simp
    · simp
    split
    · simp
    split
    · simp
    split
    · simp
    split
    · exact mapB_ne ms _ _ (fun w hw => h w (List.mem_cons_of_mem _ hw))
    · exact bindB_ne (h _ (List.mem_cons_self ..) _ _)

theorem structB_ne {x : Ext} {src : Bytes} {o : Options} {fs : List (Bytes × Nat × (JVal → Block → Nat → Res))} : ∀ (ms : List ((Nat × Nat) × JVal)) (b : Block) (off : Nat),
    (∀ m ∈ ms, ∀ raw name, Model.slice src (m.1.1 + 1) (m.1.2 - 1) = some raw → keyName o raw = some name →
        match findField x o ((fs.map (·.1)).zipIdx) name with
        | some j => ∀ f, fs[j]? = some f → ∀ b off, f.2.2 m.2 b off ≠ .unsup
        | none => o.disallowUnknownFields = true ∨ hasObj m.2 = false) → structB x src o fs ms b off ≠ .unsup
  | [], b, off, _ => by simp [structB]
  | ((i, e), v) :: ms, b, off, h => by
    have ht := fun b off => structB_ne (fs := fs) ms b off (fun m hm => h m (List.mem_cons_of_mem _ hm))
    have hm := h ((i, e), v) (List.mem_cons_self ..)
    rw [structB]
    cases hr : (Model.slice src (i + 1) (e - 1)) with
    | none => simp
    | some raw =>
      cases hn : keyName o raw with
      | none => simp [hn]
      | some name =>
        have := hm raw name hr hn
        simp only [Option.bind_some, hn]
        cases hf : findField x o ((fs.map (·.1)).zipIdx) name with
        | some j =>
          simp only [hf] at this ⊢
          cases hg : fs[j]? with
          | none => simp
          | some g =>
            obtain ⟨n, fo, f⟩ := g
            have := this _ hg b (off + fo)
            simp only [] at this ⊢
            split
            · exact ht _ _
            · rename_i hne; exact this
        | none =>
          simp only [hf] at this ⊢
          split
          · simp
          · rename_i hd
            rcases this with this | this
            · exact absurd this hd
            · rw [if_neg (by simp [this])]; exact ht _ _

theorem sliceB_ne {x : Ext} {f : JVal → Block → Nat → Res} {esz : Nat} {c : Bool} {vs : List JVal} {b : Block} {off : Nat} (h : ∀ v ∈ vs, ∀ b off, f v b off ≠ .unsup) :
    sliceB x f esz c vs b off ≠ .unsup := by
  unfold sliceB
  split
  · split <;> simp
  split
  · simp
  split
  · simp
  split
  · simp
  exact bindB_ne (elemsB_ne _ _ _ h)

theorem sliceOfB_ne {x : Ext} {src : Bytes} {k : SKind} {vs : List JVal} {b : Block} {off : Nat} : sliceOfB x src k vs b off ≠ .unsup := by
  have he := fun a => elemsB_ne (f := elemB x src k) (esz := k.bytes x) vs a 0 (fun v _ b off => execB_ne (elemAct_ne x src k v))
  unfold sliceOfB
  simp only []
  split
  · split <;> simp
  split
  · simp
  split
  · split
    · split <;> simp
    · simp
    · exact he _
  · split
    · split <;> simp
    · split <;> simp
    · exact he _

theorem anyB_ne {x : Ext} {src : Bytes} {v : JVal} {b : Block} {off : Nat} : anyB x src v b off ≠ .unsup := by
  unfold anyB
  split
  · simp
  · simp
  · split <;> simp

mutual
theorem dec_ne {x : Ext} {src : Bytes} {o : Option Options} : ∀ (ty : Ty) (v : JVal) (b : Block) (off : Nat), Tame x src o ty v → dec x src o ty v b off ≠ .unsup
  | .jsonU rt n i, v, b, off, _ => by
    simp only [dec, jsonB]
    split
    · split
      · unfold callB; split
        · simp
        · split <;> simp
      · simp
    · simp
  | .textU rt n i, v, b, off, _ => by simp only [dec]; exact leafB_ne (by simp) (by simp) v
  | .any, v, b, off, _ => by
    cases v <;> simp only [dec]
    case arr => exact anyB_ne
    case obj => exact anyB_ne
    all_goals exact leafB_ne (by simp) (by simp) _
  | .array0, v, b, off, _ => by
    cases v <;> simp only [dec]
    case arr => simp
    all_goals exact leafB_ne (by simp) (by simp) _
  | .array n e, v, b, off, h => by
    cases v <;> simp only [dec]
    case arr i vs k =>
      simp only [Tame] at h
      exact elemsB_ne _ _ _ (fun w hw b off => dec_ne e w b off (h w hw))
    all_goals exact leafB_ne (by simp) (by simp) _
  | .slice e, v, b, off, h => by
    cases v <;> simp only [dec]
    case arr i vs k =>
      simp only [Tame] at h
      exact sliceB_ne (fun w hw b off => dec_ne e w b off (h w hw))
    all_goals exact leafB_ne (by simp) (by simp) _
  | .sliceOf k, v, b, off, _ => by
    cases v <;> simp only [dec]
    case arr => exact sliceOfB_ne
    all_goals exact leafB_ne (by simp) (by simp) _
  | .sliceES, v, b, off, _ => by
    cases v <;> simp only [dec]
    case arr => split <;> simp
    all_goals exact leafB_ne (by simp) (by simp) _
  | .mapSS, v, b, off, _ => by
    cases v <;> simp only [dec]
    case obj =>
      split
      · simp
      · simp
      · split <;> simp
    all_goals exact leafB_ne (by simp) (by simp) _
  | .map k e, v, b, off, h => by
    cases v <;> simp only [dec]
    case obj i ms k' =>
      simp only [Tame] at h
      split
      · simp
      · rw [if_neg (fun hc => hc.2 (h.1 hc.1))]
        exact mapB_ne _ _ _ (fun m hm b off => dec_ne e m.2 b off (h.2 m hm))
    all_goals exact leafB_ne (by simp) (by simp) _
  | .struct n fs, v, b, off, h => by
    cases v <;> simp only [dec]
    case obj i ms k' =>
      simp only [Tame] at h
      split
      · simp
      · cases o with
        | none => simp
        | some o' =>
          simp only []
          have hnames : (decFields x src (some o') fs).map (·.1) = fs.map (·.1) := by
            clear h
            induction fs with
            | nil => rfl
            | cons f fs ih => obtain ⟨n, fo, t⟩ := f; simp [decFields, ih]
          refine structB_ne _ _ _ (fun m hm raw name hr hn => ?_)
          have := h m hm o' rfl raw name hr hn
          rw [hnames]
          cases hf : findField x o' ((fs.map (·.1)).zipIdx) name with
          | none => simpa [hf] using this
          | some j =>
            simp only [hf] at this ⊢
            exact fun f hf b off => decF_ne fs j m.2 f hf this b off
    all_goals exact leafB_ne (by simp) (by simp) _
  | .emptyStruct, v, b, off, h => by
    cases v <;> simp only [dec]
    case obj => exact h.elim
    all_goals exact leafB_ne (by simp) (by simp) _
  | .ptr e, v, b, off, h => by
    cases v <;> simp only [dec]
    case null => exact execB_ne (by simp [leaf, onNull])
    all_goals exact h.elim
  | .number, v, b, off, _ => by simp only [dec]; exact leafB_ne (by simp) (by simp) v
  | .scalar k, v, b, off, _ => by simp only [dec]; exact leafB_ne (by simp) (by simp) v
  | .quoted k, v, b, off, _ => by simp only [dec]; exact leafB_ne (by simp) (by simp) v
theorem decF_ne {x : Ext} {src : Bytes} {o : Option Options} : ∀ (fs : List (Bytes × Nat × Ty)) (j : Nat) (v : JVal) (f : Bytes × Nat × (JVal → Block → Nat → Res)),
    (decFields x src o fs)[j]? = some f → (∀ T, (TameF x src o fs)[j]? = some T → T v) → ∀ b off, f.2.2 v b off ≠ .unsup
  | [], j, v, f, hf, _, _, _ => by simp [decFields] at hf
  | (n, fo, t) :: fs, 0, v, f, hf, h, b, off => by
    simp only [decFields, List.getElem?_cons_zero, Option.some.injEq] at hf
    subst hf
    exact dec_ne t v b off (h _ (by simp [TameF]))
  | (n, fo, t) :: fs, j + 1, v, f, hf, h, b, off => by
    simp only [decFields, List.getElem?_cons_succ] at hf
    exact decF_ne fs j v f hf (fun T hT => h T (by simpa [TameF] using hT)) b off
end

theorem decTop_ne {x : Ext} {src : Bytes} {o : Option Options} : ∀ (ty : Ty) (v : JVal) (b : Block) (off : Nat), TameDoc x src o ty v → decTop x src o ty v b off ≠ .unsup
  | .ptr e, v, b, off, h => by
    have hn : ∀ w, e.size x ≠ 0 ∧ TameDoc x src o e w → (if tokOK src w = false then Res.crash
      else if e.size x = 0 then .unsup
      else match blit b off (seg x.W (.ptr (zeros (e.size x)))) with
        | none => .crash
        | some b => (decTop x src o e w (zeros (e.size x)) 0).bindB (putIn b off .deref)) ≠ .unsup := by
      intro w hw
      split
      · simp
      · rw [if_neg hw.1]
        split
        · simp
        · exact bindB_ne (decTop_ne e w _ _ hw.2)
    cases v <;> simp only [decTop]
    case null => exact execB_ne (by simp [leaf, onNull])
    all_goals exact hn _ h
  | .emptyStruct, v, b, off, h => by
    cases v <;> simp only [decTop]
    case obj => simp
    all_goals simp only [dec]; exact leafB_ne (by simp) (by simp) _
  | .any, v, b, off, h => by simp only [decTop]; exact dec_ne _ v b off h
  | .number, v, b, off, h => by simp only [decTop]; exact dec_ne _ v b off h
  | .scalar _, v, b, off, h => by simp only [decTop]; exact dec_ne _ v b off h
  | .quoted _, v, b, off, h => by simp only [decTop]; exact dec_ne _ v b off h
  | .jsonU .., v, b, off, h => by simp only [decTop]; exact dec_ne _ v b off h
  | .textU .., v, b, off, h => by simp only [decTop]; exact dec_ne _ v b off h
  | .array0, v, b, off, h => by simp only [decTop]; exact dec_ne _ v b off h
  | .array .., v, b, off, h => by simp only [decTop]; exact dec_ne _ v b off h
  | .slice _, v, b, off, h => by simp only [decTop]; exact dec_ne _ v b off h
  | .sliceOf _, v, b, off, h => by simp only [decTop]; exact dec_ne _ v b off h
  | .sliceES, v, b, off, h => by simp only [decTop]; exact dec_ne _ v b off h
  | .mapSS, v, b, off, h => by simp only [decTop]; exact dec_ne _ v b off h
  | .map .., v, b, off, h => by simp only [decTop]; exact dec_ne _ v b off h
  | .struct .., v, b, off, h => by simp only [decTop]; exact dec_ne _ v b off h

theorem decTopV_ne {x : Ext} {src : Bytes} {o : Option Options} {ty : Ty} (hok : OK x ty) {v : JVal} {b : Block} {V : Val} (hV : Holds x ty b 0 V) (h : TameDoc x src o ty v) :
    decTopV x src o ty v V ≠ .unsup := by
  intro hc
  have hrel := Val.decTop_rel (src := src) (o := o) ty hok v b 0 V hV
  rw [hc] at hrel
  cases hb : decTop x src o ty v b 0 with
  | unsup => exact decTop_ne ty v b 0 h hb
  | _ => rw [hb] at hrel; exact hrel.elim

mutual
/-- With `DisallowUnknownFields`, every document is tame for a type without pointers, `struct{}` and unsupported map keys. -/
theorem tame_strict {x : Ext} {src : Bytes} {o : Option Options} (ho : ∀ o', o = some o' → o'.disallowUnknownFields = true) : ∀ (ty : Ty), ty.plain = true → ∀ v, Tame x src o ty v
  | .array n e, h, v => by
    cases v <;> simp only [Tame]
    exact fun w _ => tame_strict ho e h w
  | .slice e, h, v => by
    cases v <;> simp only [Tame]
    exact fun w _ => tame_strict ho e h w
  | .map k e, h, v => by
    simp only [Ty.plain, Bool.and_eq_true, bne_iff_ne, ne_eq] at h
    cases v <;> simp only [Tame]
    exact ⟨fun hk => absurd hk h.1, fun m _ => tame_strict ho e h.2 m.2⟩
  | .struct n fs, h, v => by
    cases v <;> simp only [Tame]
    intro m _ o' hoo raw name _ _
    split
    · exact fun T hT => tameF_strict ho fs h _ T hT m.2
    · exact .inl (ho o' hoo)
  | .emptyStruct, h, v => by simp [Ty.plain] at h
  | .ptr e, h, v => by simp [Ty.plain] at h
  | .jsonU .., h, v => by simp [Tame]
  | .textU .., h, v => by simp [Tame]
  | .any, h, v => by simp [Tame]
  | .array0, h, v => by simp [Tame]
  | .sliceOf _, h, v => by simp [Tame]
  | .sliceES, h, v => by simp [Tame]
  | .mapSS, h, v => by simp [Tame]
  | .number, h, v => by simp [Tame]
  | .scalar _, h, v => by simp [Tame]
  | .quoted _, h, v => by simp [Tame]
theorem tameF_strict {x : Ext} {src : Bytes} {o : Option Options} (ho : ∀ o', o = some o' → o'.disallowUnknownFields = true) : ∀ (fs : List (Bytes × Nat × Ty)), plainF fs = true →
    ∀ (j : Nat) (T : JVal → Prop), (TameF x src o fs)[j]? = some T → ∀ v, T v
  | [], _, j, T, h => by simp [TameF] at h
  | (n, fo, t) :: fs, hp, 0, T, h => by
    simp only [plainF, Bool.and_eq_true] at hp
    simp only [TameF, List.getElem?_cons_zero, Option.some.injEq] at h
    subst h
    exact tame_strict ho t hp.1
  | (n, fo, t) :: fs, hp, j + 1, T, h => by
    simp only [plainF, Bool.and_eq_true] at hp
    simp only [TameF, List.getElem?_cons_succ] at h
    exact tameF_strict ho fs hp.2 j T h
end

end Verif.Proof.Fragment
