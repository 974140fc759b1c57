import Verif.Spec.Same
import Verif.Proof.MeansConv
/-!
# The meaning of a document is unique
-/
namespace Verif.Proof.Same
open Verif.Model Verif.Big Verif.Spec Verif.Proof Verif.Proof.Outcome Verif.Proof.Unescape

theorem sameVals_of : ∀ {Vs Ws : List Val}, Vs.length = Ws.length → (∀ (j : Nat) V W, Vs[j]? = some V → Ws[j]? = some W → SameVal V W) → SameVals Vs Ws
  | [], Ws, hl, _ => by
    have : Ws = [] := List.length_eq_zero_iff.1 hl.symm
    exact this
  | V :: Vs, [], hl, _ => by simp at hl
  | V :: Vs, W :: Ws, hl, h => ⟨W, Ws, rfl, h 0 _ _ rfl rfl, sameVals_of (by simpa using hl) fun j V' W' h1 h2 => h (j + 1) _ _ (by simpa using h1) (by simpa using h2)⟩

theorem sameEntries_of : ∀ {Vs Ws : List (Key × Val)}, Vs.length = Ws.length → (∀ (j : Nat) V W, Vs[j]? = some V → Ws[j]? = some W → V.1.same W.1 = true ∧ SameVal V.2 W.2) → SameEntries Vs Ws
  | [], Ws, hl, _ => by
    have : Ws = [] := List.length_eq_zero_iff.1 hl.symm
    exact this
  | V :: Vs, [], hl, _ => by simp at hl
  | (k, V) :: Vs, (k', W) :: Ws, hl, h => ⟨k', W, Ws, rfl, (h 0 _ _ rfl rfl).1, (h 0 _ _ rfl rfl).2,
      sameEntries_of (by simpa using hl) fun j V' W' h1 h2 => h (j + 1) _ _ (by simpa using h1) (by simpa using h2)⟩

/-! ## Equality is reflexive -/

mutual
theorem sameAny_refl : ∀ a : AnyVal, SameAny a a
  | .null => rfl
  | .bool _ => rfl
  | .num _ => rfl
  | .str s => ⟨s, rfl, rfl⟩
  | .arr as => ⟨as, rfl, sameAnyL_refl as⟩
  | .obj m => ⟨m, rfl, sameAnyE_refl m m (fun e he => he), fun e he => ⟨e, he, rfl⟩⟩
  | .other _ => rfl
theorem sameAnyL_refl : ∀ as : List AnyVal, SameAnyL as as
  | [] => rfl
  | a :: as => ⟨a, as, rfl, sameAny_refl a, sameAnyL_refl as⟩
theorem sameAnyE_refl : ∀ (m m' : List (Str × AnyVal)), (∀ e ∈ m, e ∈ m') → SameAnyE m m'
  | [], _, _ => trivial
  | (k, a) :: m, m', h => ⟨⟨(k, a), h _ List.mem_cons_self, rfl, sameAny_refl a⟩, sameAnyE_refl m m' fun e he => h e (List.mem_cons_of_mem _ he)⟩
end

theorem key_refl (k : Key) : k.same k = true := by cases k <;> simp [Key.same]

mutual
theorem same_refl : ∀ V : Val, SameVal V V
  | .bool _ => rfl
  | .int _ => rfl
  | .flt _ => rfl
  | .str s => ⟨s, rfl, rfl⟩
  | .any a => ⟨a, rfl, sameAny_refl a⟩
  | .user _ => rfl
  | .nil => rfl
  | .ptr V => ⟨V, rfl, same_refl V⟩
  | .arr es => ⟨es, rfl, sames_refl es⟩
  | .slice es sp => ⟨es, sp, rfl, sames_refl es, sames_refl sp⟩
  | .map es => ⟨es, rfl, sameE_refl es⟩
  | .struct fs => ⟨fs, rfl, sames_refl fs⟩
theorem sames_refl : ∀ Vs : List Val, SameVals Vs Vs
  | [] => rfl
  | V :: Vs => ⟨V, Vs, rfl, same_refl V, sames_refl Vs⟩
theorem sameE_refl : ∀ Vs : List (Key × Val), SameEntries Vs Vs
  | [] => rfl
  | (k, V) :: Vs => ⟨k, V, Vs, rfl, key_refl k, same_refl V, sameE_refl Vs⟩
end

/-! ## Literals -/

theorem intLit_unique {s : Bytes} {v w : Int} (h : IsIntLit s v) (h' : IsIntLit s w) : v = w := by
  have hn : ∀ {s : Bytes}, IsNatLit (45 :: s) → False := by
    intro s h
    cases h with
    | cons h _ _ => exact absurd h (by decide)
  cases h with
  | pos h =>
    cases h' with
    | pos => rfl
    | neg => exact (hn h).elim
  | neg h =>
    cases h' with
    | pos h => exact (hn h).elim
    | neg => rfl

theorem quotedOK_unique {b : Bool} {k : IKind} {s : Bytes} {v w : Int} (h : QuotedOK b k s v) (h' : QuotedOK b k s w) : v = w := intLit_unique h.1 h'.1

theorem keyOf_unique {x : Ext} {k : KeyTy} {raw : Bytes} {K K' : Key} (h : KeyOf x k raw K) (h' : KeyOf x k raw K') : K.same K' = true := by
  cases h with
  | str h => cases h' with | str h' => simp [Key.same, denotes_fun h h']
  | int h => cases h' with | int h' => simp [Key.same, quotedOK_unique h h']
  | text h1 h2 => cases h' with
    | text h3 h4 =>
      rw [denotes_fun h3 h1, h2] at h4
      cases h4; simp [Key.same]

theorem lit_unique {x : Ext} {src : Bytes} {k : SKind} {v : JVal} {V V' : Val} (h : MeansLit x src k v V) (h' : MeansLit x src k v V') : SameVal V V' := by
  cases k with
  | bool => obtain ⟨b, i, e, rfl, rfl⟩ := h; obtain ⟨b', i', e', h, rfl⟩ := h'; cases h; rfl
  | str =>
    obtain ⟨i, e, s, rfl, hs, rfl⟩ := h; obtain ⟨i', e', s', h, hs', rfl⟩ := h'; cases h
    exact ⟨s', rfl, denotes_fun hs' hs⟩
  | int k =>
    obtain ⟨b, i, e, n, rfl, hs, rfl⟩ := h; obtain ⟨b', i', e', n', h, hs', rfl⟩ := h'; cases h
    rw [quotedOK_unique hs hs']; rfl
  | flt k =>
    obtain ⟨b, i, e, n, rfl, hs, rfl⟩ := h; obtain ⟨b', i', e', n', h, hs', rfl⟩ := h'; cases h
    rw [hs] at hs'; cases hs'; rfl

theorem lit_not_null {x : Ext} {src : Bytes} {k : SKind} {v : JVal} {V : Val} (h : MeansLit x src k v V) : ¬ IsNull v := by
  rintro ⟨i, e, rfl⟩
  cases k with
  | bool => obtain ⟨b, i, e, h, -⟩ := h; cases h
  | str => obtain ⟨i, e, s, h, -⟩ := h; cases h
  | int k => obtain ⟨b, i, e, n, h, -⟩ := h; cases h
  | flt k => obtain ⟨b, i, e, n, h, -⟩ := h; cases h

theorem scalar_unique {x : Ext} {src : Bytes} {k : SKind} {v : JVal} {V V' : Val} (h : MeansS x src k v V) (h' : MeansS x src k v V') : SameVal V V' := by
  rcases h with ⟨hn, rfl⟩ | h <;> rcases h' with ⟨hn', rfl⟩ | h'
  · exact same_refl _
  · exact absurd hn (lit_not_null h')
  · exact absurd hn' (lit_not_null h)
  · exact lit_unique h h'

theorem quoted_unique {x : Ext} {src : Bytes} {k : SKind} {v : JVal} {V V' : Val} (h : MeansQ x src k v V) (h' : MeansQ x src k v V') : SameVal V V' := by
  rcases h with ⟨hn, rfl⟩ | ⟨i, e, rfl, h⟩ <;> rcases h' with ⟨hn', rfl⟩ | ⟨i', e', he, h'⟩
  · exact same_refl _
  · subst he; obtain ⟨_, _, h⟩ := hn; cases h
  · obtain ⟨_, _, h⟩ := hn'; cases h
  · cases he
    cases k with
    | bool =>
      obtain ⟨b, h1, rfl⟩ := h; obtain ⟨b', h2, rfl⟩ := h'
      rw [h1] at h2
      cases b <;> cases b' <;> first | rfl | cases h2
    | str =>
      obtain ⟨s, h1, -, rfl⟩ := h; obtain ⟨s', h2, -, rfl⟩ := h'
      rw [h1] at h2
      refine ⟨s', rfl, ?_⟩
      have := List.append_cancel_left (List.append_cancel_right h2)
      exact this.symm
    | int k => obtain ⟨n, h1, rfl⟩ := h; obtain ⟨n', h2, rfl⟩ := h'; rw [quotedOK_unique h1 h2]; rfl
    | flt k => obtain ⟨n, -, h1, rfl⟩ := h; obtain ⟨n', -, h2, rfl⟩ := h'; rw [h1] at h2; cases h2; rfl

/-! ## `any` -/

theorem last_mem {pf : Bytes → Except Nat Flt} {src : Bytes} {key : Bytes} {A : AnyVal} : ∀ {ms : List ((Nat × Nat) × JVal)}, LastMember pf src ms key A → ∃ k ∈ ms, Denotes (inner src k.1.1 k.1.2) key
  | k :: ms, h => by
    rcases h with h | ⟨h, -⟩
    · obtain ⟨k', h1, h2⟩ := last_mem h
      exact ⟨k', List.mem_cons_of_mem _ h1, h2⟩
    · exact ⟨k, List.mem_cons_self, h⟩

theorem sameAnyE_of : ∀ {m m' : List (Str × AnyVal)}, (∀ e ∈ m, ∃ e' ∈ m', e'.1.bytes = e.1.bytes ∧ SameAny e.2 e'.2) → SameAnyE m m'
  | [], _, _ => trivial
  | (k, a) :: m, m', h => ⟨h _ List.mem_cons_self, sameAnyE_of fun e he => h e (List.mem_cons_of_mem _ he)⟩

mutual
theorem any_unique {pf : Bytes → Except Nat Flt} {src : Bytes} : ∀ (v : JVal) (A B : AnyVal), AnyTree pf src v A → AnyTree pf src v B → SameAny A B
  | .null _ _, A, B, h, h' => by cases h; exact h'
  | .bool _ _ _, A, B, h, h' => by cases h; exact h'
  | .num _ i e, A, B, ⟨f, h1, h2⟩, ⟨f', h3, h4⟩ => by
    subst h2 h4; rw [h1] at h3; cases h3; rfl
  | .str i e, A, B, ⟨f, h1, h2⟩, ⟨f', h3, h4⟩ => by
    subst h2 h4; exact ⟨f', rfl, denotes_fun h3 h1⟩
  | .arr _ vs _, A, B, ⟨as, h1, h2⟩, ⟨bs, h3, h4⟩ => by
    subst h1 h3; exact ⟨bs, rfl, anyL_unique vs as bs h2 h4⟩
  | .obj _ ms _, A, B, ⟨m, h1, h2, h3, h4⟩, ⟨m', g1, g2, g3, g4⟩ => by
    subst h1 g1
    refine ⟨m', rfl, sameAnyE_of fun e he => ?_, fun e' he' => ?_⟩
    · obtain ⟨k, hk, hd⟩ := last_mem (h4 e he)
      obtain ⟨e', he', hd'⟩ := g3 k hk
      have hb := denotes_fun hd' hd
      refine ⟨e', he', hb, last_unique ms e.1.bytes _ _ (h4 e he) ?_⟩
      rw [← hb]; exact g4 e' he'
    · obtain ⟨k, hk, hd⟩ := last_mem (g4 e' he')
      obtain ⟨e, he, hd'⟩ := h3 k hk
      exact ⟨e, he, denotes_fun hd' hd⟩
theorem anyL_unique {pf : Bytes → Except Nat Flt} {src : Bytes} : ∀ (vs : List JVal) (As Bs : List AnyVal), AnyElems pf src vs As → AnyElems pf src vs Bs → SameAnyL As Bs
  | [], As, Bs, h, h' => by cases h; exact h'
  | v :: vs, As, Bs, ⟨a, as, h1, h2, h3⟩, ⟨b, bs, g1, g2, g3⟩ => by
    subst h1 g1
    exact ⟨b, bs, rfl, any_unique v a b h2 g2, anyL_unique vs as bs h3 g3⟩
theorem last_unique {pf : Bytes → Except Nat Flt} {src : Bytes} : ∀ (ms : List ((Nat × Nat) × JVal)) (key : Bytes) (A B : AnyVal), LastMember pf src ms key A → LastMember pf src ms key B → SameAny A B
  | [], _, _, _, h, _ => h.elim
  | k :: ms, key, A, B, h, h' => by
    rcases h with h | ⟨-, hn, h⟩ <;> rcases h' with h' | ⟨-, hn', h'⟩
    · exact last_unique ms key A B h h'
    · obtain ⟨k', hk', hd⟩ := last_mem h; exact absurd hd (hn' k' hk')
    · obtain ⟨k', hk', hd⟩ := last_mem h'; exact absurd hd (hn k' hk')
    · exact any_unique k.2 A B h h'
end

/-! ## All types -/

/-- The meanings of a value of the type are equal. -/
def Unique (x : Ext) (src : Bytes) (o : Options) (ty : Ty) : Prop := ∀ v V V', Means x src o ty v V → Means x src o ty v V' → SameVal V V'

theorem elems_unique {P : JVal → Val → Prop} (hP : ∀ v V V', P v V → P v V' → SameVal V V') {vs : List JVal} {V V' : Val} (h : MeansElems P vs V) (h' : MeansElems P vs V') : SameVal V V' := by
  obtain ⟨Ws, rfl, hl, h⟩ := h
  obtain ⟨Ws', rfl, hl', h'⟩ := h'
  refine ⟨Ws', [], rfl, sameVals_of (by omega) fun j W W' h1 h2 => ?_, rfl⟩
  have hj := (List.getElem?_eq_some_iff.1 h1).1
  have hv : vs[j]? = some (vs[j]'(by omega)) := by simp
  exact hP _ _ _ (h j _ _ hv h1) (h' j _ _ hv h2)

theorem entries_unique {x : Ext} {src : Bytes} {k : KeyTy} {P : JVal → Val → Prop} (hP : ∀ v V V', P v V → P v V' → SameVal V V') {ms : List ((Nat × Nat) × JVal)} {V V' : Val}
    (h : MeansEntries src (KeyOf x k) P ms V) (h' : MeansEntries src (KeyOf x k) P ms V') : SameVal V V' := by
  obtain ⟨Ws, rfl, hl, h, -⟩ := h
  obtain ⟨Ws', rfl, hl', h', -⟩ := h'
  refine ⟨Ws', rfl, sameEntries_of (by omega) fun j W W' h1 h2 => ?_⟩
  have hj := (List.getElem?_eq_some_iff.1 h1).1
  have hv : ms[j]? = some (ms[j]'(by omega)) := by simp
  exact ⟨keyOf_unique (h j _ _ hv h1).1 (h' j _ _ hv h2).1, hP _ _ _ (h j _ _ hv h1).2 (h' j _ _ hv h2).2⟩

mutual
theorem unique {x : Ext} {src : Bytes} {o : Options} : ∀ ty, Unique x src o ty
  | .any => fun v V V' h h' => by
    obtain ⟨-, a, rfl, ha⟩ := h
    obtain ⟨-, b, rfl, hb⟩ := h'
    exact ⟨b, rfl, any_unique v a b ha hb⟩
  | .jsonU _ _ _ => fun v V V' h h' => by
    obtain ⟨-, a, ha, rfl⟩ := h
    obtain ⟨-, b, hb, rfl⟩ := h'
    rw [ha] at hb; cases hb; rfl
  | .textU _ _ _ => fun v V V' h h' => by
    rcases h with ⟨⟨i, e, rfl⟩, rfl⟩ | ⟨i, e, out, new, rfl, -, h1, h2, rfl⟩ <;> rcases h' with ⟨⟨i', e', he⟩, rfl⟩ | ⟨i', e', out', new', he, -, h1', h2', rfl⟩ <;> cases he
    · rfl
    · rw [denotes_fun h1' h1, h2] at h2'; cases h2'; rfl
  | .number => fun v V V' h h' => by
    rcases h with ⟨⟨i, e, rfl⟩, rfl⟩ | ⟨s, rfl, h⟩ <;> rcases h' with ⟨⟨i', e', he⟩, rfl⟩ | ⟨s', rfl, h'⟩
    · exact same_refl _
    · rcases h' with ⟨_, _, _, h, -⟩ | ⟨_, _, h, -⟩ <;> cases h
    · subst he; rcases h with ⟨_, _, _, h, -⟩ | ⟨_, _, h, -⟩ <;> cases h
    · refine ⟨s', rfl, ?_⟩
      rcases h with ⟨_, _, _, rfl, h⟩ | ⟨_, _, rfl, -, h⟩ <;> rcases h' with ⟨_, _, _, he, h'⟩ | ⟨_, _, he, -, h'⟩ <;> cases he <;> rw [h, h']
  | .scalar k => fun v V V' h h' => scalar_unique h h'
  | .quoted k => fun v V V' h h' => quoted_unique h h'
  | .array0 => fun v V V' h h' => by rw [h.2, h'.2]; exact same_refl _
  | .emptyStruct => fun v V V' h h' => by rw [h.2, h'.2]; exact same_refl _
  | .array n e => fun v V V' h h' => by
    rcases h with ⟨⟨i, e, rfl⟩, rfl⟩ | ⟨i, vs, k, Ws, rfl, rfl, hl, h⟩ <;> rcases h' with ⟨⟨i', e', he⟩, rfl⟩ | ⟨i', vs', k', Ws', he, rfl, hl', h'⟩ <;> cases he
    · exact same_refl _
    · refine ⟨Ws', rfl, sameVals_of (by omega) fun j W W' h1 h2 => ?_⟩
      rcases h j W h1 with ⟨w, a, b⟩ | ⟨a, rfl⟩ <;> rcases h' j W' h2 with ⟨w', a', b'⟩ | ⟨a', rfl⟩
      · rw [a] at a'; cases a'; exact unique e w W W' b b'
      · have := (List.getElem?_eq_some_iff.1 a).1; omega
      · have := (List.getElem?_eq_some_iff.1 a').1; omega
      · exact same_refl _
  | .slice e => fun v V V' h h' => by
    rcases h with ⟨⟨i, e, rfl⟩, rfl⟩ | ⟨i, vs, k, rfl, h⟩ <;> rcases h' with ⟨⟨i', e', he⟩, rfl⟩ | ⟨i', vs', k', he, h'⟩ <;> cases he
    · rfl
    · exact elems_unique (unique e) h h'
  | .sliceOf sk => fun v V V' h h' => by
    rcases h with ⟨⟨i, e, rfl⟩, rfl⟩ | ⟨i, vs, k, rfl, h⟩ <;> rcases h' with ⟨⟨i', e', he⟩, rfl⟩ | ⟨i', vs', k', he, h'⟩ <;> cases he
    · rfl
    · exact elems_unique (P := MeansS x src sk) (fun _ _ _ => scalar_unique) h h'
  | .sliceES => fun v V V' h h' => by
    rcases h with ⟨⟨i, e, rfl⟩, rfl⟩ | ⟨i, vs, k, rfl, h⟩ <;> rcases h' with ⟨⟨i', e', he⟩, rfl⟩ | ⟨i', vs', k', he, h'⟩ <;> cases he
    · rfl
    · exact elems_unique (fun _ _ _ a b => by rw [a.2, b.2]; exact same_refl _) h h'
  | .mapSS => fun v V V' h h' => by
    rcases h with ⟨⟨i, e, rfl⟩, rfl⟩ | ⟨i, vs, k, rfl, h⟩ <;> rcases h' with ⟨⟨i', e', he⟩, rfl⟩ | ⟨i', vs', k', he, h'⟩ <;> cases he
    · rfl
    · exact entries_unique (P := MeansS x src .str) (fun _ _ _ => scalar_unique) h h'
  | .map kt e => fun v V V' h h' => by
    rcases h with ⟨⟨i, e, rfl⟩, rfl⟩ | ⟨i, vs, k, rfl, h⟩ <;> rcases h' with ⟨⟨i', e', he⟩, rfl⟩ | ⟨i', vs', k', he, h'⟩ <;> cases he
    · rfl
    · exact entries_unique (unique e) h h'
  | .struct n fs => fun v V V' h h' => by
    rcases h with ⟨⟨i, e, rfl⟩, rfl⟩ | ⟨i, ms, k, Ws, rfl, rfl, hl, -, hd, h⟩ <;> rcases h' with ⟨⟨i', e', he⟩, rfl⟩ | ⟨i', ms', k', Ws', he, rfl, hl', -, -, h'⟩ <;> cases he
    · exact same_refl _
    · refine ⟨Ws', rfl, sameVals_of (by omega) fun j W W' h1 h2 => ?_⟩
      have hj := (List.getElem?_eq_some_iff.1 h1).1
      have hf : fs[j]? = some (fs[j]'(by omega)) := by simp
      have hP : (MeansF x src o fs)[j]? = some (Means x src o (fs[j]'(by omega)).2.2) := by rw [Means.meansF_get, hf]; rfl
      rcases h j _ _ W hf hP h1 with ⟨m, hm, hs, hv⟩ | ⟨hn, rfl⟩ <;> rcases h' j _ _ W' hf hP h2 with ⟨m', hm', hs', hv'⟩ | ⟨hn', rfl⟩
      · obtain ⟨a, ha⟩ := List.getElem?_of_mem hm
        obtain ⟨b, hb⟩ := List.getElem?_of_mem hm'
        have := hd a b m m' j ha hb hs hs'
        subst this
        rw [ha] at hb; cases hb
        exact uniqueF fs _ (List.mem_of_getElem? hf) _ _ _ hv hv'
      · exact absurd hs (hn' m hm)
      · exact absurd hs' (hn m' hm')
      · exact same_refl _
  | .ptr e => fun v V V' h h' => by
    rcases h with ⟨hn, rfl⟩ | ⟨hn, W, rfl, h⟩ <;> rcases h' with ⟨hn', rfl⟩ | ⟨hn', W', rfl, h'⟩
    · rfl
    · exact absurd hn hn'
    · exact absurd hn' hn
    · exact ⟨W', rfl, unique e v W W' h h'⟩
theorem uniqueF {x : Ext} {src : Bytes} {o : Options} : ∀ (fs : List (Bytes × Nat × Ty)), ∀ f ∈ fs, Unique x src o f.2.2
  | (_, _, t) :: fs, f, hf => by
    rcases List.mem_cons.1 hf with rfl | hf
    · exact unique t
    · exact uniqueF fs f hf
end

end Verif.Proof.Same
