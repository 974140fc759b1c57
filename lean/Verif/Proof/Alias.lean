import Verif.Spec.Alias
/-!
# The decoder does not look at where strings live: memory
-/
namespace Verif.Proof.Alias
open Verif.Model Verif.Spec

theorem forget_map : ∀ b : Block, forget b = b.map forgetC
  | [] => rfl
  | c :: cs => by simp [forget, forget_map cs]

theorem forgetM_map : ∀ es : List (Key × Block), forgetM es = es.map fun e => (copyKey e.1, forget e.2)
  | [] => rfl
  | e :: es => by simp [forgetM, forgetM_map es]

theorem copyAnyL_map : ∀ es, copyAnyL es = es.map copyAny
  | [] => rfl
  | e :: es => by simp [copyAnyL, copyAnyL_map es]

theorem copyKey_idem (k : Key) : copyKey (copyKey k) = copyKey k := by cases k <;> rfl

mutual
theorem copyAny_idem : ∀ v, copyAny (copyAny v) = copyAny v
  | .null | .bool _ | .num _ | .str _ | .other _ => by simp [copyAny, copyStr]
  | .arr es => by simp [copyAny, copyAnyL_idem es]
  | .obj ms => by simp [copyAny, copyAnyM_idem ms]
theorem copyAnyL_idem : ∀ v, copyAnyL (copyAnyL v) = copyAnyL v
  | [] => rfl
  | v :: vs => by simp [copyAnyL, copyAny_idem v, copyAnyL_idem vs]
theorem copyAnyM_idem : ∀ v, copyAnyM (copyAnyM v) = copyAnyM v
  | [] => rfl
  | m :: ms => by simp [copyAnyM, copyAny_idem m.2, copyAnyM_idem ms, copyStr]
end

mutual
theorem forgetC_idem : ∀ c, forgetC (forgetC c) = forgetC c
  | .zero | .pad | .bool _ | .int _ | .flt _ | .user _ => by simp [forgetC]
  | .str _ => by simp [forgetC, copyStr]
  | .any v => by simp [forgetC, copyAny_idem v]
  | .ptr b => by simp [forgetC, forget_idem b]
  | .slice _ _ a => by simp [forgetC, forget_idem a]
  | .map es => by simp [forgetC, forgetM_idem es]
theorem forget_idem : ∀ b, forget (forget b) = forget b
  | [] => rfl
  | c :: cs => by simp [forget, forgetC_idem c, forget_idem cs]
theorem forgetM_idem : ∀ b, forgetM (forgetM b) = forgetM b
  | [] => rfl
  | e :: es => by simp [forgetM, copyKey_idem, forget_idem e.2, forgetM_idem es]
end

mutual
theorem ownAny_iff : ∀ v, OwnAny v ↔ copyAny v = v
  | .null | .bool _ | .num _ | .other _ => by simp [copyAny, OwnAny]
  | .str ⟨b, sh⟩ => by simp [copyAny, copyStr, OwnAny, eq_comm]
  | .arr es => by simp [copyAny, OwnAny, ownAnyL_iff es]
  | .obj ms => by simp [copyAny, OwnAny, ownAnyM_iff ms]
theorem ownAnyL_iff : ∀ v, OwnAnyL v ↔ copyAnyL v = v
  | [] => by simp [OwnAnyL, copyAnyL]
  | v :: vs => by simp [OwnAnyL, copyAnyL, ownAny_iff v, ownAnyL_iff vs]
theorem ownAnyM_iff : ∀ v, OwnAnyM v ↔ copyAnyM v = v
  | [] => by simp [OwnAnyM, copyAnyM]
  | (⟨b, sh⟩, v) :: ms => by simp [OwnAnyM, copyAnyM, ownAny_iff v, ownAnyM_iff ms, copyStr, eq_comm, and_assoc]
end

theorem ownKey_iff (k : Key) : OwnKey k ↔ copyKey k = k := by
  rcases k with ⟨b, sh⟩ | i | b <;> simp [OwnKey, copyKey, copyStr, eq_comm]

mutual
theorem ownC_iff : ∀ c, OwnC c ↔ forgetC c = c
  | .zero | .pad | .bool _ | .int _ | .flt _ | .user _ => by simp [forgetC, OwnC]
  | .str ⟨b, sh⟩ => by simp [forgetC, copyStr, OwnC, eq_comm]
  | .any v => by simp [forgetC, OwnC, ownAny_iff v]
  | .ptr b => by simp [forgetC, OwnC, own_iff b]
  | .slice _ _ a => by simp [forgetC, OwnC, own_iff a]
  | .map es => by simp [forgetC, OwnC, ownM_iff es]
theorem own_iff : ∀ b, Own b ↔ forget b = b
  | [] => by simp [Own, forget]
  | c :: cs => by simp [Own, forget, ownC_iff c, own_iff cs]
theorem ownM_iff : ∀ b, OwnM b ↔ forgetM b = b
  | [] => by simp [OwnM, forgetM]
  | (k, b) :: es => by simp [OwnM, forgetM, ownKey_iff k, own_iff b, ownM_iff es, and_assoc]
end

@[simp] theorem forget_length (b : Block) : (forget b).length = b.length := by simp [forget_map]
@[simp] theorem forget_zeros (n : Nat) : forget (zeros n) = zeros n := by simp [forget_map, zeros, forgetC]
@[simp] theorem forget_append (a b : Block) : forget (a ++ b) = forget a ++ forget b := by simp [forget_map]
@[simp] theorem forget_take (a : Block) (n : Nat) : forget (a.take n) = (forget a).take n := by simp [forget_map]
@[simp] theorem forget_drop (a : Block) (n : Nat) : forget (a.drop n) = (forget a).drop n := by simp [forget_map]
theorem forget_get (a : Block) (n : Nat) : (forget a)[n]? = (a[n]?).map forgetC := by simp [forget_map]
theorem forget_set (a : Block) (n : Nat) (c : Cell) : forget (a.set n c) = (forget a).set n (forgetC c) := by simp [forget_map, List.map_set]
@[simp] theorem forget_seg (n : Nat) (c : Cell) : forget (seg n c) = seg n (forgetC c) := by cases n <;> simp [seg, forget_map, forgetC]
@[simp] theorem forget_fit (n : Nat) (b : Block) : forget (fit n b) = fit n (forget b) := by simp [fit]
@[simp] theorem seg_length' (n : Nat) (c : Cell) : (seg n c).length = n := by cases n <;> simp [seg]

theorem blit_forget (b : Block) (off : Nat) (s : Block) : blit (forget b) off (forget s) = (blit b off s).map forget := by
  unfold blit
  simp only [forget_length]
  split <;> simp

/-- `φ` changes at most where the bytes of a key live. -/
def Mild (φ : Key → Key) : Prop := ∀ k, copyKey (φ k) = copyKey k

theorem same_copy (a b : Key) : (copyKey a).same b = a.same b := by cases a <;> cases b <;> rfl
theorem same_copy' (a b : Key) : a.same (copyKey b) = a.same b := by cases a <;> cases b <;> rfl
theorem same_mild {φ : Key → Key} (h : Mild φ) (a b : Key) : a.same (φ b) = a.same b := by
  rw [← same_copy' a (φ b), h b, same_copy']

theorem lookupKey_forget {φ : Key → Key} (h : Mild φ) (k : Key) : ∀ es : List (Key × Block), lookupKey (φ k) (forgetM es) = (lookupKey k es).map forget
  | [] => rfl
  | e :: es => by
    simp only [forgetM, lookupKey, same_copy, same_mild h]
    split
    · rfl
    · exact lookupKey_forget h k es

theorem putKey_forget {φ : Key → Key} (h : Mild φ) (k : Key) (b : Block) : ∀ es : List (Key × Block), putKey (φ k) (forget b) (forgetM es) = forgetM (putKey k b es)
  | [] => rfl
  | e :: es => by
    simp only [forgetM, putKey, same_copy, same_mild h]
    split
    · rfl
    · simp only [forgetM, putKey_forget h k b es]

theorem forgetM_append (a b : List (Key × Block)) : forgetM (a ++ b) = forgetM a ++ forgetM b := by simp [forgetM_map]

/-- `φ` on the keys of an address. -/
def selE (φ : Key → Key) : Sel → Sel
  | .entry k => .entry (φ k)
  | s => s
def stepE (φ : Key → Key) (s : Step) : Step := ⟨s.off, selE φ s.sel⟩
def addrE (φ : Key → Key) (a : Addr) : Addr := ⟨a.path.map (stepE φ), a.off⟩
def ptrE (φ : Key → Key) : Ptr → Ptr
  | .at a => .at (addrE φ a)
  | p => p

theorem owned_forget {φ : Key → Key} (h : Mild φ) (c : Cell) (s : Sel) : ownedBlock (forgetC c) (selE φ s) = (ownedBlock c s).map forget := by
  cases c <;> cases s <;> simp [forgetC, selE, ownedBlock, lookupKey_forget h]

theorem setOwned_forget {φ : Key → Key} (h : Mild φ) (c : Cell) (s : Sel) (b : Block) : setOwned (forgetC c) (selE φ s) (forget b) = forgetC (setOwned c s b) := by
  cases c <;> cases s <;> simp [forgetC, selE, setOwned, putKey_forget h]

theorem getBlock_forget {φ : Key → Key} (h : Mild φ) : ∀ (p : List Step) (b : Block), getBlock (forget b) (p.map (stepE φ)) = (getBlock b p).map forget
  | [], b => rfl
  | s :: p, b => by
    simp only [List.map_cons, getBlock, stepE, forget_get]
    cases b[s.off]? with
    | none => rfl
    | some c =>
      simp only [Option.map_some, owned_forget h]
      cases ownedBlock c s.sel with
      | none => rfl
      | some b' => exact getBlock_forget h p b'

theorem putBlock_forget {φ : Key → Key} (h : Mild φ) (n : Block) : ∀ (p : List Step) (b : Block), putBlock (forget b) (p.map (stepE φ)) (forget n) = (putBlock b p n).map forget
  | [], b => rfl
  | s :: p, b => by
    simp only [List.map_cons, putBlock, stepE, forget_get]
    cases b[s.off]? with
    | none => rfl
    | some c =>
      simp only [Option.map_some, owned_forget h]
      cases ownedBlock c s.sel with
      | none => rfl
      | some b' =>
        simp only [Option.map_some, putBlock_forget h n p b']
        cases putBlock b' p n with
        | none => rfl
        | some b'' => simp only [Option.map_some, setOwned_forget h, forget_set]

theorem readCell_forget {φ : Key → Key} (h : Mild φ) (m : Block) (p : Ptr) : readCell (forget m) (ptrE φ p) = (readCell m p).map forgetC := by
  cases p with
  | nil => rfl
  | stale => rfl
  | «at» a =>
    simp only [ptrE, addrE, readCell, getBlock_forget h]
    cases getBlock m a.path with
    | none => rfl
    | some b => simp [forget_get]

theorem readSeg_forget {φ : Key → Key} (h : Mild φ) (m : Block) (p : Ptr) (n : Nat) : readSeg (forget m) (ptrE φ p) n = (readSeg m p n).map forget := by
  cases p with
  | nil => rfl
  | stale => rfl
  | «at» a =>
    simp only [ptrE, addrE, readSeg, getBlock_forget h]
    cases getBlock m a.path with
    | none => rfl
    | some b =>
      simp only [Option.map_some, Option.bind_some, forget_length]
      split <;> simp

theorem writeSeg_forget {φ : Key → Key} (h : Mild φ) (m : Block) (p : Ptr) (s : Block) : writeSeg (forget m) (ptrE φ p) (forget s) = (writeSeg m p s).map forget := by
  cases p with
  | nil => rfl
  | stale => rfl
  | «at» a =>
    simp only [ptrE, addrE, writeSeg, getBlock_forget h]
    cases getBlock m a.path with
    | none => rfl
    | some b =>
      simp only [Option.map_some, Option.bind_some, blit_forget]
      cases blit b a.off s with
      | none => rfl
      | some b' => simp only [Option.map_some, Option.bind_some, putBlock_forget h]

theorem writeSeg_zeros {φ : Key → Key} (h : Mild φ) (m : Block) (p : Ptr) (n : Nat) : writeSeg (forget m) (ptrE φ p) (zeros n) = (writeSeg m p (zeros n)).map forget := by
  rw [← writeSeg_forget h, forget_zeros]

theorem writeSeg_seg {φ : Key → Key} (h : Mild φ) (m : Block) (p : Ptr) (n : Nat) (c : Cell) : writeSeg (forget m) (ptrE φ p) (seg n (forgetC c)) = (writeSeg m p (seg n c)).map forget := by
  rw [← writeSeg_forget h, forget_seg]

theorem ptrE_add (φ : Key → Key) (p : Ptr) (n : Nat) : ptrE φ (p.add n) = (ptrE φ p).add n := by cases p <;> rfl

theorem addrE_into (φ : Key → Key) (a : Addr) (s : Sel) : (addrE φ a).into (selE φ s) = addrE φ (a.into s) := by simp [addrE, Addr.into, stepE]

end Verif.Proof.Alias
