import Verif.Proof.Alias
import Verif.Proof.PlaceRun
/-!
# The decoder does not look at where strings live: runs
-/
namespace Verif.Proof.Alias
open Verif.Model Verif.Spec

/-! ## States -/

def recE (φ : Key → Key) (r : RecFrame) : RecFrame := { r with dest := ptrE φ r.dest }
def dynE (φ : Key → Key) (y : Dyn) : Dyn := { y with dest := ptrE φ y.dest, rstack := y.rstack.map (recE φ) }
def dE (φ : Key → Key) (d : Nat → Dyn) : Nat → Dyn := fun i => dynE φ (d i)
def stE (φ : Key → Key) (s : St) : St := { s with dyn := dE φ s.dyn, mem := forget s.mem }
def outE (φ : Key → Key) : Out → Out
  | .run s => .run (stE φ s)
  | .done s => .done (stE φ s)
  | .err i e s => .err i e (stE φ s)
  | .crash => .crash

/-- The program with `S = []byte`. -/
abbrev bp (pr : Prog) : Prog := { pr with x := bytesInput pr.x }

/-- `φ` is harmless for the keys that `pr` makes, and the methods copy. -/
structure Er (pr : Prog) (φ : Key → Key) : Prop where
  mild : Mild φ
  str : ∀ b s, pr.x.unescStr b = some s → φ (.str s) = .str (copyStr s)
  int : ∀ i, φ (.int i) = .int i
  opq : ∀ b, φ (.opaque b) = .opaque b
  meth : ∀ f ∈ pr.frames, ∀ rt, f.rtype = some rt →
    (f.type = .jsonUnmarshaler → Copies (pr.x.unmarshalJSON rt)) ∧ (f.type = .textUnmarshaler → Copies (pr.x.unmarshalText rt))

theorem dE_upd {φ : Key → Key} {d : Nat → Dyn} {i : Nat} {f g : Dyn → Dyn} (h : ∀ y, g (dynE φ y) = dynE φ (f y)) : upd (dE φ d) i g = dE φ (upd d i f) := by
  funext j
  simp only [upd, dE]
  split
  · exact h _
  · rfl

theorem dE_fields {φ : Key → Key} (p : Ptr) : ∀ (fs : List (Bytes × Nat)) (d : Nat → Dyn), setFieldDests (ptrE φ p) fs (dE φ d) = dE φ (setFieldDests p fs d)
  | [], d => rfl
  | f :: fs, d => by
    rw [setFieldDests, setFieldDests, ← dE_fields p fs, dE_upd (f := fun y => { y with dest := p })]
    intro y; rfl

theorem stE_p (φ : Key → Key) (s : St) : (stE φ s).p = ptrE φ s.p := by
  simp only [St.p, stE, dE, dynE, ptrE_add]

/-! ## Scalars -/

def actE : Act → Act
  | .store n c => .store n (forgetC c)
  | a => a

theorem W_bytes (x : Ext) : (bytesInput x).W = x.W := rfl
theorem bytes_bytes (x : Ext) (k : SKind) : k.bytes (bytesInput x) = k.bytes x := by cases k <;> rfl
theorem unescStr_bytes (x : Ext) (b : Bytes) : (bytesInput x).unescStr b = (x.unescStr b).map copyStr := by
  simp only [Ext.unescStr, bytesInput]
  cases Unescape.valid b <;> simp [copyStr]

theorem storeInt_E (x : Ext) (k : IKind) (tv : Bytes) (e : Err) : storeInt (bytesInput x) k tv e = actE (storeInt x k tv e) := by
  have : parseInt (bytesInput x).is64 k tv = parseInt x.is64 k tv := rfl
  simp only [storeInt, this]
  rcases parseInt x.is64 k tv with _ | ⟨v, _ | _⟩ <;> rfl

theorem storeFlt_E (n : Nat) (r : Except Nat Flt) : storeFlt n r = actE (storeFlt n r) := by cases r <;> rfl

theorem onInteger_E (x : Ext) (ty : EType) (tv : Bytes) : onInteger (bytesInput x) ty tv = actE (onInteger x ty tv) := by
  cases ty with
  | any =>
    show (match x.parseFloat64 tv with | .ok f => _ | .error e => _) = _
    simp only [onInteger]
    cases x.parseFloat64 tv <;> rfl
  | scalar k =>
    cases k with
    | int k =>
      simp only [onInteger]
      split
      · cases tv with
        | nil => rfl
        | cons c cs =>
          simp only
          split
          · rfl
          · exact storeInt_E ..
      · exact storeInt_E ..
    | flt k => cases k <;> exact storeFlt_E ..
    | _ => rfl
  | _ => rfl

theorem onNumber_E (x : Ext) (ty : EType) (tv : Bytes) : onNumber (bytesInput x) ty tv = actE (onNumber x ty tv) := by
  cases ty with
  | any =>
    show (match x.parseFloat64 tv with | .ok f => _ | .error e => _) = _
    simp only [onNumber]
    cases x.parseFloat64 tv <;> rfl
  | scalar k =>
    cases k with
    | flt k => cases k <;> exact storeFlt_E ..
    | _ => rfl
  | _ => rfl

theorem onBool_E (x : Ext) (ty : EType) (v : Bool) : onBool (bytesInput x) ty v = actE (onBool x ty v) := by
  cases ty with
  | scalar k => cases k <;> rfl
  | _ => rfl

theorem onNull_E (x : Ext) (ty : EType) : onNull (bytesInput x) ty = actE (onNull x ty) := by
  cases ty with
  | scalar k => simp only [onNull, bytes_bytes]; rfl
  | _ => rfl

theorem quotedInt_E (x : Ext) (k : IKind) (tv : Bytes) : quotedInt (bytesInput x) k tv = quotedInt x k tv := rfl

theorem onString_E (x : Ext) (ty : EType) (tv : Bytes) : onString (bytesInput x) ty tv = actE (onString x ty tv) := by
  cases ty with
  | textUnmarshaler =>
    simp only [onString]
    cases Unescape.valid tv <;> rfl
  | any =>
    simp only [onString, unescStr_bytes]
    cases x.unescStr tv <;> rfl
  | number =>
    simp only [onString]
    rcases JsonNum.readNumber tv with _ | ⟨a, rc⟩
    · rfl
    · simp only; split <;> rfl
  | scalar k =>
    cases k with
    | str =>
      simp only [onString, unescStr_bytes]
      cases x.unescStr tv <;> rfl
    | _ => rfl
  | quoted k =>
    cases k with
    | bool =>
      simp only [onString]
      split
      · rfl
      · split <;> rfl
    | str =>
      simp only [onString]
      split
      · rfl
      · split <;> rfl
    | int k =>
      simp only [onString, quotedInt_E]
      rcases quotedInt x k tv with _ | _ | v <;> rfl
    | flt k =>
      simp only [onString]
      rcases JsonNum.readNumber tv with _ | ⟨a, rc⟩
      · rfl
      · simp only; split
        · rfl
        · cases k <;> exact storeFlt_E ..
  | _ => rfl

theorem exec_E {pr : Prog} {φ : Key → Key} (h : Er pr φ) {s : St} {f : Frame} (hf : f ∈ pr.frames) (t : Token) (a : Act) (ha : ∀ b, a = .text b → f.type = .textUnmarshaler) :
    exec (bp pr) (stE φ s) f t (actE a) = outE φ (exec pr s f t a) := by
  cases a with
  | store n c =>
    simp only [actE, exec, stE_p]
    show (match writeSeg (forget s.mem) (ptrE φ s.p) (seg n (forgetC c)) with | none => _ | some m => _) = _
    rw [writeSeg_seg h.mild]
    cases writeSeg s.mem s.p (seg n c) <;> rfl
  | clear n =>
    simp only [actE, exec, stE_p]
    show (match writeSeg (forget s.mem) (ptrE φ s.p) (zeros n) with | none => _ | some m => _) = _
    rw [writeSeg_zeros h.mild]
    cases writeSeg s.mem s.p (zeros n) <;> rfl
  | text b =>
    simp only [actE, exec, stE_p]
    rw [show (stE φ s).mem = forget s.mem from rfl, readSeg_forget h.mild]
    cases f.ptrImpl with
    | false => rfl
    | true =>
      cases hrt : f.rtype with
      | none => rfl
      | some rt =>
        cases readSeg s.mem s.p f.size with
        | none => rfl
        | some old =>
          simp only [Option.map_some]
          rw [show (bp pr).x.unmarshalText rt = pr.x.unmarshalText rt from rfl, (h.meth f hf rt hrt).2 (ha b rfl) old b]
          simp only
          rw [← forget_fit, writeSeg_forget h.mild]
          cases writeSeg s.mem s.p (fit f.size (pr.x.unmarshalText rt old b).1) with
          | none => rfl
          | some m =>
            simp only [Option.map_some]
            cases (pr.x.unmarshalText rt old b).2 <;> rfl
  | _ => rfl

theorem text_type {x : Ext} {ty : EType} {tv b : Bytes} (h : onString x ty tv = .text b) : ty = .textUnmarshaler := by
  cases ty with
  | textUnmarshaler => rfl
  | any => simp only [onString] at h; split at h <;> cases h
  | number => simp only [onString] at h; (repeat' split at h) <;> cases h
  | scalar k => cases k <;> simp only [onString] at h <;> (repeat' split at h) <;> cases h
  | quoted k =>
    cases k with
    | flt k => simp only [onString, storeFlt] at h; (repeat' split at h) <;> cases h
    | _ => simp only [onString] at h; (repeat' split at h) <;> cases h
  | _ => simp only [onString] at h; cases h

theorem noText_integer {x : Ext} {ty : EType} {tv b : Bytes} : onInteger x ty tv ≠ .text b := by
  intro h
  cases ty with
  | any => simp only [onInteger] at h; split at h <;> cases h
  | scalar k => cases k <;> simp only [onInteger, storeInt, storeFlt] at h <;> (repeat' split at h) <;> cases h
  | _ => simp only [onInteger] at h; cases h

theorem noText_number {x : Ext} {ty : EType} {tv b : Bytes} : onNumber x ty tv ≠ .text b := by
  intro h
  cases ty with
  | any => simp only [onNumber] at h; split at h <;> cases h
  | scalar k => cases k <;> simp only [onNumber, storeFlt] at h <;> (repeat' split at h) <;> cases h
  | _ => simp only [onNumber] at h; cases h

theorem noText_bool {x : Ext} {ty : EType} {v : Bool} {b : Bytes} : onBool x ty v ≠ .text b := by
  cases ty with
  | scalar k => cases k <;> simp [onBool]
  | _ => simp [onBool]

theorem noText_null {x : Ext} {ty : EType} {b : Bytes} : onNull x ty ≠ .text b := by cases ty <;> simp [onNull]

/-! ## Specialised slices -/

theorem elemOf_E (x : Ext) (src : Bytes) (k : SKind) (t : Token) : elemOf (bytesInput x) src k t = actE (elemOf x src k t) := by
  unfold elemOf
  cases t.type <;> cases k <;> try rfl
  · simp only; cases slice src t.index t.end_ <;> first | rfl | exact onInteger_E ..
  · rename_i k; simp only; cases slice src t.index t.end_ <;> first | rfl | (cases k <;> exact storeFlt_E ..)
  · rename_i k; simp only; cases slice src t.index t.end_ <;> first | rfl | (cases k <;> exact storeFlt_E ..)
  · simp only
    cases slice src (t.index + 1) (t.end_ - 1) with
    | none => rfl
    | some b =>
      simp only [Option.bind_some, unescStr_bytes]
      cases x.unescStr b <;> rfl

theorem blit_zeros (b : Block) (off n : Nat) : blit (forget b) off (zeros n) = (blit b off (zeros n)).map forget := by rw [← blit_forget, forget_zeros]

def resE : SliceRes → SliceRes
  | .ok a => .ok (forget a)
  | .err i e a => .err i e (forget a)
  | .crash => .crash

theorem sliceElems_E (x : Ext) (src : Bytes) (k : SKind) : ∀ (ts : List Token) (i : Nat) (arr : Block),
    sliceElems (bytesInput x) src k ts i (forget arr) = resE (sliceElems x src k ts i arr)
  | [], i, arr => rfl
  | t :: ts, i, arr => by
    simp only [sliceElems, elemOf_E, bytes_bytes]
    cases elemOf x src k t with
    | store n c =>
      simp only [actE]
      rw [← forget_seg, blit_forget]
      cases blit arr (i * k.bytes x) (seg n c) with
      | none => rfl
      | some arr => exact sliceElems_E x src k ts _ arr
    | clear n =>
      simp only [actE]
      rw [blit_zeros]
      cases blit arr (i * k.bytes x) (zeros n) with
      | none => rfl
      | some arr => exact sliceElems_E x src k ts _ arr
    | _ => rfl

theorem sliceHdr_E (c : Option Cell) : sliceHdr (c.map forgetC) = (sliceHdr c).map fun r => (r.1, r.2.1, forget r.2.2) := by
  rcases c with _ | c
  · rfl
  · cases c <;> rfl

theorem mapHdr_E (c : Option Cell) : mapHdr (c.map forgetC) = (mapHdr c).map fun r => r.map forgetM := by
  rcases c with _ | c
  · rfl
  · cases c <;> rfl

theorem mem_E (φ : Key → Key) (s : St) : (stE φ s).mem = forget s.mem := rfl
theorem ti_E (φ : Key → Key) (s : St) : (stE φ s).ti = s.ti := rfl
theorem si_E (φ : Key → Key) (s : St) : (stE φ s).si = s.si := rfl
theorem dyn_E (φ : Key → Key) (s : St) : (stE φ s).dyn = dE φ s.dyn := rfl
theorem pc_E (φ : Key → Key) (s : St) : (stE φ s).pc = s.pc := rfl

theorem slice_E (l c : Nat) (a : Block) : Cell.slice l c (forget a) = forgetC (.slice l c a) := rfl
theorem map_E (es : List (Key × Block)) : Cell.map (forgetM es) = forgetC (.map es) := rfl
theorem slice_nil (l c : Nat) : Cell.slice l c [] = forgetC (.slice l c []) := rfl
theorem map_nil : Cell.map [] = forgetC (.map []) := rfl

/-- A step that stores a cell. -/
theorem put_E {φ : Key → Key} (h : Mild φ) (s : St) (n : Nat) (c : Cell) {A B : Block → Out} (hAB : ∀ m, A (forget m) = outE φ (B m)) :
    (match writeSeg (forget s.mem) (ptrE φ s.p) (seg n (forgetC c)) with | none => Out.crash | some m => A m) =
      outE φ (match writeSeg s.mem s.p (seg n c) with | none => Out.crash | some m => B m) := by
  rw [writeSeg_seg h]
  cases writeSeg s.mem s.p (seg n c) with
  | none => rfl
  | some m => exact hAB m

theorem onSliceOf_E {pr : Prog} {φ : Key → Key} (h : Er pr φ) (s : St) (t : Token) (k : SKind) : onSliceOf (bp pr) (stE φ s) t k = outE φ (onSliceOf pr s t k) := by
  simp only [onSliceOf, stE_p, mem_E, W_bytes, bytes_bytes, readCell_forget h.mild, sliceHdr_E, ti_E]
  split
  · exact put_E h.mild s _ (.slice 0 0 []) fun m => rfl
  · rcases sliceHdr (readCell s.mem s.p) with _ | ⟨l, c, a⟩
    · rfl
    · simp only [Option.map_some]
      split
      · rfl
      · split
        · have := sliceElems_E pr.x pr.src k (List.drop (s.ti + 1) (List.take t.end_ pr.toks)) 0 (zeros (t.elements * k.bytes pr.x))
          rw [forget_zeros] at this
          rw [this]
          cases sliceElems pr.x pr.src k (List.drop (s.ti + 1) (List.take t.end_ pr.toks)) 0 (zeros (t.elements * k.bytes pr.x)) with
          | crash => rfl
          | err i e a => rfl
          | ok arr => exact put_E h.mild s _ (.slice _ _ arr) fun m => rfl
        · rw [← forget_take, sliceElems_E]
          cases sliceElems pr.x pr.src k (List.drop (s.ti + 1) (List.take t.end_ pr.toks)) 0 (List.take (t.elements * k.bytes pr.x) a) with
          | crash => rfl
          | err i e arr =>
            simp only [resE]
            rw [← forget_drop, ← forget_append]
            exact put_E h.mild s _ (.slice _ _ _) fun m => rfl
          | ok arr =>
            simp only [resE]
            rw [← forget_drop, ← forget_append]
            exact put_E h.mild s _ (.slice _ _ _) fun m => rfl

/-! ## `any` -/

theorem copyAnyM_map : ∀ ms, copyAnyM ms = ms.map fun m => (copyStr m.1, copyAny m.2)
  | [] => rfl
  | m :: ms => by simp [copyAnyM, copyAnyM_map ms]

theorem assocSet_E (k : Str) (v : AnyVal) : ∀ ms, assocSet (copyStr k) (copyAny v) (copyAnyM ms) = copyAnyM (assocSet k v ms)
  | [] => rfl
  | m :: ms => by
    have : ((copyStr m.1).bytes == (copyStr k).bytes) = (m.1.bytes == k.bytes) := rfl
    simp only [copyAnyM, assocSet, this]
    split
    · rfl
    · simp only [copyAnyM, assocSet_E k v ms]

def anyE : AnyRes → AnyRes
  | .ok v tail => .ok (copyAny v) tail
  | .err e => .err e
  | .crash => .crash

mutual
theorem decodeAny_E (x : Ext) (src : Bytes) : ∀ (n : Nat) (ts : List Token), decodeAny (bytesInput x) src n ts = anyE (decodeAny x src n ts)
  | 0, _ => by simp [decodeAny, anyE]
  | n + 1, [] => by simp [decodeAny, anyE]
  | n + 1, t :: ts => by
    simp only [decodeAny]
    cases t.type <;> try rfl
    · simp only
      cases slice src t.index t.end_ with
      | none => rfl
      | some tv =>
        simp only
        rw [show (bytesInput x).tokFloat64 tv = x.tokFloat64 tv from rfl]
        cases x.tokFloat64 tv <;> rfl
    · simp only
      cases slice src t.index t.end_ with
      | none => rfl
      | some tv =>
        simp only
        rw [show (bytesInput x).tokFloat64 tv = x.tokFloat64 tv from rfl]
        cases x.tokFloat64 tv <;> rfl
    · simp only
      cases slice src (t.index + 1) (t.end_ - 1) with
      | none => rfl
      | some tv =>
        simp only [Option.bind_some, unescStr_bytes]
        cases x.unescStr tv <;> rfl
    · exact decodeAnyElems_E x src n [] ts
    · simp only
      split
      · cases ts <;> rfl
      · exact decodeAnyMembers_E x src n [] ts
theorem decodeAnyElems_E (x : Ext) (src : Bytes) : ∀ (n : Nat) (l : List AnyVal) (ts : List Token), decodeAnyElems (bytesInput x) src n (copyAnyL l) ts = anyE (decodeAnyElems x src n l ts)
  | 0, _, _ => by simp [decodeAnyElems, anyE]
  | n + 1, _, [] => by simp [decodeAnyElems, anyE]
  | n + 1, l, t :: ts => by
    simp only [decodeAnyElems, decodeAny_E x src n (t :: ts)]
    split
    · rfl
    · cases decodeAny x src n (t :: ts) with
      | ok v tail =>
        have := decodeAnyElems_E x src n (l ++ [v]) tail
        rw [copyAnyL_map, List.map_append, ← copyAnyL_map] at this
        exact this
      | _ => rfl
theorem decodeAnyMembers_E (x : Ext) (src : Bytes) : ∀ (n : Nat) (m : List (Str × AnyVal)) (ts : List Token),
    decodeAnyMembers (bytesInput x) src n (copyAnyM m) ts = anyE (decodeAnyMembers x src n m ts)
  | 0, _, _ => by simp [decodeAnyMembers, anyE]
  | n + 1, _, [] => by simp [decodeAnyMembers, anyE]
  | n + 1, m, t :: ts => by
    simp only [decodeAnyMembers]
    split
    · rfl
    · cases slice src (t.index + 1) (t.end_ - 1) with
      | none => rfl
      | some key =>
        simp only [decodeAny_E x src n ts]
        cases decodeAny x src n ts with
        | ok v tail =>
          simp only [anyE, unescStr_bytes]
          cases x.unescStr key with
          | none => rfl
          | some k => simp only [Option.map_some, assocSet_E]; exact decodeAnyMembers_E x src n _ tail
        | _ => rfl
end

theorem onAny_E {pr : Prog} {φ : Key → Key} (h : Er pr φ) (s : St) (t : Token) :
    (match decodeAny (bp pr).x (bp pr).src ((bp pr).toks.length + 1) ((bp pr).toks.drop (stE φ s).ti) with
      | .crash => .crash
      | .err _ => .err t.index .unexpectedValue (stE φ s)
      | .ok v tail =>
        match writeSeg (stE φ s).mem (stE φ s).p (seg (2 * (bp pr).x.W) (.any v)) with
        | none => .crash
        | some m => .run { stE φ s with mem := m, ti := (bp pr).toks.length - tail.length, pc := .valEnd }) =
    outE φ (match decodeAny pr.x pr.src (pr.toks.length + 1) (pr.toks.drop s.ti) with
      | .crash => .crash
      | .err _ => .err t.index .unexpectedValue s
      | .ok v tail =>
        match writeSeg s.mem s.p (seg (2 * pr.x.W) (.any v)) with
        | none => .crash
        | some m => .run { s with mem := m, ti := pr.toks.length - tail.length, pc := .valEnd }) := by
  simp only [decodeAny_E, stE_p, mem_E, ti_E, W_bytes]
  cases decodeAny pr.x pr.src (pr.toks.length + 1) (List.drop s.ti pr.toks) with
  | crash => rfl
  | err e => rfl
  | ok v tail => exact put_E h.mild s _ (.any v) fun m => rfl

/-! ## Arrays -/

theorem growSlice_E (esz n : Nat) (co : Bool) (l c : Nat) (a : Block) : growSlice esz n co l c (forget a) = forgetC (growSlice esz n co l c a) := by
  unfold growSlice
  split
  · split <;> simp [forgetC]
  · rfl

theorem onArray_E {pr : Prog} {φ : Key → Key} (h : Er pr φ) (s : St) (f : Frame) (t : Token) : onArray (bp pr) (stE φ s) f t = outE φ (onArray pr s f t) := by
  unfold onArray
  cases f.type with
  | any => exact onAny_E h s t
  | array =>
    simp only [stE_p, dyn_E, si_E, ti_E]
    split
    · rfl
    · rw [dE_upd (f := fun y => { y with dest := s.p, len := 0, offset := 0 }) (by intro y; rfl)]; rfl
  | slice =>
    simp only [stE_p, dyn_E, si_E, ti_E, mem_E, W_bytes, readCell_forget h.mild, sliceHdr_E]
    cases pr.frames[s.si + 1]? with
    | none => rfl
    | some fe =>
      simp only
      split
      · exact put_E h.mild s _ (.slice 0 0 []) fun m => rfl
      · rcases sliceHdr (readCell s.mem s.p) with _ | ⟨l, c, a⟩
        · rfl
        · cases hp : s.p with
          | nil => rfl
          | stale => rfl
          | «at» ad =>
            simp only [Option.map_some, ptrE, growSlice_E]
            have := put_E h.mild s (3 * pr.x.W) (growSlice fe.size t.elements fe.type.isElemComposite l c a)
              (A := fun m => .run { stE φ s with mem := m, ti := s.ti + 1, si := s.si + 1, dyn := upd (dE φ s.dyn) (s.si + 1) fun y => { y with dest := .at ((addrE φ ad).into .arr), offset := 0 } })
              (B := fun m => .run { s with mem := m, ti := s.ti + 1, si := s.si + 1, dyn := upd s.dyn (s.si + 1) fun y => { y with dest := .at (ad.into .arr), offset := 0 } })
              (by
                intro m
                rw [dE_upd (f := fun y => { y with dest := .at (ad.into .arr), offset := 0 })]
                · rfl
                · intro y; simp only [dynE, ptrE]; rw [← addrE_into]; rfl)
            rw [hp] at this
            exact this
  | sliceRecur =>
    simp only [stE_p, dyn_E, si_E, ti_E, mem_E, W_bytes, readCell_forget h.mild, sliceHdr_E]
    cases pr.frames[f.recurFrame]? with
    | none => rfl
    | some fr =>
      simp only
      split
      · refine put_E h.mild s _ (.slice 0 0 []) fun m => ?_
        have : (dE φ s.dyn f.recurFrame).rstack.length = (s.dyn f.recurFrame).rstack.length := by simp [dE, dynE]
        simp only [this]
        split <;> rfl
      · rcases sliceHdr (readCell s.mem s.p) with _ | ⟨l, c, a⟩
        · rfl
        · cases hp : s.p with
          | nil => rfl
          | stale => rfl
          | «at» ad =>
            simp only [Option.map_some, ptrE, growSlice_E]
            have := put_E h.mild s (3 * pr.x.W) (growSlice fr.size t.elements true l c a)
              (A := fun m => .run { stE φ s with mem := m, ti := s.ti + 1, si := f.recurFrame, dyn := upd (dE φ s.dyn) f.recurFrame fun y =>
                  { y with dest := .at ((addrE φ ad).into .arr), offset := 0, rstack := ⟨y.dest, y.offset, s.si, pr.epoch⟩ :: y.rstack } })
              (B := fun m => .run { s with mem := m, ti := s.ti + 1, si := f.recurFrame, dyn := upd s.dyn f.recurFrame fun y =>
                  { y with dest := .at (ad.into .arr), offset := 0, rstack := ⟨y.dest, y.offset, s.si, pr.epoch⟩ :: y.rstack } })
              (by
                intro m
                rw [dE_upd (f := fun y => { y with dest := .at (ad.into .arr), offset := 0, rstack := ⟨y.dest, y.offset, s.si, pr.epoch⟩ :: y.rstack })]
                · rfl
                · intro y; simp only [dynE, ptrE]; rw [← addrE_into]; rfl)
            rw [hp] at this
            exact this
  | sliceEmptyStruct =>
    simp only [stE_p, mem_E, W_bytes]
    exact put_E h.mild s _ (.slice _ _ []) fun m => rfl
  | sliceOf k => exact onSliceOf_E h s t k
  | _ => rfl

/-! ## Objects -/

theorem unescAt_E (x : Ext) (b : Option Bytes) : b.bind (bytesInput x).unescStr = (b.bind x.unescStr).map copyStr := by
  cases b <;> simp [unescStr_bytes]

theorem mapAssign_E (ks : Str) (b : Block) (m : List (Key × Block)) :
    mapSSLoop.mapAssign (.str (copyStr ks)) (forget b) (forgetM m) = forgetM (mapSSLoop.mapAssign (.str ks) b m) := by
  have hm : Mild copyKey := copyKey_idem
  simp only [mapSSLoop.mapAssign]
  rw [show Key.str (copyStr ks) = copyKey (.str ks) from rfl, lookupKey_forget hm, putKey_forget hm]
  cases lookupKey (.str ks) m with
  | none => simp [forgetM_map]
  | some b' => rfl

theorem mapSSLoop_E (x : Ext) (src : Bytes) (W : Nat) : ∀ (n : Nat) (ts : List Token) (m : List (Key × Block)), ts.length ≤ n →
    mapSSLoop (bytesInput x) src W ts (forgetM m) = (mapSSLoop x src W ts m).map fun r => r.map forgetM
  | _, [], m, _ => rfl
  | _, [_], m, _ => rfl
  | n + 2, k :: v :: ts, m, hn => by
    have ih := fun m => mapSSLoop_E x src W n ts m (by simp at hn; omega)
    simp only [mapSSLoop, unescAt_E]
    cases v.type <;> try rfl
    · simp only
      cases (slice src (k.index + 1) (k.end_ - 1)).bind x.unescStr with
      | none => rfl
      | some ks =>
        cases (slice src (v.index + 1) (v.end_ - 1)).bind x.unescStr with
        | none => rfl
        | some vs =>
          have := mapAssign_E ks (seg (2 * W) (.str vs)) m
          rw [forget_seg] at this
          simp only [Option.map_some]
          rw [← ih, ← this]
          rfl
    · simp only
      cases (slice src (k.index + 1) (k.end_ - 1)).bind x.unescStr with
      | none => rfl
      | some ks =>
        have := mapAssign_E ks (zeros (2 * W)) m
        rw [forget_zeros] at this
        simp only [Option.map_some, this, ih]

theorem ensureMap_E {φ : Key → Key} (h : Mild φ) (W : Nat) (m : Block) (p : Ptr) : ensureMap W (forget m) (ptrE φ p) = (ensureMap W m p).map forget := by
  simp only [ensureMap, readCell_forget h, mapHdr_E]
  rcases mapHdr (readCell m p) with _ | _ | es
  · rfl
  · simp only [Option.map_some, Option.map_none]; rw [map_nil, writeSeg_seg h]; rfl
  · rfl

theorem ptrE_at (φ : Key → Key) (a : Addr) : Ptr.at (addrE φ a) = ptrE φ (.at a) := rfl

theorem onObject_E {pr : Prog} {φ : Key → Key} (h : Er pr φ) (s : St) (f : Frame) (t : Token) : onObject (bp pr) (stE φ s) f t = outE φ (onObject pr s f t) := by
  unfold onObject
  cases f.type with
  | any => exact onAny_E h s t
  | ptrRecur =>
    simp only [stE_p, dyn_E, si_E, ti_E, mem_E, W_bytes, readCell_forget h.mild]
    cases pr.frames[f.recurFrame]? with
    | none => rfl
    | some fr =>
      cases hp : s.p with
      | nil => rfl
      | stale => rfl
      | «at» ad =>
        have e1 : upd (upd (dE φ s.dyn) f.recurFrame fun y => { y with rstack := ⟨y.dest, y.offset, s.si, pr.epoch⟩ :: y.rstack }) f.recurFrame
            (fun y => { y with dest := .at ((addrE φ ad).into .deref) }) =
            dE φ (upd (upd s.dyn f.recurFrame fun y => { y with rstack := ⟨y.dest, y.offset, s.si, pr.epoch⟩ :: y.rstack }) f.recurFrame
            (fun y => { y with dest := .at (ad.into .deref) })) := by
          rw [dE_upd (f := fun y => { y with rstack := ⟨y.dest, y.offset, s.si, pr.epoch⟩ :: y.rstack }) (by intro y; rfl),
            dE_upd (f := fun y => { y with dest := .at (ad.into .deref) })]
          intro y
          simp only [dynE, ptrE]; rw [← addrE_into]; rfl
        have e2 : Ptr.at ((addrE φ ad).into .deref) = ptrE φ (.at (ad.into .deref)) := by simp only [ptrE]; rw [← addrE_into]; rfl
        have hz : Cell.ptr (zeros fr.size) = forgetC (.ptr (zeros fr.size)) := by simp [forgetC]
        rcases readCell s.mem (.at ad) with _ | c
        · rfl
        · cases c <;> try rfl
          · simp only [Option.map_some, forgetC, ptrE]
            rw [hz, ptrE_at, writeSeg_seg h.mild, ← hz]
            cases writeSeg s.mem (.at ad) (seg pr.x.W (.ptr (zeros fr.size))) with
            | none => rfl
            | some m =>
              simp only [Option.map_some]
              split
              · rw [e1]; rfl
              · rw [e1, e2, dE_fields]; rfl
          · simp only [Option.map_some, forgetC, ptrE]
            split
            · rw [e1]; rfl
            · rw [e1, e2, dE_fields]; rfl
  | mapRecur =>
    simp only [stE_p, dyn_E, si_E, ti_E, mem_E, W_bytes, ensureMap_E h.mild]
    cases pr.frames[f.recurFrame]? with
    | none => rfl
    | some fr =>
      simp only
      rw [dE_upd (f := fun y => { y with rstack := ⟨y.dest, y.offset, s.si, pr.epoch⟩ :: y.rstack }) (by intro y; rfl)]
      cases ensureMap pr.x.W s.mem s.p with
      | none => rfl
      | some m => simp only [Option.map_some]; split <;> rfl
  | map =>
    simp only [stE_p, ti_E, mem_E, W_bytes, ensureMap_E h.mild]
    cases ensureMap pr.x.W s.mem s.p with
    | none => rfl
    | some m => simp only [Option.map_some]; split <;> rfl
  | mapStringString =>
    simp only [stE_p, ti_E, mem_E, W_bytes]
    split
    · exact put_E h.mild s _ (.map []) fun m => rfl
    · split
      · rfl
      · have := mapSSLoop_E pr.x pr.src pr.x.W _ (List.drop (s.ti + 1) (List.take t.end_ pr.toks)) [] (Nat.le_refl _)
        rw [show forgetM [] = [] from rfl] at this
        rw [this]
        rcases mapSSLoop pr.x pr.src pr.x.W (List.drop (s.ti + 1) (List.take t.end_ pr.toks)) [] with _ | ⟨i, e⟩ | es
        · rfl
        · rfl
        · exact put_E h.mild s _ (.map es) fun m => rfl
  | struct =>
    simp only [stE_p, dyn_E, ti_E, dE_fields]
    split <;> rfl
  | structRecur =>
    simp only [stE_p, dyn_E, ti_E, dE_fields]
    split <;> rfl
  | _ => rfl

/-! ## Keys -/

theorem scanKeys_E (x : Ext) (src : Bytes) (o : Options) (fields : List (Bytes × Nat)) : ∀ (ts : List Token) (skip : Option Nat) (ti : Nat),
    scanKeys (bytesInput x) src o fields skip ts ti = scanKeys x src o fields skip ts ti
  | [], _, _ => rfl
  | t :: ts, skip, ti => by
    have hf : ∀ name, findField (bytesInput x) o fields name = findField x o fields name := fun name => rfl
    simp only [scanKeys, scanKeys_E x src o fields ts, hf]

theorem mapKeyOf_E {pr : Prog} {φ : Key → Key} (h : Er pr φ) (fk : Frame) (key : Bytes) :
    mapKeyOf (bytesInput pr.x) fk key = (mapKeyOf pr.x fk key).map fun r => r.map fun k => k.map φ := by
  unfold mapKeyOf
  cases fk.type with
  | textUnmarshaler =>
    simp only
    cases fk.ptrImpl <;> cases fk.rtype <;> cases Unescape.valid key <;> try rfl
    rename_i rt b
    simp only
    rw [show (bytesInput pr.x).unmarshalKey rt b = pr.x.unmarshalKey rt b from rfl]
    cases pr.x.unmarshalKey rt b with
    | error e => rfl
    | ok k => simp [Except.map, h.opq]
  | scalar k =>
    cases k with
    | str =>
      simp only [unescStr_bytes]
      cases hs : pr.x.unescStr key with
      | none => rfl
      | some s => simp [Except.map, h.str _ _ hs]
    | int k =>
      simp only [quotedInt_E]
      rcases quotedInt pr.x k key with _ | _ | v
      · rfl
      · rfl
      · simp [Except.map, h.int]
    | _ => rfl
  | _ => rfl

/-- The keys the program makes are copied by `φ`. -/
theorem mapKeyOf_copy {pr : Prog} {φ : Key → Key} (h : Er pr φ) {fk : Frame} {key : Bytes} {k : Key} (hk : mapKeyOf pr.x fk key = some (.ok (some k))) : φ k = copyKey k := by
  unfold mapKeyOf at hk
  split at hk
  · split at hk
    · split at hk <;> cases hk
      exact h.opq _
    · cases hk
  · rcases hs : pr.x.unescStr key with _ | s
    · rw [hs] at hk; cases hk
    · rw [hs] at hk; cases hk; exact h.str _ _ hs
  · split at hk <;> cases hk
    exact h.int _
  · cases hk

theorem assignEntry_E {φ : Key → Key} (h : Mild φ) (W vsz : Nat) (m : Block) (a : Addr) (k : Key) (hk : φ k = copyKey k) :
    assignEntry W vsz (forget m) (addrE φ a) (φ k) = (assignEntry W vsz m a k).map forget := by
  simp only [assignEntry, ptrE_at, readCell_forget h, mapHdr_E]
  rcases mapHdr (readCell m (.at a)) with _ | _ | es
  · rfl
  · rfl
  · simp only [Option.map_some, lookupKey_forget h]
    cases lookupKey k es with
    | some b => rfl
    | none =>
      simp only [Option.map_none]
      rw [← writeSeg_seg h]
      simp [forgetC, forgetM_append, forgetM, hk]

theorem mapAssignF_E {φ : Key → Key} (h : Mild φ) (W : Nat) (f fk : Frame) (m : Block) (a : Addr) (k : Key) (hk : φ k = copyKey k) :
    mapAssign W f fk (forget m) (addrE φ a) (φ k) = (mapAssign W f fk m a k).map forget := by
  unfold mapAssign
  split
  · rfl
  · exact assignEntry_E h W f.mapValueSize m a k hk

theorem onKey_E {pr : Prog} {φ : Key → Key} (h : Er pr φ) (s : St) (f : Frame) (t : Token) : onKey (bp pr) (stE φ s) f t = outE φ (onKey pr s f t) := by
  have hstruct : (match pr.options with
      | none => .crash
      | some o =>
        match scanKeys pr.x pr.src o f.fields none (pr.toks.drop s.ti) s.ti with
        | .crash => .crash
        | .unknown i => .err i .unknownField (stE φ s)
        | .brk ti => .run { stE φ s with ti := ti + 1 }
        | .found ti fi => .run { stE φ s with ti := ti + 1, si := fi }) = outE φ (match pr.options with
      | none => .crash
      | some o =>
        match scanKeys pr.x pr.src o f.fields none (pr.toks.drop s.ti) s.ti with
        | .crash => .crash
        | .unknown i => .err i .unknownField s
        | .brk ti => .run { s with ti := ti + 1 }
        | .found ti fi => .run { s with ti := ti + 1, si := fi }) := by
    cases pr.options with
    | none => rfl
    | some o => simp only; cases scanKeys pr.x pr.src o f.fields none (pr.toks.drop s.ti) s.ti <;> rfl
  have hmap : ∀ si : Nat, (match slice pr.src (t.index + 1) (t.end_ - 1), pr.frames[s.si + 1]?, ptrE φ s.p with
      | some key, some fk, .at ad =>
        match mapKeyOf (bytesInput pr.x) fk key with
        | none => Out.crash
        | some (.error e) => .err t.index e (stE φ s)
        | some (.ok k?) =>
          match (match k? with
            | none => some (forget s.mem, Ptr.nil)
            | some k => (mapAssign pr.x.W f fk (forget s.mem) ad k).map fun m => (m, .at (ad.into (.entry k)))) with
          | none => .crash
          | some (m, pNew) =>
            match pr.frames[si]? with
            | none => .crash
            | some fv =>
              if fv.type = .struct ∨ fv.type = .structRecur then
                match writeSeg m pNew (zeros f.mapValueSize) with
                | none => .crash
                | some m => .run { stE φ s with mem := m, dyn := upd (dE φ s.dyn) si fun y => { y with dest := pNew }, si := si, ti := s.ti + 1 }
              else .run { stE φ s with mem := m, dyn := upd (dE φ s.dyn) si fun y => { y with dest := pNew }, si := si, ti := s.ti + 1 }
      | _, _, _ => .crash) = outE φ (match slice pr.src (t.index + 1) (t.end_ - 1), pr.frames[s.si + 1]?, s.p with
      | some key, some fk, .at ad =>
        match mapKeyOf pr.x fk key with
        | none => Out.crash
        | some (.error e) => .err t.index e s
        | some (.ok k?) =>
          match (match k? with
            | none => some (s.mem, Ptr.nil)
            | some k => (mapAssign pr.x.W f fk s.mem ad k).map fun m => (m, .at (ad.into (.entry k)))) with
          | none => .crash
          | some (m, pNew) =>
            match pr.frames[si]? with
            | none => .crash
            | some fv =>
              if fv.type = .struct ∨ fv.type = .structRecur then
                match writeSeg m pNew (zeros f.mapValueSize) with
                | none => .crash
                | some m => .run { s with mem := m, dyn := upd s.dyn si fun y => { y with dest := pNew }, si := si, ti := s.ti + 1 }
              else .run { s with mem := m, dyn := upd s.dyn si fun y => { y with dest := pNew }, si := si, ti := s.ti + 1 }
      | _, _, _ => .crash) := by
    intro si
    cases slice pr.src (t.index + 1) (t.end_ - 1) with
    | none => rfl
    | some key =>
      cases pr.frames[s.si + 1]? with
      | none => rfl
      | some fk =>
        cases s.p with
        | nil => rfl
        | stale => rfl
        | «at» ad =>
          simp only [ptrE, mapKeyOf_E h]
          rcases hk : mapKeyOf pr.x fk key with _ | e | k?
          · rfl
          · rfl
          · simp only [Option.map_some, Except.map]
            have key : ∀ (m : Block) (q : Ptr), (match some (forget m, ptrE φ q) with
                | none => Out.crash
                | some (m, pNew) =>
                  match pr.frames[si]? with
                  | none => .crash
                  | some fv =>
                    if fv.type = .struct ∨ fv.type = .structRecur then
                      match writeSeg m pNew (zeros f.mapValueSize) with
                      | none => .crash
                      | some m => .run { stE φ s with mem := m, dyn := upd (dE φ s.dyn) si fun y => { y with dest := pNew }, si := si, ti := s.ti + 1 }
                    else .run { stE φ s with mem := m, dyn := upd (dE φ s.dyn) si fun y => { y with dest := pNew }, si := si, ti := s.ti + 1 }) =
                outE φ (match some (m, q) with
                | none => Out.crash
                | some (m, pNew) =>
                  match pr.frames[si]? with
                  | none => .crash
                  | some fv =>
                    if fv.type = .struct ∨ fv.type = .structRecur then
                      match writeSeg m pNew (zeros f.mapValueSize) with
                      | none => .crash
                      | some m => .run { s with mem := m, dyn := upd s.dyn si fun y => { y with dest := pNew }, si := si, ti := s.ti + 1 }
                    else .run { s with mem := m, dyn := upd s.dyn si fun y => { y with dest := pNew }, si := si, ti := s.ti + 1 }) := by
              intro m q
              simp only
              cases pr.frames[si]? with
              | none => rfl
              | some fv =>
                simp only
                rw [dE_upd (f := fun y => { y with dest := q }) (by intro y; rfl)]
                split
                · rw [writeSeg_zeros h.mild]
                  cases writeSeg m q (zeros f.mapValueSize) <;> rfl
                · rfl
            cases k? with
            | none => exact key s.mem .nil
            | some k =>
              simp only [Option.map_some, mapAssignF_E h.mild _ _ _ _ _ _ (mapKeyOf_copy h hk)]
              cases mapAssign pr.x.W f fk s.mem ad k with
              | none => rfl
              | some m =>
                have := key m (.at (ad.into (.entry k)))
                simp only [ptrE] at this
                rw [← addrE_into] at this
                exact this
  unfold onKey
  simp only [stE_p, dyn_E, si_E, ti_E, mem_E, W_bytes, scanKeys_E]
  cases f.type with
  | struct => exact hstruct
  | structRecur => exact hstruct
  | map => exact hmap _
  | mapRecur => exact hmap _
  | _ => rfl

/-! ## Ends -/

theorem rstack_E (φ : Key → Key) (d : Nat → Dyn) (i : Nat) : (dE φ d i).rstack = (d i).rstack.map (recE φ) := rfl

theorem destAt_E (φ : Key → Key) (r : RecFrame) (n : Nat) : (recE φ r).destAt n = ptrE φ (r.destAt n) := by
  obtain ⟨dest, off, c, e⟩ := r
  unfold RecFrame.destAt
  show (if e = n then ptrE φ dest else _) = ptrE φ (if e = n then dest else _)
  by_cases h : e = n
  · rw [if_pos h, if_pos h]
  · rw [if_neg h, if_neg h]
    cases dest <;> rfl

theorem popRec_E {pr : Prog} (φ : Key → Key) (d : Nat → Dyn) (i : Nat) (fields : List (Bytes × Nat)) (r : RecFrame) (rest : List RecFrame) :
    popRec (bp pr) (dE φ d) i fields (recE φ r) (rest.map (recE φ)) = dE φ (popRec pr d i fields r rest) := by
  simp only [popRec, destAt_E]
  rw [dE_upd (f := fun y => { y with dest := r.destAt pr.epoch, offset := r.offset, rstack := rest }) (by intro y; rfl), dE_fields]

theorem onObjectEnd_E {pr : Prog} {φ : Key → Key} (s : St) (f : Frame) : onObjectEnd (bp pr) (stE φ s) f = outE φ (onObjectEnd pr s f) := by
  unfold onObjectEnd
  cases f.type with
  | mapRecur =>
    simp only [dyn_E, rstack_E]
    cases pr.frames[f.recurFrame]? with
    | none => rfl
    | some fr =>
      cases (s.dyn f.recurFrame).rstack with
      | nil => rfl
      | cons r rest => simp only [List.map_cons, popRec_E]; rfl
  | _ => rfl

theorem onArrayEnd_E {pr : Prog} {φ : Key → Key} (s : St) (f : Frame) : onArrayEnd (bp pr) (stE φ s) f = outE φ (onArrayEnd pr s f) := by
  unfold onArrayEnd
  simp only [dyn_E, rstack_E, si_E]
  split
  · cases (s.dyn s.si).rstack with
    | nil => rfl
    | cons r rest =>
      simp only [List.map_cons, popRec_E]
      rw [show (recE φ r).container = r.container from rfl]
      cases pr.frames[r.container]? <;> rfl
  · rfl

theorem onRecurObjEnd_E {pr : Prog} {φ : Key → Key} (s : St) (f : Frame) : onRecurObjEnd (bp pr) (stE φ s) f = outE φ (onRecurObjEnd pr s f) := by
  unfold onRecurObjEnd
  simp only [dyn_E, rstack_E, si_E]
  cases (s.dyn s.si).rstack with
  | nil => rfl
  | cons r rest =>
    simp only [List.map_cons, popRec_E, destAt_E]
    rw [show (recE φ r).container = r.container from rfl]
    cases pr.frames[r.container]? with
    | none => rfl
    | some fc =>
      simp only
      cases fc.type with
      | sliceRecur => simp only; rw [dE_upd (f := fun y => { y with offset := y.offset + f.size }) (by intro y; rfl)]; rfl
      | mapRecur => simp only; rw [dE_upd (f := fun y => { y with dest := r.destAt pr.epoch }) (by intro y; rfl)]; rfl
      | _ => rfl

theorem onValEnd_E {pr : Prog} {φ : Key → Key} (s : St) (f : Frame) : onValEnd (bp pr) (stE φ s) f = outE φ (onValEnd pr s f) := by
  unfold onValEnd
  cases f.parent with
  | none => rfl
  | some si =>
    simp only
    cases pr.frames[si]? with
    | none => rfl
    | some fc =>
      simp only
      cases fc.type with
      | slice =>
        show Out.run { ti := s.ti, si := s.si, pc := .loop, dyn := upd (dE φ s.dyn) s.si fun y => { y with offset := y.offset + f.size }, mem := forget s.mem } = _
        rw [dE_upd (f := fun y => { y with offset := y.offset + f.size }) (by intro y; rfl)]; rfl
      | array =>
        have e1 : upd (dE φ s.dyn) s.si (fun y => { y with len := y.len + 1 }) = dE φ (upd s.dyn s.si fun y => { y with len := y.len + 1 }) :=
          dE_upd (f := fun y => { y with len := y.len + 1 }) (by intro y; rfl)
        have e2 : upd (dE φ (upd s.dyn s.si fun y => { y with len := y.len + 1 })) s.si (fun y => { y with offset := y.offset + f.size }) =
            dE φ (upd (upd s.dyn s.si fun y => { y with len := y.len + 1 }) s.si fun y => { y with offset := y.offset + f.size }) :=
          dE_upd (f := fun y => { y with offset := y.offset + f.size }) (by intro y; rfl)
        show (if (upd (dE φ s.dyn) s.si (fun y => { y with len := y.len + 1 }) s.si).len ≥ f.cap then
            (match skipExtra 1 (pr.toks.drop s.ti) with
            | none => Out.crash
            | some n => .run { ti := s.ti + n, si := s.si, pc := .loop, dyn := upd (dE φ s.dyn) s.si (fun y => { y with len := y.len + 1 }), mem := forget s.mem })
          else .run { ti := s.ti, si := s.si, pc := .loop, dyn := upd (upd (dE φ s.dyn) s.si (fun y => { y with len := y.len + 1 })) s.si (fun y => { y with offset := y.offset + f.size }), mem := forget s.mem }) =
          outE φ (if (upd s.dyn s.si (fun y => { y with len := y.len + 1 }) s.si).len ≥ f.cap then
            (match skipExtra 1 (pr.toks.drop s.ti) with
            | none => Out.crash
            | some n => .run { ti := s.ti + n, si := s.si, pc := .loop, dyn := upd s.dyn s.si (fun y => { y with len := y.len + 1 }), mem := s.mem })
          else .run { ti := s.ti, si := s.si, pc := .loop, dyn := upd (upd s.dyn s.si (fun y => { y with len := y.len + 1 })) s.si (fun y => { y with offset := y.offset + f.size }), mem := s.mem })
        rw [e1, e2]
        by_cases hc : (upd s.dyn s.si (fun y => { y with len := y.len + 1 }) s.si).len ≥ f.cap
        · rw [if_pos hc, if_pos (show (dE φ (upd s.dyn s.si fun y => { y with len := y.len + 1 }) s.si).len ≥ f.cap from hc)]
          cases skipExtra 1 (List.drop s.ti pr.toks) <;> rfl
        · rw [if_neg hc, if_neg (show ¬ (dE φ (upd s.dyn s.si fun y => { y with len := y.len + 1 }) s.si).len ≥ f.cap from hc)]
          rfl
      | _ => rfl

theorem onPtr_E {pr : Prog} {φ : Key → Key} (h : Er pr φ) (s : St) : onPtr (bp pr) (stE φ s) = outE φ (onPtr pr s) := by
  unfold onPtr
  simp only [dyn_E, si_E, ti_E, mem_E, stE_p, W_bytes]
  cases pr.frames[s.si + 1]? with
  | none => rfl
  | some fe =>
    simp only
    have hz : Cell.ptr (zeros fe.size) = forgetC (.ptr (zeros fe.size)) := by simp [forgetC]
    rw [hz, writeSeg_seg h.mild, ← hz]
    cases writeSeg s.mem s.p (seg pr.x.W (.ptr (zeros fe.size))) with
    | none => rfl
    | some m =>
      simp only [Option.map_some]
      split
      · rfl
      · cases s.p with
        | nil => rfl
        | stale => rfl
        | «at» ad =>
          simp only [ptrE]
          rw [dE_upd (f := fun y => { y with dest := .at (ad.into .deref) })]
          · rfl
          · intro y; simp only [dynE, ptrE]; rw [← addrE_into]; rfl

theorem onJSON_E {pr : Prog} {φ : Key → Key} (h : Er pr φ) (s : St) {f : Frame} (hf : f ∈ pr.frames) (hty : f.type = .jsonUnmarshaler) (t : Token) :
    onJSONUnmarshaler (bp pr) (stE φ s) f t = outE φ (onJSONUnmarshaler pr s f t) := by
  unfold onJSONUnmarshaler
  simp only [mem_E, stE_p, ti_E, readSeg_forget h.mild]
  rw [show rawValue (bp pr) s.ti t = rawValue pr s.ti t from rfl]
  rcases rawValue pr s.ti t with _ | ⟨raw, ti⟩
  · rfl
  · cases f.ptrImpl with
    | false => rfl
    | true =>
      cases hrt : f.rtype with
      | none => rfl
      | some rt =>
        cases readSeg s.mem s.p f.size with
        | none => rfl
        | some old =>
          simp only [Option.map_some]
          rw [show (bp pr).x.unmarshalJSON rt = pr.x.unmarshalJSON rt from rfl, (h.meth f hf rt hrt).1 hty old raw]
          simp only
          rw [← forget_fit, writeSeg_forget h.mild]
          cases writeSeg s.mem s.p (fit f.size (pr.x.unmarshalJSON rt old raw).1) with
          | none => rfl
          | some m =>
            simp only [Option.map_some]
            cases (pr.x.unmarshalJSON rt old raw).2 <;> rfl

/-! ## The loop -/

theorem dispatch_E {pr : Prog} {φ : Key → Key} (h : Er pr φ) (s : St) {f : Frame} (hf : f ∈ pr.frames) (t : Token) :
    dispatch (bp pr) (stE φ s) f t = outE φ (dispatch pr s f t) := by
  unfold dispatch
  cases t.type with
  | false_ => simp only [onBool_E]; exact exec_E h hf t _ fun b hb => absurd hb noText_bool
  | true_ => simp only [onBool_E]; exact exec_E h hf t _ fun b hb => absurd hb noText_bool
  | integer =>
    simp only
    cases slice pr.src t.index t.end_ with
    | none => rfl
    | some tv => simp only [onInteger_E]; exact exec_E h hf t _ fun b hb => absurd hb noText_integer
  | number =>
    simp only
    cases slice pr.src t.index t.end_ with
    | none => rfl
    | some tv => simp only [onNumber_E]; exact exec_E h hf t _ fun b hb => absurd hb noText_number
  | string =>
    simp only
    cases slice pr.src (t.index + 1) (t.end_ - 1) with
    | none => rfl
    | some tv => simp only [onString_E]; exact exec_E h hf t _ fun b hb => text_type hb
  | null => simp only [onNull_E]; exact exec_E h hf t _ fun b hb => absurd hb noText_null
  | array => exact onArray_E h s f t
  | object => exact onObject_E h s f t
  | key => exact onKey_E h s f t
  | objectEnd => exact onObjectEnd_E s f
  | arrayEnd => exact onArrayEnd_E s f

theorem step_E {pr : Prog} {φ : Key → Key} (h : Er pr φ) (s : St) (hj : Place.AtJSON pr s) : step (bp pr) (stE φ s) = outE φ (step pr s) := by
  unfold step
  simp only [pc_E, ti_E, si_E]
  cases hpc : s.pc with
  | loop =>
    simp only
    cases pr.toks[s.ti]? with
    | none => rfl
    | some t =>
      simp only
      cases hf : pr.frames[s.si]? with
      | none => rfl
      | some f => exact dispatch_E h s (List.mem_of_getElem? hf) t
  | recurObjEnd =>
    simp only
    cases pr.frames[s.si]? with
    | none => rfl
    | some f => exact onRecurObjEnd_E s f
  | valEnd =>
    simp only
    cases pr.frames[s.si]? with
    | none => rfl
    | some f => exact onValEnd_E s f
  | onPtr => exact onPtr_E h s
  | onJSON =>
    simp only
    cases pr.toks[s.ti]? with
    | none => rfl
    | some t =>
      cases hf : pr.frames[s.si]? with
      | none => rfl
      | some f =>
        obtain ⟨⟨f', -, hf', hty⟩, -⟩ := hj hpc
        cases hf.symm.trans hf'
        exact onJSON_E h s (List.mem_of_getElem? hf) hty t

theorem run_E {pr : Prog} {φ : Key → Key} (h : Er pr φ) : ∀ (n : Nat) (s : St), Place.AtJSON pr s → run (bp pr) n (stE φ s) = outE φ (run pr n s)
  | 0, s, _ => rfl
  | n + 1, s, hj => by
    simp only [run, step_E h s hj]
    cases hs : step pr s with
    | run s1 => exact run_E h n s1 (Place.step_json hs)
    | _ => rfl

def decE (φ : Key → Key) (d : Decoder) : Decoder := { d with dyn := dE φ d.dyn }
def resultE (φ : Key → Key) (r : DecodeRes) : DecodeRes := { r with mem := r.mem.map forget, dec := decE φ r.dec }

theorem resetDests_E (φ : Key → Key) (d : Nat → Dyn) : resetDests (dE φ d) = dE φ (resetDests d) := rfl

theorem initSt_E (φ : Key → Key) (d : Nat → Dyn) (mem : Block) : initSt (dE φ d) (forget mem) = stE φ (initSt d mem) := by
  simp only [initSt, stE]
  rw [dE_upd (f := fun y => { y with dest := .at ⟨[], 0⟩ }) (by intro y; rfl)]

/-- `Decode` with byte input, keys and destination with strings of their own: the same, with strings of their own. -/
theorem decode_E {x : Ext} {d : Decoder} {φ : Key → Key} (hm : Mild φ) (hs : ∀ b s, x.unescStr b = some s → φ (.str s) = .str (copyStr s)) (hi : ∀ i, φ (.int i) = .int i)
    (ho : ∀ b, φ (.opaque b) = .opaque b) (hc : MethodsCopy x d) (src : Bytes) (doc : Except (Nat × Nat) JVal) (t : Option Block) (o : Option Options) :
    decode (bytesInput x) (decE φ d) src doc (t.map forget) o = (decode x d src doc t o).map (resultE φ) := by
  cases t with
  | none => rfl
  | some mem =>
    cases doc with
    | error ie =>
      obtain ⟨i, c⟩ := ie
      simp only [decode, Option.map_some]
      show (if d.frames = [] then none else some (DecodeRes.mk i (some (.syntax c)) (some (forget mem)) { d with dyn := resetDests (initSt (dE φ d.dyn) (forget mem)).dyn })) = _
      rw [initSt_E]
      by_cases h : d.frames = []
      · rw [if_pos h, if_pos h]; rfl
      · rw [if_neg h, if_neg h]; rfl
    | ok v =>
      simp only [decode, Option.map_some, decE]
      cases hfr : d.frames with
      | nil => rfl
      | cons f0 fs =>
        simp only
        have he : Er { x := x, src := src, toks := flatten 0 v, frames := f0 :: fs, options := o, epoch := d.calls } φ :=
          ⟨hm, hs, hi, ho, fun f hf rt hrt => hc f (by rw [hfr]; exact hf) rt hrt⟩
        have hr := run_E he (fuelFor { x := x, src := src, toks := flatten 0 v, frames := f0 :: fs, options := o, epoch := d.calls }) (initSt d.dyn mem) (fun h => by cases h)
        rw [initSt_E]
        change (match run _ (fuelFor { x := x, src := src, toks := flatten 0 v, frames := f0 :: fs, options := o, epoch := d.calls }) (stE φ (initSt d.dyn mem)) with
          | .err i e s => _ | .done s => _ | _ => _) = _
        rw [hr]
        cases run { x := x, src := src, toks := flatten 0 v, frames := f0 :: fs, options := o, epoch := d.calls } _ (initSt d.dyn mem) with
        | run s => rfl
        | crash => rfl
        | err i e s => rfl
        | done s =>
          simp only [outE, mem_E, dyn_E]
          rw [show (dE φ s.dyn 0).dest = ptrE φ (s.dyn 0).dest from rfl, readSeg_forget hm]
          cases readSeg s.mem (s.dyn 0).dest f0.size with
          | none => rfl
          | some b =>
            simp only [Option.map_some, Option.bind_some, blit_forget]
            cases blit s.mem 0 b <;> rfl

end Verif.Proof.Alias
