import Verif.Model.Tokens
/-!
# A small JSON parser, used to write the documents of examples and refutations as text

It plays the role of the tokenizer in concrete cases. No theorem about all documents depends on it.
-/
namespace Verif.Spec
open Verif.Model

/-- White space. -/
def isWs (c : UInt8) : Bool := c == 32 || c == 9 || c == 10 || c == 13

/-- Skip white space. -/
def skipWs : Bytes → Nat → Bytes × Nat
  | c :: cs, i => if isWs c then skipWs cs (i + 1) else (c :: cs, i)
  | [], i => ([], i)

/-- Characters of a number. -/
def isNumChar (c : UInt8) : Bool := (48 ≤ c && c ≤ 57) || c == 45 || c == 43 || c == 46 || c == 101 || c == 69

/-- Scan the characters of a number: whether it is an integer, the rest and its position. -/
def scanNum : Bytes → Nat → Bool → Bool × Bytes × Nat
  | c :: cs, i, isInt => if isNumChar c then scanNum cs (i + 1) (isInt && !(c == 46 || c == 101 || c == 69)) else (isInt, c :: cs, i)
  | [], i, isInt => (isInt, [], i)

/-- Scan string contents up to and including the closing quote. -/
def scanStr : Bytes → Nat → Option (Bytes × Nat)
  | 34 :: cs, i => some (cs, i + 1)
  | 92 :: _ :: cs, i => scanStr cs (i + 2)
  | _ :: cs, i => scanStr cs (i + 1)
  | [], _ => none

mutual
/-- A value starting at position `i`; returns it with the rest of the text and its position. -/
def parseVal : Nat → Bytes → Nat → Option (JVal × Bytes × Nat)
  | 0, _, _ => none
  | fuel + 1, s, i =>
    let (s, i) := skipWs s i
    match s with
    | 110 :: 117 :: 108 :: 108 :: cs => some (.null i (i + 4), cs, i + 4)
    | 116 :: 114 :: 117 :: 101 :: cs => some (.bool true i (i + 4), cs, i + 4)
    | 102 :: 97 :: 108 :: 115 :: 101 :: cs => some (.bool false i (i + 5), cs, i + 5)
    | 34 :: cs => (scanStr cs (i + 1)).map fun (cs, e) => (.str i e, cs, e)
    | 91 :: cs =>
      let (cs, j) := skipWs cs (i + 1)
      match cs with
      | 93 :: cs => some (.arr i [] j, cs, j + 1)
      | _ => parseElems fuel cs j i []
    | 123 :: cs =>
      let (cs, j) := skipWs cs (i + 1)
      match cs with
      | 125 :: cs => some (.obj i [] j, cs, j + 1)
      | _ => parseMembers fuel cs j i []
    | c :: cs =>
      if isNumChar c then
        let (isInt, cs, e) := scanNum (c :: cs) i true
        some (.num isInt i e, cs, e)
      else none
    | [] => none
termination_by structural n => n
/-- The elements of the array opened at `i0`. -/
def parseElems : Nat → Bytes → Nat → Nat → List JVal → Option (JVal × Bytes × Nat)
  | 0, _, _, _, _ => none
  | fuel + 1, s, i, i0, acc =>
    match parseVal fuel s i with
    | none => none
    | some (v, s, i) =>
      let (s, i) := skipWs s i
      match s with
      | 44 :: s => parseElems fuel s (i + 1) i0 (acc ++ [v])
      | 93 :: s => some (.arr i0 (acc ++ [v]) i, s, i + 1)
      | _ => none
termination_by structural n => n
/-- The members of the object opened at `i0`. -/
def parseMembers : Nat → Bytes → Nat → Nat → List ((Nat × Nat) × JVal) → Option (JVal × Bytes × Nat)
  | 0, _, _, _, _ => none
  | fuel + 1, s, i, i0, acc =>
    let (s, i) := skipWs s i
    match s with
    | 34 :: cs =>
      match scanStr cs (i + 1) with
      | none => none
      | some (s, e) =>
        let (s, j) := skipWs s e
        match s with
        | 58 :: s =>
          match parseVal fuel s (j + 1) with
          | none => none
          | some (v, s, k) =>
            let (s, k) := skipWs s k
            match s with
            | 44 :: s => parseMembers fuel s (k + 1) i0 (acc ++ [((i, e), v)])
            | 125 :: s => some (.obj i0 (acc ++ [((i, e), v)]) k, s, k + 1)
            | _ => none
        | _ => none
    | _ => none
termination_by structural n => n
end

/-- The document of a text. -/
def parseDoc (s : Bytes) : Option JVal :=
  match parseVal (s.length + 1) s 0 with
  | some (v, rest, i) => if (skipWs rest i).1 = [] then some v else none
  | none => none

/-- The document of a text, as the tokenizer reports it: an error (at index 0) if the text is not valid. -/
def tokenize (s : Bytes) : Except (Nat × Nat) JVal :=
  match parseDoc s with
  | some v => .ok v
  | none => .error (0, 1)

end Verif.Spec
