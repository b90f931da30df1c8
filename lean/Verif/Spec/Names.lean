/-
What is meant by the names of proposals, runs and files, and how Python reads what is between the brackets of `by_id[...]`.
-/
import Verif.Model.Names

namespace KD.Spec

/-! ### Proposals and runs -/

/-- The decimal digits of n, with zeros before them up to w digits. -/
def padded (w n : Nat) : Str := List.replicate (w - (Nat.toDigits 10 n).length) '0' ++ Nat.toDigits 10 n

/-- The ways to give the number n, as documented: an int, its digits (with zeros before them up to w digits), or the full name. -/
inductive Form (letter : Char) (w n : Nat) : NumArg → Prop where
  | int : Form letter w n (.int n)
  | digits (k : Nat) (h : k = 0 ∨ k + (Nat.toDigits 10 n).length ≤ w) : Form letter w n (.str (List.replicate k '0' ++ Nat.toDigits 10 n))
  | full : Form letter w n (.str (letter :: padded w n))

/-! ### File names -/

/-- The path ends with the name `rawcorr-run-src-seg` and three more characters (`.h5`), perhaps in a directory. -/
def HasName (path rawcorr run src seg : Str) : Prop :=
  '-' ∉ rawcorr ∧ '-' ∉ run ∧ '-' ∉ src ∧ '-' ∉ seg ∧ ∃ ext b, ext.length = 3 ∧ b = rawcorr ++ '-' :: run ++ '-' :: src ++ '-' :: seg ++ ext ∧
    '/' ∉ b ∧ (path = b ∨ ∃ dir, path = dir ++ '/' :: b)

/-- The source in a file name begins with capital letters and digits. -/
def IsSrc (src det n : Str) : Prop :=
  det ≠ [] ∧ n ≠ [] ∧ (∀ c ∈ det, 'A' ≤ c ∧ c ≤ 'Z') ∧ (∀ c ∈ n, c.isDigit) ∧ ∃ rest, src = det ++ n ++ rest ∧ ∀ c ∈ rest.head?, ¬ c.isDigit

/-! ### Reading an index expression, as Python does -/

/-- Without spaces at both ends. -/
def strip (s : Str) : Str := ((s.dropWhile (· = ' ')).reverse.dropWhile (· = ' ')).reverse

/-- Digits. -/
def readNat (s : Str) : Option Nat := if s ≠ [] ∧ s.all Char.isDigit then some (Nat.ofDigitChars 10 s 0) else none

/-- An integer. -/
def readInt : Str → Option Int
  | '-' :: s => (readNat s).map (fun n : Nat => -(n : Int))
  | s => (readNat s).map (fun n : Nat => (n : Int))

/-- A part of a slice: nothing, or an integer. -/
def readBound (s : Str) : Option (Option Int) := if s = [] then some none else (readInt s).map some

/-- Split at the commas which are not in brackets; `d` counts open brackets. -/
def splitTop : Nat → Str → List Str
  | _, [] => [[]]
  | d, c :: s =>
    if c = ',' ∧ d = 0 then [] :: splitTop 0 s
    else
      let rest := splitTop (if c = '[' then d + 1 else if c = ']' then d - 1 else d) s
      (c :: rest.headD []) :: rest.tail

/-- A list of integers, without the brackets. -/
def readList (s : Str) : Option (List Int) := if s = [] then some [] else (splitTop 0 s).mapM (fun p => readInt (strip p))

/-- A slice or an integer. -/
def readSlice (s : Str) : Option IxItem :=
  match splitCh ':' s with
  | [a] => (readInt (strip a)).map .int
  | [a, b] =>
    match readBound (strip a), readBound (strip b) with
    | some x, some y => some (.slice x y none)
    | _, _ => none
  | [a, b, c] =>
    match readBound (strip a), readBound (strip b), readBound (strip c) with
    | some x, some y, some z => some (.slice x y z)
    | _, _, _ => none
  | _ => none

/-- One index. -/
def readItem (s : Str) : Option IxItem :=
  if s = ['.', '.', '.'] then some .ellipsis
  else
    match s with
    | '[' :: t => if t.getLast? = some ']' then (readList (strip t.dropLast)).map .list else none
    | _ => readSlice s

/-- What is between the brackets: one index, or a tuple when there are commas; a comma may be at the end. -/
def readIndex (s : Str) : Option IxValue :=
  match splitTop 0 s with
  | [] => none
  | [a] => (readItem (strip a)).map .one
  | parts => ((if strip (parts.getLastD []) = [] then parts.dropLast else parts).mapM (fun p => readItem (strip p))).map .tuple

/-- `cls[...]`. -/
def readSelection (cls s : Str) : Option IxValue :=
  if (cls ++ ['[']).isPrefixOf s ∧ s.getLast? = some ']' then readIndex ((s.drop (cls.length + 1)).dropLast) else none

end KD.Spec
