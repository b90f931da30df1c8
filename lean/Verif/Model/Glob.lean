/-
Model of the glob patterns of `DataCollection._select_glob`: Python's `fnmatch.translate` followed by `re.match`
(used at /repo/karabo_data/reader.py:811-838). The standard library is modelled at the level of pattern elements,
not of regular expression text.
-/
import Verif.Model.Py

namespace KD

/-- One element of a glob pattern. `cls neg items` is `[...]` or `[!...]`; an item is a range of characters. -/
inductive Tok where
  | star
  | any
  | lit (c : Char)
  | cls (neg : Bool) (items : List (Char × Char))
  deriving DecidableEq, Repr

/-- The content of a bracket up to the closing `]`, and what follows it; `none` if there is no closing bracket
(`fnmatch.translate`, scanning `while j < n and pat[j] != ']'`). -/
def scanClass : Str → Option (Str × Str)
  | [] => none
  | c :: cs =>
    if c = ']' then some ([], cs)
    else match scanClass cs with
      | none => none
      | some (a, b) => some (c :: a, b)

/-- The items of a character class: `x-y` is a range, any other character stands for itself
(regular expression syntax for the class that `fnmatch.translate` produces).
Simplification: a reversed range such as `z-a` (a `re.error` in Python) is an item matching nothing. -/
def classItems : Str → List (Char × Char)
  | a :: b :: c :: r => if b = '-' then (a, c) :: classItems r else (a, a) :: classItems (b :: c :: r)
  | [a, b] => [(a, a), (b, b)]
  | [a] => [(a, a)]
  | [] => []

/-- The bracket starting after `[`: `fnmatch.translate`'s handling of `!` and of a `]` in first place.
Returns the element and the rest of the pattern, or `none` when the bracket is not closed. -/
def parseClass (pat : Str) : Option (Tok × Str) :=
  let (neg, body) := match pat with
    | '!' :: r => (true, r)
    | r => (false, r)
  match body with
  | ']' :: r =>
    match scanClass r with
    | none => none
    | some (a, rest) => some (.cls neg (classItems (']' :: a)), rest)
  | r =>
    match scanClass r with
    | none => none
    | some (a, rest) => some (.cls neg (classItems a), rest)

/-- `fnmatch.translate(pat)` as a list of elements; an unclosed `[` stands for itself.
`fuel` bounds the recursion; `globToks` supplies the length of the pattern, which always suffices. -/
def globToksAux : Nat → Str → List Tok
  | 0, _ => []
  | _ + 1, [] => []
  | fuel + 1, c :: cs =>
    if c = '*' then .star :: globToksAux fuel cs
    else if c = '?' then .any :: globToksAux fuel cs
    else if c = '[' then
      match parseClass cs with
      | none => .lit '[' :: globToksAux fuel cs
      | some (t, rest) => t :: globToksAux fuel rest
    else .lit c :: globToksAux fuel cs

/-- `fnmatch.translate(pat)`. -/
def globToks (pat : Str) : List Tok := globToksAux pat.length pat

/-- Does one element match one character (elements other than `*`)? -/
def tokChar : Tok → Char → Bool
  | .star, _ => false
  | .any, _ => true
  | .lit a, c => a == c
  | .cls neg items, c => (items.any (fun r => decide (r.1 ≤ c) && decide (c ≤ r.2))) != neg

/-- All ways to drop a prefix of a string. -/
def suffixes : Str → List Str
  | [] => [[]]
  | c :: cs => (c :: cs) :: suffixes cs

/-- `re.match(translate(pat), s)`: the whole string must match. -/
def matchToks : List Tok → Str → Bool
  | [], s => s.isEmpty
  | .star :: ts, s => (suffixes s).any (matchToks ts)
  | _ :: _, [] => false
  | t :: ts, c :: s => tokChar t c && matchToks ts s

/-- `fnmatch` style match of a whole string with a pattern. -/
def globMatch (pat s : Str) : Bool := matchToks (globToks pat) s

/-- The pattern with `(\.value)?` added at its end, reader.py:817-820. -/
def globMatchOptValue (pat s : Str) : Bool :=
  globMatch pat s ||
    (endsWith s ch! ".value" && globMatch pat (s.take (s.length - 6)))

end KD
