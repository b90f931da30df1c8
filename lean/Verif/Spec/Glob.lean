/-
What glob patterns mean, following the documentation of `DataCollection.select`
(/repo/karabo_data/reader.py:870-882), independently of any code.
-/
namespace KD.Spec

/-- A thing inside square brackets: one character, or a range of characters. -/
inductive ClassItem where
  | char (c : Char)
  | range (a b : Char)

/-- How the item is written. -/
def ClassItem.text : ClassItem → List Char
  | .char c => [c]
  | .range a b => [a, '-', b]

/-- Which characters it stands for. -/
def ClassItem.has : ClassItem → Char → Prop
  | .char a, c => c = a
  | .range a b, c => a ≤ c ∧ c ≤ b

/-- Characters which have no special meaning inside square brackets. -/
def plainInClass (c : Char) : Prop := c ≠ ']' ∧ c ≠ '-' ∧ c ≠ '!'

/-- The item uses only plain characters. -/
def ClassItem.Plain : ClassItem → Prop
  | .char c => plainInClass c
  | .range a b => plainInClass a ∧ plainInClass b

/-- An element of a pattern. -/
inductive Elem where
  | star                              -- `*`: anything
  | any                               -- `?`: any single character
  | oneOf (items : List ClassItem)    -- `[xyz]`, `[0-9]`: one character of these
  | noneOf (items : List ClassItem)   -- `[!xyz]`: one character, not any of these
  | lit (c : Char)                    -- anything else matches exactly

/-- How the element is written. -/
def Elem.text : Elem → List Char
  | .star => ['*']
  | .any => ['?']
  | .oneOf items => '[' :: (items.flatMap ClassItem.text ++ [']'])
  | .noneOf items => '[' :: '!' :: (items.flatMap ClassItem.text ++ [']'])
  | .lit c => [c]

/-- Elements which can be written: literals are not wildcards, brackets are not empty. -/
def Elem.WellFormed : Elem → Prop
  | .star => True
  | .any => True
  | .oneOf items => items ≠ [] ∧ ∀ i ∈ items, i.Plain
  | .noneOf items => items ≠ [] ∧ ∀ i ∈ items, i.Plain
  | .lit c => c ≠ '*' ∧ c ≠ '?' ∧ c ≠ '['

/-- Which pieces of text the element matches. -/
def Elem.Matches : Elem → List Char → Prop
  | .star, _ => True
  | .any, p => ∃ c, p = [c]
  | .oneOf items, p => ∃ c, p = [c] ∧ ∃ i ∈ items, i.has c
  | .noneOf items, p => ∃ c, p = [c] ∧ ∀ i ∈ items, ¬ i.has c
  | .lit a, p => p = [a]

/-- A list of pieces matches a list of elements one by one. -/
def PiecesMatch : List Elem → List (List Char) → Prop
  | [], [] => True
  | e :: es, p :: ps => e.Matches p ∧ PiecesMatch es ps
  | _, _ => False

/-- The text matches the pattern: it can be cut into pieces matching the elements in turn. -/
def GlobMatches (es : List Elem) (s : List Char) : Prop :=
  ∃ ps : List (List Char), s = ps.flatten ∧ PiecesMatch es ps

/-- What the text between square brackets stands for: `x-y` is a range, read from the left, and every other character stands
for itself (so a `-` which is first or last does). -/
inductive ItemsOf : List Char → List ClassItem → Prop
  | nil : ItemsOf [] []
  | range {a b : Char} {r : List Char} {l : List ClassItem} : ItemsOf r l → ItemsOf (a :: '-' :: b :: r) (.range a b :: l)
  | char {a : Char} {r : List Char} {l : List ClassItem} : (¬ ∃ b r', r = '-' :: b :: r') → ItemsOf r l →
      ItemsOf (a :: r) (.char a :: l)

/-- How any pattern is read as elements, from the left. A bracket ends at the first `]` after it which is not its first
character (nor the first after `!`); a bracket which is never closed in this way stands for itself. -/
inductive Reads : List Char → List Elem → Prop
  | nil : Reads [] []
  | star {p : List Char} {es : List Elem} : Reads p es → Reads ('*' :: p) (.star :: es)
  | any {p : List Char} {es : List Elem} : Reads p es → Reads ('?' :: p) (.any :: es)
  | lit {c : Char} {p : List Char} {es : List Elem} : c ≠ '*' → c ≠ '?' → c ≠ '[' → Reads p es →
      Reads (c :: p) (.lit c :: es)
  | oneOf {c : Char} {t p : List Char} {l : List ClassItem} {es : List Elem} : c ≠ '!' → ']' ∉ t → ItemsOf (c :: t) l →
      Reads p es → Reads ('[' :: c :: t ++ ']' :: p) (.oneOf l :: es)
  | noneOf {c : Char} {t p : List Char} {l : List ClassItem} {es : List Elem} : ']' ∉ t → ItemsOf (c :: t) l →
      Reads p es → Reads ('[' :: '!' :: c :: t ++ ']' :: p) (.noneOf l :: es)
  | unclosed {p : List Char} {es : List Elem} : (∀ t r, p = t ++ ']' :: r → t = [] ∨ t = ['!']) → Reads p es →
      Reads ('[' :: p) (.lit '[' :: es)

end KD.Spec
