/-
What the text of a CrystFEL geometry file says: lines with a key, `=` and a value; what follows a semicolon is a comment.
-/
import Verif.Model.CrystFELText
import Verif.Spec.CrystFEL

namespace KD.Geo.Spec

variable {K : Type} [Field K] [LinearOrder K] [IsStrictOrderedRing K] [FloorRing K]

/-- Spaces and tabs. -/
def blank (c : Char) : Bool := c = ' ' || c = '\t'

/-- The text without spaces and tabs at its ends. -/
def trim (s : Str) : Str := (s.reverse.dropWhile blank).reverse.dropWhile blank

/-- What a line sets: the key and the value. -/
def setting (line : Str) : Option (Str × Str) :=
  let body := line.takeWhile (fun c => c ≠ ';')
  if '=' ∈ body then some (trim (body.takeWhile (fun c => c ≠ '=')), trim ((body.dropWhile (fun c => c ≠ '=')).drop 1)) else none

/-- All settings of a text, in order. -/
def settings (text : Str) : List (Str × Str) := (text.splitOn '\n').filterMap setting

/-- A value as text: vectors like `+1.0x -0.1y`, or with z. -/
def value (F : NumFmt K) : CfVal K → Str
  | .num x => F.plain x
  | .int n => intStr n
  | .vec x y none => F.signed x ++ ch! "x " ++ F.signed y ++ ch! "y"
  | .vec x y (some z) => F.signed x ++ ch! "x " ++ F.signed y ++ ch! "y " ++ F.signed z ++ ch! "z"
  | .text s => s

/-- What a line sets, as text: the keys of panels have the name of the panel and a slash before. -/
def meaning (F : NumFmt K) : CfLine K → Option (Str × Str)
  | .comment => none
  | .top key v => some (key, value F v)
  | .panel name key v => some (name ++ '/' :: key, value F v)

/-- Text which can be a value: no semicolon or line break, no spaces or tabs at its ends. -/
structure Clean (s : Str) : Prop where
  chars : ∀ c ∈ s, c ≠ ';' ∧ c ≠ '\n'
  first : ∀ c, s.head? = some c → blank c = false
  last : ∀ c, s.getLast? = some c → blank c = false

/-- Numbers are written without these characters, as in `-1.5e-05`. -/
def NumberText (s : Str) : Prop := ∀ c ∈ s, c ∉ ch! ";\n\t =xyz"

/-- Numbers are written so that they can be told from each other. -/
structure Formats (F : NumFmt K) : Prop where
  plain_text : ∀ x, NumberText (F.plain x)
  signed_text : ∀ x, NumberText (F.signed x)
  plain_inj : ∀ x y, F.plain x = F.plain y → x = y
  signed_inj : ∀ x y, F.signed x = F.signed y → x = y

/-- The texts given by the user can be values. -/
structure CleanOptions (o : CfOptions K) : Prop where
  data : Clean o.dataPath
  mask : ∀ s, o.maskPath = some s → Clean s
  dims : ∀ s, .name s ∈ o.dims → Clean s

end KD.Geo.Spec
