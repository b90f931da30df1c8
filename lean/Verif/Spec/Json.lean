/-
JSON values which can be written, and how floats are written.
-/
import Verif.Model.Json

namespace KD.Spec

/-- One or more decimal digits. -/
def Digits (s : Str) : Prop := s ≠ [] ∧ ∀ c ∈ s, c.isDigit = true

/-- A float as Python writes it: sign, integer part without leading zeros, fraction, exponent; with a fraction or an exponent. -/
def FloatText (s : Str) : Prop :=
  ∃ sign int frac exp, s = sign ++ int ++ frac ++ exp ∧ (sign = [] ∨ sign = ['-']) ∧
    (int = ['0'] ∨ Digits int ∧ int.head? ≠ some '0') ∧
    (frac = [] ∨ ∃ ds, Digits ds ∧ frac = '.' :: ds) ∧
    (exp = [] ∨ ∃ e sgn ds, (e = 'e' ∨ e = 'E') ∧ (sgn = [] ∨ sgn = ['-'] ∨ sgn = ['+']) ∧ Digits ds ∧ exp = e :: (sgn ++ ds)) ∧
    (frac ≠ [] ∨ exp ≠ [])

/-- `repr` of floats gives texts of floats, and reading these gives the float again. -/
def ReprFloat (repr : Nat → Str) (float : Str → Nat) : Prop := ∀ x, FloatText (repr x) ∧ float (repr x) = x

/-- A high surrogate directly before a low one. -/
def HasPair (s : List Nat) : Prop := ∃ a h l b, s = a ++ h :: l :: b ∧ 0xd800 ≤ h ∧ h ≤ 0xdbff ∧ 0xdc00 ≤ l ∧ l ≤ 0xdfff

/-- A Python string which JSON can write: code points, with no pair of surrogates. -/
def JsonString (s : List Nat) : Prop := (∀ n ∈ s, n < 0x110000) ∧ ¬ HasPair s

mutual
/-- A value which JSON can write: strings are as above, floats are finite, the keys of a dictionary are different. -/
def JsonOk : Json → Prop
  | .float t => FloatText t
  | .str s => JsonString s
  | .arr l => JsonOkAll l
  | .obj l => (l.map Prod.fst).Nodup ∧ JsonOkPairs l
  | _ => True
def JsonOkAll : List Json → Prop
  | [] => True
  | v :: vs => JsonOk v ∧ JsonOkAll vs
def JsonOkPairs : List (List Nat × Json) → Prop
  | [] => True
  | kv :: kvs => JsonString kv.1 ∧ JsonOk kv.2 ∧ JsonOkPairs kvs
end

/-- `p` is the text `s` cut short. -/
def CutShort (p s : Str) : Prop := ∃ q, q ≠ [] ∧ s = p ++ q

end KD.Spec
