/-
Specification for C156, the text printed by `info`: how a person reads a duration, and names which can stand on a line.
-/
import Verif.Model.InfoText

namespace KD
namespace Spec

/-- A number below 100 written with two digits. -/
def TwoDigits (s : Str) (n : Nat) : Prop :=
  ∃ a b, a < 10 ∧ b < 10 ∧ n = 10 * a + b ∧ s = natStr a ++ natStr b

/-- The number of days at the start of a duration. -/
def DaysSay (s : Str) (d : Nat) : Prop :=
  (d = 0 ∧ s = []) ∨ (d = 1 ∧ s = ch! "1 day, ") ∨ (2 ≤ d ∧ s = natStr d ++ ch! " days, ")

/-- The decimals at the end of a duration, in tenths. -/
def TenthsSay (s : Str) (f : Nat) : Prop := (f = 0 ∧ s = []) ∨ (0 < f ∧ f < 10 ∧ s = ch! "." ++ natStr f ++ ch! "00000")

/-- The text reads as so many tenths of a second: days, hours, minutes, seconds, and tenths. -/
def DurationSays (text : Str) (tenths : Nat) : Prop :=
  ∃ ds ms ss fs d h m s f, DaysSay ds d ∧ h < 24 ∧ TwoDigits ms m ∧ m < 60 ∧ TwoDigits ss s ∧ s < 60 ∧ TenthsSay fs f ∧
    text = ds ++ natStr h ++ ch! ":" ++ ms ++ ch! ":" ++ ss ++ fs ∧
    tenths = (((d * 24 + h) * 60 + m) * 60 + s) * 10 + f

/-- A name which can be shown on a line among others: no line break and no comma. -/
def NameLine (s : Str) : Prop := '\n' ∉ s ∧ ',' ∉ s

end Spec
end KD
