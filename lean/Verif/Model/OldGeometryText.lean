/-
Printing the deprecated LPD geometry, /repo/karabo_data/geometry.py:51-59.
-/
import Verif.Model.OldGeometry
import Verif.Model.Writer

namespace KD.Geo

variable {K : Type}

/-- The offset of a fragment, `child.offset`. -/
def OldFrag.offset : OldFrag K → K × K
  | .node o _ => o

/-- `s.splitlines()`, as in geometry.py:55. Simplification: of the characters which end lines, only the line feed is there. -/
def splitLines (s : Str) : List Str :=
  let parts := splitCh '\n' s
  if parts.getLast? = some [] then parts.dropLast else parts

/-- One line in `textwrap.indent(text, prefix)`: lines of white space are left as they are. -/
def indentLine (pre : Str) (line : Str) : Str := if line.all Char.isWhitespace then line else pre ++ line

/-- `textwrap.indent(text, prefix)`, as in geometry.py:55. -/
def indentText (pre text : Str) : Str := joinCh '\n' ((splitCh '\n' text).map (indentLine pre))

mutual
/-- `_str_lines`, geometry.py:51-56. `txt` is the text which numpy makes of an offset, e.g. `[0.01 0.02]`. The children have different
names, so that `sorted` compares names only. -/
def OldFrag.strLines (txt : K × K → Str) : OldFrag K → List Str
  | .node _ ch => ((oldStrParts txt ch).insertionSort (fun x y => x.1 ≤ y.1)).flatMap Prod.snd

/-- The lines for each child, geometry.py:54-55, before they are sorted; `str(child)` is `__str__`, geometry.py:58-59. -/
def oldStrParts (txt : K × K → Str) : List (Str × OldFrag K) → List (Str × List Str)
  | [] => []
  | c :: rest =>
    (c.1, (c.1 ++ ch! ": " ++ txt c.2.offset) :: splitLines (indentText (ch! "  ") (joinCh '\n' (c.2.strLines txt)))) ::
      oldStrParts txt rest
end

/-- `__str__`, geometry.py:58-59. -/
def OldFrag.str (txt : K × K → Str) (f : OldFrag K) : Str := joinCh '\n' (f.strLines txt)

end KD.Geo
