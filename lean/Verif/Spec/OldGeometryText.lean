/-
How to read a printed geometry: an outline, in which the parts of a thing are indented by two more spaces than the thing.
-/
import Verif.Spec.OldGeometry
import Verif.Model.OldGeometryText

namespace KD.Geo.Spec

variable {K : Type}

/-- An entry of an outline, with the entries below it. -/
inductive Outline where
  | item (name text : Str) (below : List Outline)

/-- The name of an entry. -/
def Outline.name : Outline → Str
  | .item name _ _ => name

/-- The line is indented. -/
def indented : Str → Bool
  | ' ' :: ' ' :: _ => true
  | _ => false

/-- Lines are read as `name: text`; the indented lines which follow, without two spaces, are what is below. -/
def readOutline : List Str → List Outline
  | [] => []
  | line :: rest =>
    .item (line.takeWhile (· ≠ ':')) ((line.dropWhile (· ≠ ':')).drop 2) (readOutline ((rest.takeWhile indented).map (List.drop 2))) ::
      readOutline (rest.dropWhile indented)
termination_by l => l.length
decreasing_by
  · have := (List.takeWhile_sublist (l := rest) indented).length_le
    simp only [List.length_map, List.length_cons]; omega
  · have := (List.dropWhile_sublist (l := rest) indented).length_le
    simp only [List.length_cons]; omega

/-- The lines of a text (none, if it is empty). -/
def linesOf (text : Str) : List Str := if text = [] then [] else splitCh '\n' text

/-- The outline has an entry at the path of names, with the text. -/
def Listed : List Outline → List Str → Str → Prop
  | _, [], _ => False
  | items, [name], text => ∃ below, .item name text below ∈ items
  | items, name :: n :: rest, text => ∃ t below, .item name t below ∈ items ∧ Listed below (n :: rest) text

/-- The names of entries beside each other increase, so that none is there twice. -/
inductive OutlineSorted : List Outline → Prop where
  | mk (items : List Outline) (h : items.Pairwise (fun a b => a.name < b.name))
      (hb : ∀ name text below, .item name text below ∈ items → OutlineSorted below) : OutlineSorted items

/-- The names of all parts have no colon and no line feed, and do not begin with a space. -/
inductive PlainNames : OldFrag K → Prop where
  | node (o : K × K) (ch : List (Str × OldFrag K)) (h : ∀ c ∈ ch, ':' ∉ c.1 ∧ '\n' ∉ c.1 ∧ c.1.head? ≠ some ' ')
      (hc : ∀ c ∈ ch, PlainNames c.2) : PlainNames (.node o ch)

end KD.Geo.Spec
