/-
One image of an array of images, and the data of one pulse in an array of the data of pulses.
-/
import Verif.Model.Images

namespace KD.Geo.Spec

variable {V : Type}

/-- `a[l]` for an array of images: the image at the indices `l` of the leading dimensions. -/
def imageAt (a : Arr V) (l : List Nat) : Plane V :=
  ⟨a.shape.getD l.length 0, a.shape.getD (l.length + 1) 0, fun y x => a.get (l ++ [y, x])⟩

/-- `a[l]` for an array of detector data: the modules at the indices `l` of the leading dimensions. -/
def modulesAt (a : Arr V) (l : List Nat) : Stack V :=
  ⟨a.dtype, a.shape.getD l.length 0, a.shape.getD (l.length + 1) 0, a.shape.getD (l.length + 2) 0, fun m i j => a.get (l ++ [m, i, j])⟩

end KD.Geo.Spec
