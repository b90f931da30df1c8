/-
What a run of a detector has in its files for one train.
-/
import Verif.Spec.SameData
import Verif.Spec.Stacking
import Verif.Spec.Geometry

namespace KD.Spec

variable {P : Type}

/-- The dimension of frames in the data of a train: there is none if there is just one frame. -/
def frameDims (n : Nat) : List Nat := if n = 1 then [] else [n]

/-- The index of frame `l`, where there are `n` of them. -/
def frameIndex (n l : Nat) : List Nat := if n = 1 then [] else [l]

/-- `info` gives the dtype and the shape of a row of the datasets of instrument sources. -/
def DatasetInfo (c : DC (List Nat → P)) (info : Str → Str → Nat × List Nat) : Prop :=
  ∀ f ∈ c.files, ∀ s key ds, f.dataset (ch! "INSTRUMENT") s key = .ok ds → info s key = (ds.dtype, ds.rowShape)

/-- All sources are modules of a detector with `modules` modules, each a different one; in train `t` each has `n` frames for the key or
none, and at least one has some. The frames have the dtype `dt` and the shape `shape`. -/
structure DetectorTrain (c : DC (List Nat → P)) (key : Str) (t modules n dt : Nat) (shape : List Nat) : Prop where
  sources : ∀ s ∈ c.allSources, s ∈ c.instrumentSources ∧ ∃ m < modules, ModuleOf s m
  different : ∀ s ∈ c.allSources, ∀ s' ∈ c.allSources, ∀ m, ModuleOf s m → ModuleOf s' m → s = s'
  format : ∀ f ∈ c.files, ∀ s, Available c s key → ∀ ds, f.dataset (ch! "INSTRUMENT") s key = .ok ds → ds.dtype = dt ∧ ds.rowShape = shape
  frames : ∀ s, Available c s key → ∀ es, HoldsEntries c true s key t es → es = [] ∨ es.length = n
  some_frames : ∃ s, Available c s key ∧ ∃ es, HoldsEntries c true s key t es ∧ es ≠ []

/-- Module `m` has the frame `v` as its frame number `l` of train `t`. -/
def ModuleFrame (c : DC (List Nat → P)) (key : Str) (t m l : Nat) (v : List Nat → P) : Prop :=
  ∃ s es, ModuleOf s m ∧ Available c s key ∧ HoldsEntries c true s key t es ∧ es[l]? = some v

/-- The stacked array, with modules along axis `k`, has each frame of each module at its place, and `fill` for modules without frames. -/
structure StackOf (c : DC (List Nat → P)) (key : Str) (t modules n dt : Nat) (shape : List Nat) (k : Nat) (fill : P) (r : Arr P) : Prop where
  dtype : r.dtype = dt
  shape : r.shape = (frameDims n ++ shape).take k ++ modules :: (frameDims n ++ shape).drop k
  frames : ∀ m < modules, ∀ l v, ModuleFrame c key t m l v → ∀ before after pixel, before.length = k →
    before ++ after = frameIndex n l ++ pixel → r.get (before ++ m :: after) = v pixel
  missing : ∀ m < modules, (∀ l v, ¬ ModuleFrame c key t m l v) → ∀ before after, before.length = k → r.get (before ++ m :: after) = fill

end KD.Spec

namespace KD.Geo.Spec

variable {P : Type} {K : Type} [Field K] [LinearOrder K] [IsStrictOrderedRing K] [FloorRing K]

/-- The images of one train of a run: an image for each frame (just one image if there is one frame). Each pixel of each frame of a module is
at the cell where the geometry has it; the cells of modules without frames have the value `fill`, and cells outside of all modules `nan`. -/
structure RunImage (g : Geom K) (px : K × K) (c : DC (List Nat → P)) (key : Str) (t n dt : Nat) (fill nan : P) (img : Arr P) (centre : Int × Int) :
    Prop where
  dtype : img.dtype = dt
  image : ∃ H W, img.shape = KD.Spec.frameDims n ++ [H, W] ∧
    (∀ m i j yx, Covers g px m i j yx → ∃ y x : Nat, (y : Int) = yx.1 + centre.1 ∧ (x : Int) = yx.2 + centre.2 ∧ y < H ∧ x < W ∧
      (∀ l v, KD.Spec.ModuleFrame c key t m l v → img.get (KD.Spec.frameIndex n l ++ [y, x]) = v [i, j]) ∧
      ((∀ l v, ¬ KD.Spec.ModuleFrame c key t m l v) → ∀ l, img.get (KD.Spec.frameIndex n l ++ [y, x]) = fill)) ∧
    ∀ y x : Nat, y < H → x < W → (∀ m i j, ¬ Covers g px m i j ((y : Int) - centre.1, (x : Int) - centre.2)) →
      ∀ l, img.get (KD.Spec.frameIndex n l ++ [y, x]) = nan

end KD.Geo.Spec
