/-
Assembling does not look at the values of pixels: it goes with any change of them.
-/
import Verif.Spec.Images
import Verif.Lemmas.Natural

namespace KD.Geo

variable {V W : Type} {K : Type} [Field K] [LinearOrder K] [IsStrictOrderedRing K] [FloorRing K]

def Plane.map (φ : V → W) (p : Plane V) : Plane W := ⟨p.h, p.w, fun i j => φ (p.get i j)⟩

def Stack.map (φ : V → W) (d : Stack V) : Stack W := ⟨d.dtype, d.n, d.h, d.w, fun m i j => φ (d.get m i j)⟩

theorem splitRows_map (φ : V → W) (p : Plane V) (n : Nat) : (p.map φ).splitRows n = (p.splitRows n).map (List.map (Plane.map φ)) := by
  unfold Plane.splitRows Plane.map
  simp only
  split
  · simp [Except.map]
  · rfl

theorem splitCols_map (φ : V → W) (p : Plane V) (n : Nat) : (p.map φ).splitCols n = (p.splitCols n).map (List.map (Plane.map φ)) := by
  unfold Plane.splitCols Plane.map
  simp only
  split
  · simp [Except.map]
  · rfl

theorem splitTiles_map (φ : V → W) (d : Det) (p : Plane V) : d.splitTiles (p.map φ) = (d.splitTiles p).map (List.map (Plane.map φ)) := by
  cases d with
  | agipd => exact splitRows_map φ p 8
  | dssc => exact splitCols_map φ p 2
  | lpd =>
    unfold Det.splitTiles
    dsimp only
    rw [splitCols_map]
    cases h : p.splitCols 2 with
    | error e => rfl
    | ok l =>
      match l with
      | [] => rfl
      | [a] => rfl
      | a :: b :: c :: r => rfl
      | [a, b] =>
        simp only [Except.map, List.map_cons, List.map_nil, splitRows_map]
        cases a.splitRows 8 with
        | error e => rfl
        | ok x =>
          simp only
          cases b.splitRows 8 with
          | error e => rfl
          | ok y => simp

theorem stride_map (φ : V → W) (p : Plane V) (a b : Int) : (p.map φ).stride a b = (p.stride a b).map (Plane.map φ) := by
  unfold Plane.stride Plane.map
  simp only
  cases slicePositions none none (some a) p.h with
  | error e => rfl
  | ok x => simp only; cases slicePositions none none (some b) p.w <;> rfl

theorem transform_map (φ : V → W) (g : Grid) (p : Plane V) : g.transform (p.map φ) = (g.transform p).map (Plane.map φ) := by
  unfold Grid.transform
  split
  · exact stride_map φ p.swapaxes _ _
  · exact stride_map φ p _ _

theorem assign_map (φ : V → W) (out src : Plane V) (y0 y1 x0 x1 : Int) :
    (out.map φ).assign y0 y1 x0 x1 (src.map φ) = (out.assign y0 y1 x0 x1 src).map (Plane.map φ) := by
  unfold Plane.assign Plane.map
  simp only
  cases slicePositions (some y0) (some y1) none out.h with
  | error e => rfl
  | ok rows =>
    simp only
    cases slicePositions (some x0) (some x1) none out.w with
    | error e => rfl
    | ok cols =>
      simp only
      split
      · simp only [Except.map]
        congr 2
        funext i j
        split <;> rfl
      · rfl

theorem nth_map {α β : Type} (f : α → β) (l : List α) (i : Nat) : nth (l.map f) i = (nth l i).map f := by
  unfold nth
  rw [List.getElem?_map]
  cases l[i]? <;> rfl

theorem place_map (φ : V → W) (s : Snapped) (tiles : List (Plane V)) (out : Plane V) (jt : Grid × Nat) :
    s.place (tiles.map (Plane.map φ)) (out.map φ) jt = (s.place tiles out jt).map (Plane.map φ) := by
  unfold Snapped.place
  rw [nth_map]
  cases nth tiles jt.2 with
  | error e => rfl
  | ok t =>
    simp only [Except.map]
    rw [transform_map]
    cases jt.1.transform t with
    | error e => rfl
    | ok src => exact assign_map φ out src _ _ _ _

theorem plane_map (φ : V → W) (d : Stack V) (i : Nat) : (d.map φ).plane i = (d.plane i).map (Plane.map φ) := by
  unfold Stack.plane Stack.map
  simp only
  split <;> rfl

theorem placeModule_map (φ : V → W) (s : Snapped) (data : Stack V) (out : Plane V) (im : List Grid × Nat) :
    s.placeModule (data.map φ) (out.map φ) im = (s.placeModule data out im).map (Plane.map φ) := by
  unfold Snapped.placeModule
  rw [plane_map]
  cases data.plane im.2 with
  | error e => rfl
  | ok p =>
    simp only [Except.map]
    rw [splitTiles_map]
    cases s.det.splitTiles p with
    | error e => rfl
    | ok tiles =>
      simp only [Except.map]
      have := foldE_natural (f := s.place tiles) (f' := s.place (tiles.map (Plane.map φ))) (h := id) (k := Plane.map φ)
        (l := im.1.zipIdx) (fun out a _ => place_map φ s tiles out a) out
      rw [List.map_id] at this
      exact this

/-- Assembling with other values. -/
theorem positionModules_map (φ : V → W) (s : Snapped) (safe : Nat → Nat → Bool) (nan : Nat → V) (data : Stack V)
    (out : Option (Nat × Plane V)) :
    s.positionModules safe (fun dt => φ (nan dt)) (data.map φ) (out.map (fun o => (o.1, o.2.map φ))) =
      (s.positionModules safe nan data out).map (fun r => (r.1.map φ, r.2)) := by
  have hfold : ∀ o : Plane V, foldE (s.placeModule (data.map φ)) (o.map φ) s.modules.zipIdx =
      (foldE (s.placeModule data) o s.modules.zipIdx).map (Plane.map φ) := by
    intro o
    have := foldE_natural (f := s.placeModule data) (f' := s.placeModule (data.map φ)) (h := id) (k := Plane.map φ)
      (l := s.modules.zipIdx) (fun out a _ => placeModule_map φ s data out a) o
    rw [List.map_id] at this
    exact this
  have hfin : ∀ o : Plane V,
      (match foldE (s.placeModule (data.map φ)) (o.map φ) s.modules.zipIdx with
        | .error e => (.error e : R (Plane W × (Int × Int)))
        | .ok res => .ok (res, s.centre)) =
      Except.map (fun r : Plane V × (Int × Int) => (r.1.map φ, r.2)) (match foldE (s.placeModule data) o s.modules.zipIdx with
        | .error e => .error e
        | .ok res => .ok (res, s.centre)) := by
    intro o
    rw [hfold o]
    cases foldE (s.placeModule data) o s.modules.zipIdx <;> rfl
  unfold Snapped.positionModules
  by_cases hd : (data.n, data.h, data.w) = s.det.dataShape
  · rw [if_pos hd, if_pos (show ((data.map φ).n, (data.map φ).h, (data.map φ).w) = s.det.dataShape from hd)]
    cases out with
    | none => exact hfin (s.output (nan data.dtype))
    | some o =>
      simp only [Option.map_some]
      by_cases hs : ((o.2.h : Int), (o.2.w : Int)) = s.size
      · rw [if_pos hs, if_pos (show (((o.2.map φ).h : Int), ((o.2.map φ).w : Int)) = s.size from hs)]
        by_cases hc : safe data.dtype o.1 = true
        · rw [if_pos hc, if_pos (show safe (data.map φ).dtype o.1 = true from hc)]
          exact hfin o.2
        · rw [if_neg hc, if_neg (show ¬ safe (data.map φ).dtype o.1 = true from hc)]
          rfl
      · rw [if_neg hs, if_neg (show ¬ (((o.2.map φ).h : Int), ((o.2.map φ).w : Int)) = s.size from hs)]
        rfl
  · rw [if_neg hd, if_neg (show ¬ ((data.map φ).n, (data.map φ).h, (data.map φ).w) = s.det.dataShape from hd)]
    rfl

end KD.Geo
