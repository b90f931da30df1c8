/-
C124: moving the whole detector.
-/
import Verif.Props.Overlap
import Verif.Props.Positions
import Verif.Lemmas.DetArray
import Verif.Spec.Moving
import Mathlib.Tactic.Ring
import Mathlib.Tactic.Abel

set_option linter.unusedSimpArgs false
set_option linter.unusedSectionVars false

namespace KD.Geo
open KD.Geo.Spec

variable {V : Type} {K : Type} [Field K] [LinearOrder K] [IsStrictOrderedRing K] [FloorRing K]

theorem around_add_int {x : K} {n : Int} (h : n % 2 = 0 ∨ NotHalf x) : around (x + n) = around x + n := by
  rcases h with h | h
  · exact around_add_even x n h
  · apply nearest_unique (around_nearest _)
    obtain ⟨h1, h2⟩ := around_nearest x
    have e : x + n - ((around x + n : Int) : K) = x - (around x : K) := by push_cast; ring
    refine ⟨by rw [e]; exact h1, ?_⟩
    rw [e]
    intro hh
    exfalso
    rcases (abs_eq (by norm_num)).1 hh with hh | hh
    · exact h (around x) (by linarith)
    · exact h (around x - 1) (by push_cast; linarith)

/-- A tile on the grid moved by (y, x). -/
def Grid.moved (d : Int × Int) (g : Grid) : Grid :=
  { g with corner := (g.corner.1 + d.1, g.corner.2 + d.2), opp := (g.opp.1 + d.1, g.opp.2 + d.2) }

theorem Grid.init_moved (c d ss fs : Int × Int) (n m : Int) :
    Grid.init (c.1 + d.1, c.2 + d.2) ss fs n m = (Grid.init c ss fs n m).moved d := by
  unfold Grid.init Grid.moved
  split
  · simp only [Grid.mk.injEq, Prod.mk.injEq, true_and]
    omega
  · simp only [Grid.mk.injEq, Prod.mk.injEq, true_and]
    omega

theorem snap_moved {f : Frag K} {px : K × K} {a b : Int} {z : K} (h1 : px.1 ≠ 0) (h2 : px.2 ≠ 0)
    (hx : KeepsRounding a f.corner.x px.1) (hy : KeepsRounding b f.corner.y px.2) :
    Frag.snap { f with corner := ⟨f.corner.x + a * px.1, f.corner.y + b * px.2, f.corner.z + z⟩ } px =
      (f.snap px).map (Grid.moved (b, a)) := by
  unfold Frag.snap
  simp only
  have e1 : (f.corner.x + a * px.1) / px.1 = f.corner.x / px.1 + a := by field_simp
  have e2 : (f.corner.y + b * px.2) / px.2 = f.corner.y / px.2 + b := by field_simp
  rw [e1, e2, around_add_int hx, around_add_int hy]
  split
  · simp only [Except.map]
    rw [Grid.init_moved (around (f.corner.y / px.2), around (f.corner.x / px.1)) (b, a)]
  · rfl

theorem mapE_image_map {α β γ : Type} {f : α → R β} {g : α → R γ} {h : β → γ} {l : List α} (hh : ∀ a ∈ l, g a = (f a).map h) :
    mapE g l = (mapE f l).map (List.map h) := by
  induction l with
  | nil => rfl
  | cons a l ih =>
    unfold mapE
    rw [hh a (by simp), ih (fun b hb => hh b (by simp [hb]))]
    cases f a with
    | error e => rfl
    | ok b => cases mapE f l <;> rfl

theorem listMin_add (l : List Int) (a d : Int) : listMin (a + d) (l.map (· + d)) = listMin a l + d := by
  induction l generalizing a with
  | nil => rfl
  | cons b l ih =>
    simp only [List.map_cons, listMin]
    rw [← ih, show min (a + d) (b + d) = min a b + d by omega]

theorem listMax_add (l : List Int) (a d : Int) : listMax (a + d) (l.map (· + d)) = listMax a l + d := by
  induction l generalizing a with
  | nil => rfl
  | cons b l ih =>
    simp only [List.map_cons, listMax]
    rw [← ih, show max (a + d) (b + d) = max a b + d by omega]

/-- The snapped geometry of the moved detector. -/
def Snapped.moved (d : Int × Int) (s : Snapped) : Snapped :=
  ⟨s.det, s.modules.map (List.map (Grid.moved d)), s.size, (s.centre.1 - d.1, s.centre.2 - d.2)⟩

theorem snapCorners_moved (d : Int × Int) (mods : List (List Grid)) :
    snapCorners (mods.map (List.map (Grid.moved d))) = (snapCorners mods).map (fun c => (c.1 + d.1, c.2 + d.2)) := by
  unfold snapCorners
  rw [← List.map_flatten, List.flatMap_map, List.map_flatMap]
  rfl

theorem init_moved (det : Det) (d : Int × Int) (mods : List (List Grid)) :
    Snapped.init det (mods.map (List.map (Grid.moved d))) = (Snapped.init det mods).map (Snapped.moved d) := by
  unfold Snapped.init
  rw [snapCorners_moved]
  cases snapCorners mods with
  | nil => rfl
  | cons c cs =>
    simp only [List.map_cons, List.map_map, Except.map, Snapped.moved]
    have e1 : cs.map (Prod.fst ∘ fun c => (c.1 + d.1, c.2 + d.2)) = (cs.map Prod.fst).map (· + d.1) := by
      rw [List.map_map]; rfl
    have e2 : cs.map (Prod.snd ∘ fun c => (c.1 + d.1, c.2 + d.2)) = (cs.map Prod.snd).map (· + d.2) := by
      rw [List.map_map]; rfl
    rw [e1, e2, listMin_add, listMin_add, listMax_add, listMax_add]
    simp only [Except.ok.injEq, Snapped.mk.injEq, Prod.mk.injEq, true_and]
    omega

theorem place_moved (s : Snapped) (d : Int × Int) (tiles : List (Plane V)) (out : Plane V) (g : Grid) (t : Nat) :
    (s.moved d).place tiles out (g.moved d, t) = s.place tiles out (g, t) := by
  unfold Snapped.place Snapped.moved Grid.moved Grid.transform
  simp only
  rw [show g.corner.1 + d.1 + (s.centre.1 - d.1) = g.corner.1 + s.centre.1 by omega,
    show g.corner.2 + d.2 + (s.centre.2 - d.2) = g.corner.2 + s.centre.2 by omega]

theorem foldE_zipIdx_map {α β σ : Type} {f : σ → β × Nat → R σ} {f' : σ → α × Nat → R σ} {g : α → β}
    (h : ∀ s a n, f s (g a, n) = f' s (a, n)) (s : σ) (l : List α) (n : Nat) :
    foldE f s ((l.map g).zipIdx n) = foldE f' s (l.zipIdx n) := by
  induction l generalizing s n with
  | nil => rfl
  | cons a l ih =>
    simp only [List.map_cons, List.zipIdx_cons, foldE, h]
    cases f' s (a, n) with
    | error e => rfl
    | ok s' => exact ih s' (n + 1)

theorem placeModule_moved (s : Snapped) (d : Int × Int) (data : Stack V) (out : Plane V) (m : List Grid) (n : Nat) :
    (s.moved d).placeModule data out (m.map (Grid.moved d), n) = s.placeModule data out (m, n) := by
  unfold Snapped.placeModule
  simp only
  cases data.plane n with
  | error e => rfl
  | ok p =>
    simp only
    rw [show (s.moved d).det = s.det from rfl]
    cases s.det.splitTiles p with
    | error e => rfl
    | ok tiles => exact foldE_zipIdx_map (fun o g k => place_moved s d tiles o g k) out m 0

theorem positionModules_moved (s : Snapped) (d : Int × Int) (safe : Nat → Nat → Bool) (nan : Nat → V) (data : Stack V)
    (out : Option (Nat × Plane V)) :
    (s.moved d).positionModules safe nan data out =
      (s.positionModules safe nan data out).map (fun r => (r.1, (r.2.1 - d.1, r.2.2 - d.2))) := by
  have hf : ∀ o, foldE ((s.moved d).placeModule data) o (s.moved d).modules.zipIdx = foldE (s.placeModule data) o s.modules.zipIdx :=
    fun o => foldE_zipIdx_map (fun o m k => placeModule_moved s d data o m k) o s.modules 0
  unfold Snapped.positionModules
  simp only [hf]
  rw [show (s.moved d).det = s.det from rfl, show (s.moved d).size = s.size from rfl]
  split
  · have ho : (s.moved d).output (nan data.dtype) = s.output (nan data.dtype) := rfl
    rw [ho]
    split
    · rfl
    · rename_i o ho
      cases foldE (s.placeModule data) o s.modules.zipIdx with
      | error e => rfl
      | ok r => rfl
  · rfl

theorem snapped_moved {g : Geom K} {rowStep : K} {v : Vec K} {a b : Int} (hr : rowStep ≠ 0)
    (hx : v.x = a * (g.det.pixelShape rowStep).1) (hy : v.y = b * (g.det.pixelShape rowStep).2)
    (hk : ∀ m ∈ g.modules, ∀ f ∈ m, KeepsRounding a f.corner.x (g.det.pixelShape rowStep).1 ∧
      KeepsRounding b f.corner.y (g.det.pixelShape rowStep).2) :
    (moved g v).snapped rowStep = (g.snapped rowStep).map (Snapped.moved (b, a)) := by
  have hp : (g.det.pixelShape rowStep).1 ≠ 0 ∧ (g.det.pixelShape rowStep).2 ≠ 0 := by
    cases g.det <;> simp [Det.pixelShape, Det.pixelSize, hr]
  unfold Geom.snapped
  have e : mapE (mapE (fun f : Frag K => f.snap ((moved g v).det.pixelShape rowStep))) (moved g v).modules =
      (mapE (mapE (fun f : Frag K => f.snap (g.det.pixelShape rowStep))) g.modules).map (List.map (List.map (Grid.moved (b, a)))) := by
    unfold moved
    simp only
    rw [mapE_map]
    apply mapE_image_map
    intro m hm
    rw [mapE_map]
    apply mapE_image_map
    intro f hf
    rw [hx, hy]
    exact snap_moved hp.1 hp.2 (hk m hm f hf).1 (hk m hm f hf).2
  rw [e]
  cases mapE (mapE (fun f : Frag K => f.snap (g.det.pixelShape rowStep))) g.modules with
  | error e => rfl
  | ok mods =>
    simp only [Except.map]
    exact init_moved g.det (b, a) mods

/-- C124. When the whole detector is moved by whole pixels, assembling gives the same image (or the same exception), and the
centre is moved the other way. The numbers of pixels must be even unless no tile is half way between two pixels. Missing: for
other tiles see `moved_image_wrong`. -/
theorem moved_image_partial {g : Geom K} {rowStep : K} {v : Vec K} {a b : Int} (hr : rowStep ≠ 0)
    (hx : v.x = a * (g.det.pixelShape rowStep).1) (hy : v.y = b * (g.det.pixelShape rowStep).2)
    (hk : ∀ m ∈ g.modules, ∀ f ∈ m, KeepsRounding a f.corner.x (g.det.pixelShape rowStep).1 ∧
      KeepsRounding b f.corner.y (g.det.pixelShape rowStep).2)
    (safe : Nat → Nat → Bool) (nan : Nat → V) (data : Stack V) (out : Option (Nat × Plane V)) :
    ((moved g v).positionFast rowStep safe nan data out =
      (g.positionFast rowStep safe nan data out).map (fun r => (r.1, (r.2.1 - b, r.2.2 - a)))) ∧
    ∀ x : V, (moved g v).outputFast rowStep x = g.outputFast rowStep x := by
  have e := snapped_moved hr hx hy hk
  unfold Geom.positionFast Geom.outputFast
  rw [e]
  cases g.snapped rowStep with
  | error e => exact ⟨rfl, fun _ => rfl⟩
  | ok s => exact ⟨positionModules_moved s (b, a) safe nan data out, fun _ => rfl⟩

/-- The tile moved by a vector. -/
abbrev shiftFrag (v : Vec K) (f : Frag K) : Frag K := { f with corner := ⟨f.corner.x + v.x, f.corner.y + v.y, f.corner.z + v.z⟩ }

theorem nth_map {α β : Type} (f : α → β) (l : List α) (n : Nat) : nth (l.map f) n = (nth l n).map f := by
  unfold nth
  rw [List.getElem?_map]
  cases l[n]? <;> rfl

theorem overQuad_moved {quads : List (K × K)} {h : K × K → K × K} {v : Vec K}
    {tile : K × K → Nat → Nat → Frag K} (n p : Nat)
    (ht : ∀ q a, tile (h q) p a = shiftFrag v (tile q p a)) :
    overQuad (quads.map h) (fun q p => (List.range n).map (tile q p)) p =
      (overQuad quads (fun q p => (List.range n).map (tile q p)) p).map (List.map (shiftFrag v)) := by
  unfold overQuad
  rw [nth_map]
  cases nth quads (p / 4) with
  | error e => rfl
  | ok q =>
    simp only [Except.map, List.map_map]
    congr 1
    apply List.map_congr_left
    intro a _
    exact ht q a

/-- C124. Shifting the positions of all quadrants moves the whole detector: a geometry made from quadrant positions, or from a
file and quadrant positions; the same exception if there is one. -/
theorem moved_quads (quads : List (K × K)) (unit : K) (dx dy : K) :
    (∀ asicGap panelGap : K, agipdQuads (quads.map (fun q => (q.1 + dx, q.2 + dy))) unit asicGap panelGap =
      (agipdQuads quads unit asicGap panelGap).map (fun g => moved g ⟨dx * unit, dy * unit, 0⟩)) ∧
    (∀ asicGap panelGap : Option K, lpdQuads (quads.map (fun q => (q.1 + dx, q.2 + dy))) unit asicGap panelGap =
      (lpdQuads quads unit asicGap panelGap).map (fun g => moved g ⟨dx * unit, dy * unit, 0⟩)) ∧
    (∀ f : H5Geom K, lpdH5 f (quads.map (fun q => (q.1 + dx, q.2 + dy))) unit =
      (lpdH5 f quads unit).map (fun g => moved g ⟨dx * unit, dy * unit, 0⟩)) ∧
    (∀ (f : H5Geom K) (rowStep : K), dsscH5 f rowStep (quads.map (fun q => (q.1 + dx, q.2 + dy))) unit =
      (dsscH5 f rowStep quads unit).map (fun g => moved g ⟨dx * unit, dy * unit, 0⟩)) := by
  have hq : ∀ (d : Det) (n k : Nat) (tile : K × K → Nat → Nat → Frag K),
      (∀ q p a, tile (q.1 + dx, q.2 + dy) p a = shiftFrag ⟨dx * unit, dy * unit, 0⟩ (tile q p a)) →
      mapE (overQuad (quads.map (fun q => (q.1 + dx, q.2 + dy))) (fun q p => (List.range n).map (tile q p))) (List.range k) =
      (mapE (overQuad quads (fun q p => (List.range n).map (tile q p))) (List.range k)).map
        (List.map (List.map (shiftFrag ⟨dx * unit, dy * unit, 0⟩))) := by
    intro d n k tile ht
    apply mapE_image_map
    intro p _
    exact overQuad_moved n p (fun q a => ht q p a)
  have h5 : ∀ (d : Det) (n : Nat) (tile : K × K → Nat → Nat → Nat → R (Frag K)),
      (∀ q Q M T, tile (q.1 + dx, q.2 + dy) Q M T = (tile q Q M T).map (shiftFrag ⟨dx * unit, dy * unit, 0⟩)) →
      h5Quads d n tile (quads.map (fun q => (q.1 + dx, q.2 + dy))) =
        (h5Quads d n tile quads).map (fun g => moved g ⟨dx * unit, dy * unit, 0⟩) := by
    intro d n tile ht
    unfold h5Quads
    rw [List.length_map]
    split
    · have e : mapE (h5Module n tile (quads.map (fun q => (q.1 + dx, q.2 + dy)))) (List.range 16) =
          (mapE (h5Module n tile quads) (List.range 16)).map (List.map (List.map (shiftFrag ⟨dx * unit, dy * unit, 0⟩))) := by
        apply mapE_image_map
        intro k _
        unfold h5Module
        rw [nth_map]
        cases nth quads (k / 4) with
        | error e => rfl
        | ok q =>
          simp only [Except.map]
          exact mapE_image_map (fun T _ => ht q _ _ _)
      rw [e]
      cases mapE (h5Module n tile quads) (List.range 16) <;> rfl
    · rfl
  have hc : ∀ (f : H5Geom K) (q : K × K) (Q M T : Nat), h5Corner f unit (q.1 + dx, q.2 + dy) Q M T =
      (h5Corner f unit q Q M T).map (fun c => ⟨c.x + dx * unit, c.y + dy * unit, c.z + 0⟩) := by
    intro f q Q M T
    unfold h5Corner
    cases f.module Q M with
    | none => rfl
    | some mo =>
      cases f.tile Q M T with
      | none => rfl
      | some tp =>
        simp only [Except.map, Except.ok.injEq, Vec.mk.injEq]
        refine ⟨by ring, by ring, by ring⟩
  refine ⟨?_, ?_, ?_, ?_⟩
  · intro asicGap panelGap
    unfold agipdQuads
    rw [hq .agipd 8 16 (agipdTile unit asicGap panelGap) ?_]
    · cases mapE (overQuad quads (fun q p => (List.range 8).map (agipdTile unit asicGap panelGap q p))) (List.range 16) <;> rfl
    · intro q p a
      simp only [agipdTile, Frag.mk.injEq, Vec.mk.injEq, and_true]
      refine ⟨by ring, by ring, by ring⟩
  · intro asicGap panelGap
    unfold lpdQuads
    rw [hq .lpd _ _ (lpdTile unit asicGap panelGap) ?_]
    · cases mapE (overQuad quads (fun q p => (List.range Det.lpd.nTiles).map (lpdTile unit asicGap panelGap q p)))
        (List.range Det.lpd.nModules) <;> rfl
    · intro q p a
      simp only [lpdTile, Frag.mk.injEq, Vec.mk.injEq, and_true]
      refine ⟨by ring, by ring, by ring⟩
  · intro f
    refine h5 .lpd _ (lpdH5Tile f unit) ?_
    intro q Q M T
    unfold lpdH5Tile
    rw [hc]
    cases h5Corner f unit q Q M T with
    | error e => rfl
    | ok c =>
      simp only [Except.map, Except.ok.injEq, Frag.mk.injEq, Vec.sub, Vec.smul, Vec.mk.injEq, and_true]
      refine ⟨by ring, by ring, by ring⟩
  · intro f rowStep
    refine h5 .dssc _ (dsscH5Tile f rowStep unit) ?_
    intro q Q M T
    unfold dsscH5Tile
    rw [hc]
    cases h5Corner f unit q Q M T with
    | error e => rfl
    | ok c =>
      by_cases hQ : Q - 1 < 2
      · simp only [if_pos hQ, Except.map, if_true, Except.ok.injEq, Frag.mk.injEq, Vec.sub, Vec.smul, Vec.mk.injEq, and_true]
        refine ⟨by ring, by ring, by ring⟩
      · simp only [if_neg hQ, Except.map, show ¬ ((1 : Int) = -1) by decide, if_false, Except.ok.injEq, Frag.mk.injEq, Vec.sub,
          Vec.smul, Vec.mk.injEq, and_true]
        refine ⟨by ring, by ring, by ring⟩

/-- The vector moved. -/
abbrev shiftVec (v p : Vec K) : Vec K := ⟨p.x + v.x, p.y + v.y, p.z + v.z⟩

theorem moved_complete {g : Geom K} (v : Vec K) (hC : Spec.Complete g) : Spec.Complete (moved g v) := by
  refine ⟨by unfold moved; simpa using hC.1, ?_⟩
  intro m hm
  unfold moved at hm
  obtain ⟨m', hm', rfl⟩ := List.mem_map.1 hm
  rw [List.length_map]
  exact hC.2 m' hm'

theorem moved_tile {g : Geom K} {v : Vec K} {m t : Nat} {f : Frag K} (h : IsTile g m t f) :
    IsTile (moved g v) m t (shiftFrag v f) := by
  obtain ⟨mod, h1, h2⟩ := h
  refine ⟨mod.map (shiftFrag v), ?_, ?_⟩
  · unfold moved
    simp only [List.getElem?_map, h1]
    rfl
  · rw [List.getElem?_map, h2]
    rfl

theorem tile_exists {g : Geom K} (hC : Spec.Complete g) {m i j : Nat} (hm : m < (shape g.det).1) (hi : i < (shape g.det).2.1)
    (hj : j < (shape g.det).2.2) : ∃ f, IsTile g m (tileOf g.det i j) f := by
  have hm' : m < g.modules.length := by rw [hC.1]; exact hm
  have ht' : tileOf g.det i j < g.modules[m].length := by
    rw [hC.2 _ (List.getElem_mem hm')]; exact tileOf_lt g.det hi hj
  exact ⟨_, g.modules[m], List.getElem?_eq_getElem hm', List.getElem?_eq_getElem ht'⟩

theorem point_moved (f : Frag K) (v : Vec K) (a b : K) : point (shiftFrag v f) a b = shiftVec v (point f a b) := by
  simp only [point, shiftVec, Vec.mk.injEq]
  refine ⟨by ring, by ring, by ring⟩

theorem pyIndex_map {α β : Type} (f : α → β) (l : List α) (i : Int) : pyIndex (l.map f) i = (pyIndex l i).map f := by
  unfold pyIndex
  simp only [List.length_map, nth_map]
  generalize (if i < 0 then i + (l.length : Int) else i) = j
  split <;> rfl

/-- C124. Positions in the data of the moved detector are their positions in the detector moved by the same vector; the same
exceptions. -/
theorem moved_coords (g : Geom K) (v : Vec K) (ms : List Int) (ss fs : List K) :
    (moved g v).coordsToPositions ms ss fs =
      (g.coordsToPositions ms ss fs).map (List.map (fun p => ⟨p.x + v.x, p.y + v.y, p.z + v.z⟩)) := by
  have hfl : (moved g v).modules.flatten = g.modules.flatten.map (shiftFrag v) := by
    unfold moved
    rw [List.map_flatten]
  have h1 : ∀ m s f, (moved g v).coordToPosition m s f = (g.coordToPosition m s f).map (shiftVec v) := by
    intro m s f
    unfold Geom.coordToPosition
    rw [hfl, show (moved g v).det = g.det from rfl]
    cases g.modules.flatten with
    | nil => rfl
    | cons t ts =>
      simp only [List.map_cons]
      cases g.det.coordsToTile s f with
      | error e => rfl
      | ok c =>
        obtain ⟨tileno, tss, tfs⟩ := c
        simp only
        rw [← List.map_cons, pyIndex_map]
        cases pyIndex (t :: ts) (m * g.det.nTiles + tileno) with
        | error e => rfl
        | ok q =>
          simp only [Except.map, Except.ok.injEq, Vec.add, Vec.smul, Vec.mk.injEq]
          refine ⟨by ring, by ring, by ring⟩
  unfold Geom.coordsToPositions
  split
  · rw [hfl, show (moved g v).det = g.det from rfl]
    cases g.modules.flatten with
    | nil => rfl
    | cons t ts =>
      simp only [List.map_cons]
      have h2 : mapE (fun c : Int × K × K => (moved g v).coordToPosition c.1 c.2.1 c.2.2) (ms.zip (ss.zip fs)) =
          (mapE (fun c : Int × K × K => g.coordToPosition c.1 c.2.1 c.2.2) (ms.zip (ss.zip fs))).map (List.map (shiftVec v)) :=
        mapE_image_map (fun c _ => h1 _ _ _)
      cases g.det with
      | dssc => rfl
      | agipd => exact h2
      | lpd => exact h2
  · rfl

/-- C124. When the whole detector is moved, all pixels are at their positions moved by the same vector, and so are the corners
of all pixels when negative coordinates are allowed. -/
theorem moved_positions (g : Geom K) (hC : Spec.Complete g) (v : Vec K) :
    (∀ centre : Bool, ∃ pos pos', g.pixelPositions centre = .ok pos ∧ (moved g v).pixelPositions centre = .ok pos' ∧
      ∀ m i j, m < (shape g.det).1 → i < (shape g.det).2.1 → j < (shape g.det).2.2 →
        pos'.get m i j = ⟨(pos.get m i j).x + v.x, (pos.get m i j).y + v.y, (pos.get m i j).z + v.z⟩) ∧
    ∃ d d', g.distortionArray true = .ok d ∧ (moved g v).distortionArray true = .ok d' ∧ d'.h = d.h ∧ d'.w = d.w ∧
      ∀ i j, i < d.h → j < d.w → d'.get i j = (d.get i j).map (fun p => ⟨p.x + v.x, p.y + v.y, p.z + v.z⟩) := by
  refine ⟨?_, ?_⟩
  · intro centre
    obtain ⟨pos, p1, _, p3⟩ := pixel_positions g hC centre
    obtain ⟨pos', q1, _, q3⟩ := pixel_positions (moved g v) (moved_complete v hC) centre
    refine ⟨pos, pos', p1, q1, ?_⟩
    intro m i j hm hi hj
    obtain ⟨f, hf⟩ := tile_exists hC hm hi hj
    rw [p3 m i j f hi hj hf, q3 m i j (shiftFrag v f) hi hj (moved_tile hf)]
    exact point_moved f v _ _
  · obtain ⟨d, p1, p2, p3, p4⟩ := distortion_all g hC
    obtain ⟨d', q1, q2, q3, q4⟩ := distortion_all (moved g v) (moved_complete v hC)
    refine ⟨d, d', p1, q1, by rw [p2, q2]; rfl, by rw [p3, q3]; rfl, ?_⟩
    intro r j hr hj
    have hrows : 0 < (shape g.det).2.1 := by cases g.det <;> decide
    rw [p2] at hr
    rw [p3] at hj
    have hm : r / (shape g.det).2.1 < (shape g.det).1 := Nat.div_lt_of_lt_mul (by rw [Nat.mul_comm]; exact hr)
    have hi : r % (shape g.det).2.1 < (shape g.det).2.1 := Nat.mod_lt _ hrows
    have e : r = r / (shape g.det).2.1 * (shape g.det).2.1 + r % (shape g.det).2.1 := by
      rw [Nat.mul_comm]; exact (Nat.div_add_mod _ _).symm
    obtain ⟨f, hf⟩ := tile_exists hC hm hi hj
    have a1 := p4 _ _ j f hi hj hf
    have a2 := q4 _ _ j (shiftFrag v f) hi hj (moved_tile hf)
    rw [show (moved g v).det = g.det from rfl] at a2
    rw [← e] at a1 a2
    rw [a1, a2]
    unfold Spec.pixelCorners
    simp only [List.map_map]
    rw [show (moved g v).det = g.det from rfl]
    apply List.map_congr_left
    intro c _
    exact point_moved f v _ _

/-- The positions of the quadrants in pixels: those of the documentation, but the first is half a pixel higher. -/
def halfQuads : List (ℚ × ℚ) := [(-525, 1251 / 2), (-550, -10), (520, -160), (542, 475)]

/-- The height of the image of the detector with quadrants at `halfQuads`, moved up by some pixels. -/
def halfHeight (dy : ℚ) : R Nat :=
  match agipdQuads (halfQuads.map (fun q => (q.1 + 0, q.2 + dy))) Det.agipd.pixelSize 2 29 with
  | .error e => .error e
  | .ok g => (g.outputFast 1 ()).map Plane.h

/-- C124. The code does not keep the image when the detector is moved by one pixel: a quadrant half way between two pixels is
rounded to the even one, so that before and after it goes to the same row while the other quadrants move on by one. -/
theorem moved_image_wrong : halfHeight 0 = .ok 1257 ∧ halfHeight 1 = .ok 1256 ∧ halfHeight 2 = .ok 1257 := by
  decide +kernel

/-- A case: any detector, moved by an even number of pixels. -/
example (g : Geom ℚ) (nan : Nat → V) (data : Stack V) :
    (moved g ⟨2 * (g.det.pixelShape (1 : ℚ)).1, -4 * (g.det.pixelShape (1 : ℚ)).2, 7⟩).positionFast 1 (fun _ _ => true) nan data none =
      (g.positionFast 1 (fun _ _ => true) nan data none).map (fun r => (r.1, (r.2.1 - (-4), r.2.2 - 2))) :=
  (moved_image_partial (a := 2) (b := -4) one_ne_zero (by norm_num) (by norm_num)
    (fun _ _ _ _ => ⟨Or.inl rfl, Or.inl rfl⟩) _ nan data none).1

/-- A case: a tile a quarter of a pixel off the grid, moved by one pixel. -/
example (f : Frag ℚ) (hf : f.corner = ⟨Det.agipd.pixelSize / 4, 0, 0⟩) :
    (moved ⟨.agipd, [[f]]⟩ ⟨Det.agipd.pixelSize, 0, 0⟩).outputFast 1 () = Geom.outputFast ⟨.agipd, [[f]]⟩ 1 () := by
  refine (moved_image_partial (g := ⟨.agipd, [[f]]⟩) (a := 1) (b := 0) one_ne_zero (by simp [Det.pixelShape]) (by simp) ?_
    (fun _ _ => true) (fun _ => ()) ⟨0, 0, 0, 0, fun _ _ _ => ()⟩ none).2 ()
  intro m hm f' hf'
  simp only [List.mem_singleton] at hm
  subst hm
  simp only [List.mem_singleton] at hf'
  subst hf'
  refine ⟨Or.inr ?_, Or.inl rfl⟩
  intro n h
  rw [hf] at h
  simp only [Det.pixelShape, Det.pixelSize] at h
  have h4 : ((4 * n : Int) : ℚ) = ((-1 : Int) : ℚ) := by push_cast; linarith
  have := Int.cast_injective h4
  omega

/-- A case: the quadrants of AGIPD moved by one pixel. -/
example : ∃ g g' : Geom ℚ, agipdQuads halfQuads Det.agipd.pixelSize 2 29 = .ok g ∧
    agipdQuads (halfQuads.map (fun q => (q.1 + 0, q.2 + 1))) Det.agipd.pixelSize 2 29 = .ok g' ∧
    g' = moved g ⟨0 * Det.agipd.pixelSize, 1 * Det.agipd.pixelSize, 0⟩ := by
  have h := (moved_quads (K := ℚ) halfQuads Det.agipd.pixelSize 0 1).1 2 29
  obtain ⟨g, hg⟩ : ∃ g, agipdQuads halfQuads Det.agipd.pixelSize 2 29 = .ok g := ⟨_, rfl⟩
  rw [hg] at h
  exact ⟨g, _, hg, h, rfl⟩

end KD.Geo
