/-
C101 images are plotted where the detector is; C102 layouts; C103 comparisons; C104 plots of the deprecated geometry.
-/
import Verif.Spec.Plot
import Verif.Props.Assemble
import Verif.Props.Positions
import Verif.Props.OldGeometry
import Verif.Lemmas.Writer

set_option linter.unusedSectionVars false

namespace KD.Geo

variable {V : Type} {K : Type} [Field K] [LinearOrder K] [IsStrictOrderedRing K] [FloorRing K]

theorem pixel_eq (d : Det) : (Spec.pixel d : K) = d.pixelSize := by
  cases d <;> simp only [Spec.pixel, Det.pixelSize] <;> norm_num

theorem pixel_pos (d : Det) : (0 : K) < Spec.pixel d := by
  cases d <;> simp only [Spec.pixel] <;> norm_num

/-! ### Images -/

/-- The unit of the axes of an image: a pixel of the image, in units of the axes. -/
def Spec.cellSize (d : Det) (units : Str) : K := if units = ch! "m" then Spec.pixel d else 1

theorem cellSize_pos (d : Det) (units : Str) : (0 : K) < Spec.cellSize d units := by
  unfold Spec.cellSize
  split
  · exact pixel_pos d
  · exact zero_lt_one

/-- C101. Where the edges of the pixels of an image are on the axes: the edge number k belongs at `k - centre`, and is shown
`k / n - 1 / 2` pixels further to the right (or up). -/
theorem plot_edges {g : Geom K} {rowStep : K} {safe : Nat → Nat → Bool} {nan : Nat → V} {data : Stack V} {units : Str} {frontview : Bool}
    {pic : Picture V K} (h : g.plotDataFast rowStep safe nan data units frontview = .ok pic) :
    ∃ c, g.positionFast rowStep safe nan data none = .ok (pic.image, c) ∧ pic.mirrored = frontview ∧ pic.crossAt = (0, 0) ∧
      pic.cross = 20 * Spec.cellSize g.det units ∧
      pic.label = (if units = ch! "m" then ch! "metres" else ch! "pixels") ∧
      (∀ k, 0 < pic.image.w → Spec.edge pic.left pic.right pic.image.w k =
        ((k : K) - c.2 + ((k : K) / pic.image.w - 1 / 2)) * Spec.cellSize g.det units) ∧
      (∀ k, 0 < pic.image.h → Spec.edge pic.bottom pic.top pic.image.h k =
        ((k : K) - c.1 + ((k : K) / pic.image.h - 1 / 2)) * Spec.cellSize g.det units) := by
  unfold Geom.plotDataFast at h
  unfold Geom.positionFast
  cases hs : g.snapped rowStep with
  | error e => rw [hs] at h; simp at h
  | ok s =>
    rw [hs] at h
    simp only at h
    have hdet : s.det = g.det := by
      unfold Geom.snapped at hs
      cases hm : mapE (mapE (fun f : Frag K => f.snap (g.det.pixelShape rowStep))) g.modules with
      | error e => rw [hm] at hs; simp at hs
      | ok mods => rw [hm] at hs; exact (box_tight hs).1
    unfold Snapped.plotData at h
    by_cases hu : units = ch! "px" ∨ units = ch! "m"
    · rw [if_pos hu] at h
      cases hp : s.positionModules safe nan data none with
      | error e => rw [hp] at h; simp at h
      | ok rc =>
        obtain ⟨res, c⟩ := rc
        rw [hp] at h
        simp only at h
        have hedge : ∀ (n k : Nat) (c : Int) (u : K), 0 < n →
            Spec.edge ((((-c : Int) : K) - 1 / 2) * u) ((((n - c : Int) : K) + 1 / 2) * u) n k =
              ((k : K) - c + ((k : K) / n - 1 / 2)) * u := by
          intro n k c u hn
          have : (n : K) ≠ 0 := by exact_mod_cast hn.ne'
          unfold Spec.edge
          push_cast
          field_simp
          ring
        have hcell : (if units = ch! "m" then s.det.pixelSize else (1 : K)) = Spec.cellSize g.det units := by
          unfold Spec.cellSize
          rw [hdet, pixel_eq]
        rw [hcell] at h
        refine ⟨c, ?_⟩
        have hpic : pic.image = res ∧ pic.left = (((-c.2 : Int) : K) - 1 / 2) * Spec.cellSize g.det units ∧
            pic.right = (((res.w - c.2 : Int) : K) + 1 / 2) * Spec.cellSize g.det units ∧
            pic.bottom = (((-c.1 : Int) : K) - 1 / 2) * Spec.cellSize g.det units ∧
            pic.top = (((res.h - c.1 : Int) : K) + 1 / 2) * Spec.cellSize g.det units ∧ pic.crossAt = (0, 0) ∧
            pic.cross = 20 * Spec.cellSize g.det units ∧ pic.label = axisLabel units ∧ pic.mirrored = frontview := by
          split at h
          · obtain rfl := Except.ok.inj h; simp
          · obtain rfl := Except.ok.inj h; simp
        obtain ⟨p1, p2, p3, p4, p5, p6, p7, p8, p9⟩ := hpic
        refine ⟨by rw [p1]; exact hp, p9, p6, p7, p8, ?_, ?_⟩
        · intro k hk
          rw [p1] at hk ⊢
          rw [p2, p3]
          exact hedge _ _ _ _ hk
        · intro k hk
          rw [p1] at hk ⊢
          rw [p4, p5]
          exact hedge _ _ _ _ hk
    · rw [if_neg hu] at h
      simp at h

/-- C101: other units raise ValueError. -/
theorem plot_units {g : Geom K} {rowStep : K} {safe : Nat → Nat → Bool} {nan : Nat → V} {data : Stack V} {units : Str} {frontview : Bool}
    (hC : Spec.Complete g) (hA : Spec.AllSnap g (g.det.pixelShape rowStep)) (hu : ¬ Spec.Units units) :
    g.plotDataFast rowStep safe nan data units frontview = .error .value := by
  obtain ⟨mods, s, -, -, h3, -, -⟩ := snapped_succeeds hC hA
  unfold Spec.Units at hu
  unfold Geom.plotDataFast Snapped.plotData
  rw [h3]
  simp only
  rw [if_neg hu]

/-- C101: if the data cannot be assembled, plotting raises the same exception. -/
theorem plot_fails {g : Geom K} {rowStep : K} {safe : Nat → Nat → Bool} {nan : Nat → V} {data : Stack V} {units : Str} {frontview : Bool}
    (hu : Spec.Units units) {e : PyErr} (h : g.positionFast rowStep safe nan data none = .error e) :
    g.plotDataFast rowStep safe nan data units frontview = .error e := by
  unfold Spec.Units at hu
  unfold Geom.positionFast at h
  unfold Geom.plotDataFast
  cases hs : g.snapped rowStep with
  | error e' => rw [hs] at h; exact congrArg _ (Except.error.inj h)
  | ok s =>
    rw [hs] at h
    simp only at h ⊢
    unfold Snapped.plotData
    rw [if_pos hu, h]

/-- C101, part: plotting works, and shows each pixel of the detector at most half a pixel away from where it is. A pixel which covers
the cell (y, x) of the grid belongs between x and x + 1, and y and y + 1 (in pixels, from the centre). Missing for the full claim: the
pixels are not exactly there, except those in the middle (`plot_edges_wrong`). -/
theorem plot_near_partial (g : Geom K) (rowStep : K) (safe : Nat → Nat → Bool) (nan : Nat → V) (data : Stack V) (units : Str)
    (frontview : Bool) (hC : Spec.Complete g) (hS : Spec.RightSize g) (hA : Spec.AllSnap g (g.det.pixelShape rowStep))
    (hd : (data.n, data.h, data.w) = Spec.shape g.det) (hu : Spec.Units units) :
    ∃ pic c, g.plotDataFast rowStep safe nan data units frontview = .ok pic ∧
      Spec.Assembled g (g.det.pixelShape rowStep) data ⟨pic.image.h, pic.image.w, fun _ _ => nan data.dtype⟩ pic.image c ∧
      pic.aspect = (if g.det = .dssc then 204 / 236 else 1) ∧
      ∀ m i j yx, Spec.Covers g (g.det.pixelShape rowStep) m i j yx → ∃ row col : Nat, (row : Int) = yx.1 + c.1 ∧ (col : Int) = yx.2 + c.2 ∧
        ∀ d ∈ [0, 1],
          |Spec.edge pic.left pic.right pic.image.w (col + d) - ((yx.2 : K) + d) * Spec.cellSize g.det units| ≤ Spec.cellSize g.det units / 2 ∧
          |Spec.edge pic.bottom pic.top pic.image.h (row + d) - ((yx.1 : K) + d) * Spec.cellSize g.det units| ≤ Spec.cellSize g.det units / 2 := by
  obtain ⟨img, c, h1, h2⟩ := assemble_new g rowStep safe nan data hC hS hA hd
  have h1' := h1
  unfold Geom.positionFast at h1
  unfold Spec.Units at hu
  obtain ⟨pic, hp, ha⟩ : ∃ pic, g.plotDataFast rowStep safe nan data units frontview = .ok pic ∧
      pic.aspect = (if g.det = .dssc then 204 / 236 else 1) := by
    unfold Geom.plotDataFast
    cases hs : g.snapped rowStep with
    | error e => rw [hs] at h1; simp at h1
    | ok s =>
      rw [hs] at h1
      simp only at h1 ⊢
      unfold Snapped.plotData
      rw [if_pos hu, h1]
      simp only
      split
      · exact ⟨_, rfl, by simp⟩
      · exact ⟨_, rfl, by simp⟩
  obtain ⟨c', q1, -, -, -, -, q6, q7⟩ := plot_edges hp
  rw [h1'] at q1
  simp only [Except.ok.injEq, Prod.mk.injEq] at q1
  obtain ⟨rfl, rfl⟩ := q1
  refine ⟨pic, c, hp, h2, ha, ?_⟩
  intro m i j yx hc
  obtain ⟨b1, b2, b3, b4⟩ := h2.inside m i j yx hc
  have hpos := cellSize_pos (K := K) g.det units
  have key : ∀ (n k : Nat) (a z : Int) (d : Nat), 0 < n → (k : Int) = z + a → k + d ≤ n →
      |((((k + d : Nat) : K)) - a + (((k + d : Nat) : K) / n - 1 / 2)) * Spec.cellSize g.det units -
        ((z : K) + d) * Spec.cellSize g.det units| ≤ Spec.cellSize g.det units / 2 := by
    intro n k a z d hn hk hkn
    have hk' : (k : K) = z + a := by exact_mod_cast hk
    have e : ((((k + d : Nat) : K)) - a + (((k + d : Nat) : K) / n - 1 / 2)) * Spec.cellSize g.det units -
        ((z : K) + d) * Spec.cellSize g.det units = (((k + d : Nat) : K) / n - 1 / 2) * Spec.cellSize g.det units := by
      rw [Nat.cast_add, hk']
      ring
    rw [e, abs_mul, abs_of_pos hpos]
    have hn' : (0 : K) < n := by exact_mod_cast hn
    have f1 : (0 : K) ≤ ((k + d : Nat) : K) / n := by positivity
    have f2 : ((k + d : Nat) : K) / n ≤ 1 := by
      rw [div_le_one hn']; exact_mod_cast hkn
    have : |((k + d : Nat) : K) / n - 1 / 2| ≤ 1 / 2 := by
      rw [abs_le]; constructor <;> linarith
    calc _ ≤ 1 / 2 * Spec.cellSize g.det units := mul_le_mul_of_nonneg_right this hpos.le
      _ = _ := by ring
  refine ⟨(yx.1 + c.1).toNat, (yx.2 + c.2).toNat, by omega, by omega, ?_⟩
  intro d hd'
  have hd1 : d ≤ 1 := by
    simp only [List.mem_cons, List.not_mem_nil, or_false] at hd'; omega
  constructor
  · rw [q6 _ (by omega)]
    exact key _ _ _ _ d (by omega) (by omega) (by omega)
  · rw [q7 _ (by omega)]
    exact key _ _ _ _ d (by omega) (by omega) (by omega)

/-- C101: the first column of every plotted image is half a pixel too far left, the end of the last column half a pixel too far right. -/
theorem plot_edges_wrong {g : Geom K} {rowStep : K} {safe : Nat → Nat → Bool} {nan : Nat → V} {data : Stack V} {units : Str} {frontview : Bool}
    {pic : Picture V K} (h : g.plotDataFast rowStep safe nan data units frontview = .ok pic) (hw : 0 < pic.image.w) :
    ∃ c, g.positionFast rowStep safe nan data none = .ok (pic.image, c) ∧
      Spec.edge pic.left pic.right pic.image.w 0 = (-(c.2 : K) - 1 / 2) * Spec.cellSize g.det units ∧
      Spec.edge pic.left pic.right pic.image.w pic.image.w = ((pic.image.w : K) - c.2 + 1 / 2) * Spec.cellSize g.det units := by
  obtain ⟨c, q1, -, -, -, -, q6, -⟩ := plot_edges h
  refine ⟨c, q1, ?_, ?_⟩
  · rw [q6 0 hw]; simp only [Nat.cast_zero, zero_div]; ring
  · rw [q6 _ hw, div_self (by exact_mod_cast hw.ne')]; ring

/-- C101: on axes in metres, a row of DSSC is shown higher than it is (pixels are `rowStep` times as high as they are wide, and
`1.5 / sqrt(3)` is less than 1). -/
theorem plot_dssc_metres_wrong {g : Geom K} (hd : g.det = .dssc) {rowStep : K} (hr : rowStep < 1) {safe : Nat → Nat → Bool} {nan : Nat → V}
    {data : Stack V} {frontview : Bool} {pic : Picture V K}
    (h : g.plotDataFast rowStep safe nan data (ch! "m") frontview = .ok pic) (hh : 0 < pic.image.h) (k : Nat) :
    (g.det.pixelShape rowStep).2 <
      Spec.edge pic.bottom pic.top pic.image.h (k + 1) - Spec.edge pic.bottom pic.top pic.image.h k := by
  obtain ⟨c, -, -, -, -, -, -, q7⟩ := plot_edges h
  rw [q7 _ hh, q7 _ hh, hd]
  have hn : (0 : K) < pic.image.h := by exact_mod_cast hh
  have e : (((k + 1 : Nat) : K) - c.1 + (((k + 1 : Nat) : K) / pic.image.h - 1 / 2)) * Spec.cellSize Det.dssc (ch! "m") -
      ((k : K) - c.1 + ((k : K) / pic.image.h - 1 / 2)) * Spec.cellSize Det.dssc (ch! "m") =
      (1 + 1 / pic.image.h) * Spec.cellSize Det.dssc (ch! "m") := by
    push_cast
    ring
  rw [e]
  have hc : (Spec.cellSize Det.dssc (ch! "m") : K) = 236 / 1000000 := by simp [Spec.cellSize, Spec.pixel]
  rw [hc]
  simp only [Det.pixelShape, Det.pixelSize]
  have h1 : (0 : K) < 1 / pic.image.h := by positivity
  apply mul_lt_mul_of_pos_right _ (by norm_num)
  linarith

/-! ### Layouts -/

theorem plotScale_ok {d : Det} {units : Str} (hu : Spec.Units units) : d.plotScale units = .ok (1 / Spec.axisUnit d units : K) := by
  unfold Det.plotScale Spec.axisUnit
  by_cases hm : units = ch! "m"
  · rw [if_pos hm, if_pos hm]; simp
  · rw [if_neg hm, if_neg hm, if_pos (hu.resolve_right hm), pixel_eq]

theorem xy_onAxes (u : K) (v : Vec K) : v.xy (1 / u) = Spec.onAxes u v := by
  simp [Vec.xy, Spec.onAxes, div_eq_mul_inv]

theorem xy_one (v : Vec K) : v.xy 1 = (v.x, v.y) := by
  simp [Vec.xy]

theorem corners_outline (u : K) (f : Frag K) : f.corners.map (fun c => c.xy (1 / u)) = Spec.outline u f := by
  simp only [Frag.corners, List.map_cons, List.map_nil, xy_onAxes, Spec.outline]
  congr 2 <;> simp [Spec.onAxes, Spec.point, Vec.add, Vec.smul, mul_comm]

theorem centre_middle (u : K) (f : Frag K) : f.centre.xy (1 / u) = Spec.middle u f := by
  rw [xy_onAxes]
  unfold Spec.middle Spec.onAxes
  simp only [Frag.centre, Spec.point, Vec.add, Vec.smul]
  apply Prod.ext <;> simp only <;> ring


theorem zipIdx_filter_one {α : Type} (l : List α) (k n : Nat) :
    (l.zipIdx k).filter (fun p => p.2 = n) = if n < k then [] else ((l[n - k]?).map (fun a => (a, n))).toList := by
  induction l generalizing k with
  | nil => split <;> simp
  | cons a l ih =>
    rw [List.zipIdx_cons, List.filter_cons, ih (k + 1)]
    by_cases h : k = n
    · subst h; simp
    · rw [if_neg (by simpa using h)]
      by_cases h1 : n < k
      · rw [if_pos (by omega), if_pos h1]
      · rw [if_neg (by omega), if_neg h1]
        have : n - k = (n - (k + 1)) + 1 := by omega
        rw [this, List.getElem?_cons_succ]

theorem firstRow_eq (u : K) (f : Frag K) :
    f.firstRow (1 / u) = (Spec.onAxes u (Spec.point f 0 0), Spec.onAxes u (Spec.point f 0 f.fsPixels)) := by
  unfold Frag.firstRow
  rw [xy_onAxes, xy_one]
  simp only [Spec.onAxes, Spec.point, Vec.add, Vec.smul]
  refine Prod.ext (Prod.ext ?_ ?_) (Prod.ext ?_ ?_) <;> simp only <;> ring

theorem firstTile_eq (d : Det) : d.firstTile = Spec.tileOf d 0 0 + 1 := by
  cases d <;> rfl

theorem firstRows_eq (g : Geom K) (u : K) :
    g.firstRows (1 / u) = g.modules.filterMap (fun m => (m[Spec.tileOf g.det 0 0]?).map (fun f =>
      (Spec.onAxes u (Spec.point f 0 0), Spec.onAxes u (Spec.point f 0 f.fsPixels)))) := by
  unfold Geom.firstRows
  rw [firstTile_eq]
  induction g.modules with
  | nil => rfl
  | cons m ms ih =>
    rw [List.map_cons, List.flatten_cons, List.map_append, ih, zipIdx_filter_one, if_neg (by omega), Nat.add_sub_cancel,
      List.filterMap_cons]
    cases m[Spec.tileOf g.det 0 0]? with
    | none => rfl
    | some f => simp only [Option.map_some, Option.toList_some, List.map_cons, List.map_nil, firstRow_eq]; rfl

theorem filterMap_all {α β : Type} {f : α → Option β} {l : List α} (h : ∀ a ∈ l, (f a).isSome) :
    (l.filterMap f).length = l.length ∧ ∀ i : Nat, (l.filterMap f)[i]? = (l[i]?).bind f := by
  induction l with
  | nil => simp
  | cons a l ih =>
    obtain ⟨b, hb⟩ := Option.isSome_iff_exists.1 (h a (by simp))
    obtain ⟨i1, i2⟩ := ih (fun x hx => h x (by simp [hx]))
    rw [List.filterMap_cons, hb]
    refine ⟨by simp [i1], ?_⟩
    intro i
    cases i with
    | zero => simp [hb]
    | succ i => simp [i2]

/-- The texts of a layout: the names of modules, and labels of tiles. -/
def Spec.Text (g : Geom K) (unit : K) (text : Str) (place : K × K) : Prop :=
  (∃ m f, Spec.IsTile g m (Spec.named g.det).1 f ∧ text = Spec.moduleName m ∧ place = Spec.middle unit f) ∨
  ∃ m t f, t ∈ (Spec.named g.det).2 ∧ Spec.IsTile g m t f ∧ text = Spec.tileLabel t ∧ place = Spec.middle unit f

theorem named_lt (d : Det) : (Spec.named d).1 < Spec.tiles d ∧ ∀ t ∈ (Spec.named d).2, t < Spec.tiles d := by
  cases d <;> simp [Spec.named, Spec.tiles]

theorem named_max (d : Det) : ∃ t ∈ (Spec.named d).2, t + 1 = Spec.tiles d := by
  cases d <;> simp [Spec.named, Spec.tiles]

theorem labelled_eq (d : Det) : d.labelled = Spec.named d := by cases d <;> rfl

theorem tileText_ok_iff {m : List (Frag K)} {u : K} {t : Nat} {b : Str × (K × K)} :
    tileText m (1 / u) t = .ok b ↔ ∃ f, m[t]? = some f ∧ b = (Spec.tileLabel t, Spec.middle u f) := by
  unfold tileText nth
  cases m[t]? with
  | none => simp
  | some f =>
    simp only [Option.some.injEq, exists_eq_left', centre_middle]
    rw [Except.ok.injEq, eq_comm]
    rfl

theorem moduleTexts_ok (d : Det) (u : K) (m : List (Frag K)) (c : Nat) (h : Spec.tiles d ≤ m.length) :
    ∃ ts, moduleTexts d (1 / u) (m, c) = .ok ts ∧ ∀ text place, (text, place) ∈ ts ↔
      (∃ f, m[(Spec.named d).1]? = some f ∧ text = Spec.moduleName c ∧ place = Spec.middle u f) ∨
      ∃ t f, t ∈ (Spec.named d).2 ∧ m[t]? = some f ∧ text = Spec.tileLabel t ∧ place = Spec.middle u f := by
  obtain ⟨n1, n2⟩ := named_lt d
  unfold moduleTexts
  have hlt : (Spec.named d).1 < m.length := by omega
  simp only
  rw [labelled_eq, nth_ok_of_lt hlt]
  obtain ⟨ts, hts⟩ := mapE_exists_ok (f := tileText m (1 / u)) (l := (Spec.named d).2) (fun t ht => by
    have := n2 t ht
    exact ⟨_, tileText_ok_iff.2 ⟨_, List.getElem?_eq_getElem (by omega), rfl⟩⟩)
  simp only
  rw [hts]
  refine ⟨_, rfl, ?_⟩
  intro text place
  rw [List.mem_cons]
  apply or_congr
  · rw [Prod.mk.injEq, centre_middle]
    constructor
    · rintro ⟨rfl, rfl⟩
      exact ⟨_, List.getElem?_eq_getElem hlt, rfl, rfl⟩
    · rintro ⟨f, hf, rfl, rfl⟩
      rw [List.getElem?_eq_getElem hlt, Option.some.injEq] at hf
      exact ⟨rfl, by rw [hf]⟩
  · rw [mapE_mem hts]
    constructor
    · rintro ⟨t, ht, he⟩
      obtain ⟨f, hf, hb⟩ := tileText_ok_iff.1 he
      rw [Prod.mk.injEq] at hb
      exact ⟨t, f, ht, hf, hb⟩
    · rintro ⟨t, f, ht, hf, rfl, rfl⟩
      exact ⟨t, ht, tileText_ok_iff.2 ⟨f, hf, rfl⟩⟩

/-- C102: `inspect` draws the outline of every tile; for every module it marks the corner of the pixel which is first in the data, and the
edge of its tile in the direction of the fast scan; texts are in the middle of the tiles they name. -/
theorem inspect_layout (g : Geom K) (h0 : g.modules ≠ []) (ht : ∀ m ∈ g.modules, Spec.tiles g.det ≤ m.length) {units : Str}
    (hu : Spec.Units units) (frontview : Bool) :
    ∃ l, g.inspect units frontview = .ok l ∧ l.mirrored = frontview ∧ l.label = (if units = ch! "m" then ch! "metres" else ch! "pixels") ∧
      l.cross = 2 / 100 / Spec.axisUnit g.det units ∧
      l.outlines = g.modules.flatten.map (Spec.outline (Spec.axisUnit g.det units)) ∧
      l.firstRows.length = g.modules.length ∧
      (∀ (m : Nat) (f : Frag K), Spec.IsTile g m (Spec.tileOf g.det 0 0) f → l.firstRows[m]? =
        some (Spec.onAxes (Spec.axisUnit g.det units) (Spec.point f 0 0), Spec.onAxes (Spec.axisUnit g.det units) (Spec.point f 0 f.fsPixels))) ∧
      ∀ text place, (text, place) ∈ l.texts ↔ Spec.Text g (Spec.axisUnit g.det units) text place := by
  have hsome : ∀ m ∈ g.modules, ((m[Spec.tileOf g.det 0 0]?).map (fun f : Frag K =>
      (Spec.onAxes (Spec.axisUnit g.det units) (Spec.point f 0 0), Spec.onAxes (Spec.axisUnit g.det units) (Spec.point f 0 f.fsPixels)))).isSome := by
    intro m hm
    have h1 := ht m hm
    have h2 : Spec.tileOf g.det 0 0 < Spec.tiles g.det := by cases g.det <;> decide
    rw [List.getElem?_eq_getElem (by omega)]
    rfl
  obtain ⟨f1, f2⟩ := filterMap_all hsome
  rw [← firstRows_eq] at f1 f2
  have hne : g.firstRows (1 / Spec.axisUnit g.det units) ≠ [] := by
    intro hnil
    rw [hnil] at f1
    exact h0 (List.length_eq_zero_iff.1 f1.symm)
  have hbase : g.inspectBase units frontview = .ok ⟨g.modules.flatten.map (Spec.outline (Spec.axisUnit g.det units)),
      g.firstRows (1 / Spec.axisUnit g.det units), [], 2 / 100 * (1 / Spec.axisUnit g.det units), axisLabel units, frontview⟩ := by
    unfold Geom.inspectBase
    rw [plotScale_ok hu]
    simp only [corners_outline]
  obtain ⟨ts, hts⟩ := mapE_exists_ok (f := moduleTexts g.det (1 / Spec.axisUnit g.det units)) (l := g.modules.zipIdx) (fun mc hmc => by
    obtain ⟨r, hr, -⟩ := moduleTexts_ok g.det (Spec.axisUnit g.det units) mc.1 mc.2 (ht _ (List.fst_mem_of_mem_zipIdx hmc))
    exact ⟨r, hr⟩)
  refine ⟨_, by unfold Geom.inspect; rw [hbase, plotScale_ok hu]; simp only; rw [hts], rfl, rfl, by simp only; ring, rfl, f1, ?_, ?_⟩
  · rintro m f ⟨mod, h1, h2⟩
    simp only
    rw [f2, h1, Option.bind_some, h2]
    rfl
  · intro text place
    simp only [List.mem_flatten]
    unfold Spec.Text
    constructor
    · rintro ⟨l, hl, hmem⟩
      obtain ⟨mc, hmc, he⟩ := (mapE_mem hts).1 hl
      have hget : g.modules[mc.2]? = some mc.1 := List.mem_zipIdx_iff_getElem?.1 hmc
      obtain ⟨r, hr, hiff⟩ := moduleTexts_ok g.det (Spec.axisUnit g.det units) mc.1 mc.2 (ht _ (List.fst_mem_of_mem_zipIdx hmc))
      obtain rfl := Except.ok.inj (he.symm.trans hr)
      rcases (hiff text place).1 hmem with ⟨f, a, b⟩ | ⟨t, f, a, b, c⟩
      · exact Or.inl ⟨mc.2, f, ⟨_, hget, a⟩, b⟩
      · exact Or.inr ⟨mc.2, t, f, a, ⟨_, hget, b⟩, c⟩
    · intro h
      obtain ⟨m, mod, hget, hin⟩ : ∃ (m : Nat) (mod : List (Frag K)), g.modules[m]? = some mod ∧
          ((∃ f, mod[(Spec.named g.det).1]? = some f ∧ text = Spec.moduleName m ∧ place = Spec.middle (Spec.axisUnit g.det units) f) ∨
            ∃ t f, t ∈ (Spec.named g.det).2 ∧ mod[t]? = some f ∧ text = Spec.tileLabel t ∧ place = Spec.middle (Spec.axisUnit g.det units) f) := by
        rcases h with ⟨m, f, ⟨mod, h1, h2⟩, h3⟩ | ⟨m, t, f, h0, ⟨mod, h1, h2⟩, h3⟩
        · exact ⟨m, mod, h1, Or.inl ⟨f, h2, h3⟩⟩
        · exact ⟨m, mod, h1, Or.inr ⟨t, f, h0, h2, h3⟩⟩
      have hmc : (mod, m) ∈ g.modules.zipIdx := List.mem_zipIdx_iff_getElem?.2 hget
      obtain ⟨r, hr, hiff⟩ := moduleTexts_ok g.det (Spec.axisUnit g.det units) mod m (ht _ (List.fst_mem_of_mem_zipIdx hmc))
      exact ⟨r, (mapE_mem hts).2 ⟨_, hmc, hr⟩, (hiff text place).2 hin⟩

/-- C102: names of different modules are different. -/
theorem moduleName_inj {m m' : Nat} (h : Spec.moduleName m = Spec.moduleName m') : m = m' := by
  unfold Spec.moduleName at h
  simp only [List.append_assoc, List.cons_append, List.nil_append, List.cons.injEq, true_and] at h
  obtain ⟨h1, -, h2⟩ := num_split (by decide) (by decide) h
  have := natStr_inj h2
  omega

/-- C102: other units raise ValueError. -/
theorem inspect_units (g : Geom K) {units : Str} (hu : ¬ Spec.Units units) (frontview : Bool) :
    g.inspect units frontview = .error .value := by
  have : g.det.plotScale units = (.error .value : R K) := by
    unfold Det.plotScale
    unfold Spec.Units at hu
    rw [if_neg (fun h => hu (Or.inr h)), if_neg (fun h => hu (Or.inl h))]
  unfold Geom.inspect Geom.inspectBase
  rw [this]

/-- C102: with tiles missing (in any module), or no modules, `inspect` raises IndexError. -/
theorem inspect_incomplete (g : Geom K) (h : g.modules = [] ∨ ∃ m ∈ g.modules, m.length < Spec.tiles g.det) {units : Str}
    (hu : Spec.Units units) (frontview : Bool) : g.inspect units frontview = .error .index := by
  unfold Geom.inspect
  cases hb : g.inspectBase units frontview with
  | error e =>
    unfold Geom.inspectBase at hb
    rw [plotScale_ok hu] at hb
    simp only at hb
    split at hb
    · exact hb ▸ rfl
    · simp at hb
  | ok l =>
    simp only
    rw [plotScale_ok hu]
    simp only
    have hmods : g.modules ≠ [] := by
      intro h0
      unfold Geom.inspectBase Geom.firstRows at hb
      rw [plotScale_ok hu, h0] at hb
      simp at hb
    obtain ⟨m, hm, hlen⟩ := h.resolve_left hmods
    cases hts : mapE (moduleTexts g.det (1 / Spec.axisUnit g.det units)) g.modules.zipIdx with
    | ok ts =>
      exfalso
      obtain ⟨i, hi⟩ := List.mem_iff_getElem?.1 hm
      have hmc : (m, i) ∈ g.modules.zipIdx := List.mem_zipIdx_iff_getElem?.2 hi
      obtain ⟨r, -, hr⟩ := mapE_ok_all hts hmc
      unfold moduleTexts at hr
      simp only at hr
      rw [labelled_eq] at hr
      split at hr
      · simp at hr
      · obtain ⟨t, ht, hmax⟩ := named_max g.det
        split at hr
        · simp at hr
        · rename_i hall
          obtain ⟨b, -, hb'⟩ := mapE_ok_all hall ht
          obtain ⟨f, hf, -⟩ := tileText_ok_iff.1 hb'
          have := (List.getElem?_eq_some_iff.1 hf).1
          omega
    | error e =>
      obtain ⟨mc, -, he⟩ := mapE_error_of hts
      simp only
      unfold moduleTexts at he
      split at he
      · rename_i hn
        obtain rfl := Except.error.inj he
        rw [(nth_error_iff.1 hn).2]
      · split at he
        · rename_i hn
          obtain rfl := Except.error.inj he
          obtain ⟨t, -, ht⟩ := mapE_error_of hn
          unfold tileText at ht
          split at ht
          · rename_i hn'
            obtain rfl := Except.error.inj ht
            rw [(nth_error_iff.1 hn').2]
          · simp at ht
        · simp at he

/-! ### Comparisons -/

/-- Where an arrow ends. -/
def Arrow.tip (a : Arrow K) : K × K := (a.start.1 + a.delta.1, a.start.2 + a.delta.2)

/-- The arrows of a comparison: from the first corner and the opposite corner of a tile, if it is elsewhere in the other geometry, towards
the same corner there. -/
def Spec.IsArrow (g other : Geom K) (scale : K) (a : Arrow K) : Prop :=
  ∃ m t f f' opposite v v', Spec.IsTile g m t f ∧ Spec.IsTile other m t f' ∧ Spec.IsEnd opposite f v ∧ Spec.IsEnd opposite f' v' ∧
    (v.x ≠ v'.x ∨ v.y ≠ v'.y) ∧ a.start = (v.x, v.y) ∧ a.delta = ((v'.x - v.x) * scale, (v'.y - v.y) * scale)

theorem cornerArrow_mem {scale : K} {v v' : Vec K} {a : Arrow K} : a ∈ cornerArrow scale v v' ↔
    (v.x ≠ v'.x ∨ v.y ≠ v'.y) ∧ a.start = (v.x, v.y) ∧ a.delta = ((v'.x - v.x) * scale, (v'.y - v.y) * scale) := by
  unfold cornerArrow
  have e : (v'.x - v.x = 0 ∧ v'.y - v.y = 0) ↔ ¬ (v.x ≠ v'.x ∨ v.y ≠ v'.y) := by
    rw [sub_eq_zero, sub_eq_zero, eq_comm, @eq_comm _ v'.y]
    tauto
  by_cases h : v.x ≠ v'.x ∨ v.y ≠ v'.y
  · rw [if_neg (by rw [e]; exact not_not.2 h), List.mem_singleton]
    constructor
    · rintro rfl
      exact ⟨h, rfl, by rw [mul_comm scale, mul_comm scale]⟩
    · rintro ⟨-, h1, h2⟩
      cases a
      simp only at h1 h2
      rw [h1, h2, mul_comm scale, mul_comm scale]
  · rw [if_pos (e.2 h)]
    simp only [List.not_mem_nil, false_iff]
    exact fun h' => h h'.1

theorem far_corner (f : Frag K) : (f.corner.add (f.ss.smul f.ssPixels)).add (f.fs.smul f.fsPixels) = Spec.point f f.ssPixels f.fsPixels := by
  simp [Spec.point, Vec.add, Vec.smul, mul_comm]

theorem near_corner (f : Frag K) : f.corner = Spec.point f 0 0 := by
  simp [Spec.point]

theorem tileArrows_mem {scale : K} {f f' : Frag K} {a : Arrow K} : a ∈ tileArrows scale f f' ↔
    ∃ opposite v v', Spec.IsEnd opposite f v ∧ Spec.IsEnd opposite f' v' ∧
      (v.x ≠ v'.x ∨ v.y ≠ v'.y) ∧ a.start = (v.x, v.y) ∧ a.delta = ((v'.x - v.x) * scale, (v'.y - v.y) * scale) := by
  unfold tileArrows
  rw [far_corner, far_corner, List.mem_append, cornerArrow_mem, cornerArrow_mem]
  constructor
  · rintro (h | h)
    · exact ⟨false, _, _, near_corner f, near_corner f', h⟩
    · exact ⟨true, _, _, rfl, rfl, h⟩
  · rintro ⟨o, v, v', h1, h2, h⟩
    unfold Spec.IsEnd at h1 h2
    cases o with
    | false =>
      left
      rw [near_corner f, near_corner f']
      simp only [Bool.false_eq_true, if_false] at h1 h2
      rw [← h1, ← h2]; exact h
    | true =>
      right
      simp only [if_true] at h1 h2
      rw [← h1, ← h2]; exact h

theorem compareModule_ok {scale : K} {other : Geom K} {m : List (Frag K)} {p : Nat} {m' : List (Frag K)}
    (ho : other.modules[p]? = some m') (hl : m.length ≤ m'.length) :
    ∃ r, compareModule scale other (m, p) = .ok r ∧ ∀ a, a ∈ r.flatten ↔
      ∃ (t : Nat) (f f' : Frag K), m[t]? = some f ∧ m'[t]? = some f' ∧ a ∈ tileArrows scale f f' := by
  unfold compareModule
  have hstep : ∀ fa ∈ m.zipIdx, ∃ f', m'[fa.2]? = some f' ∧ (match nth other.modules p with
      | .error e => .error e
      | .ok m =>
        match nth m fa.2 with
        | .error e => .error e
        | .ok f' => .ok (tileArrows scale fa.1 f') : R (List (Arrow K))) = .ok (tileArrows scale fa.1 f') := by
    intro fa hfa
    have h1 := List.mem_zipIdx_iff_getElem?.1 hfa
    have h2 := (List.getElem?_eq_some_iff.1 h1).1
    refine ⟨m'[fa.2]'(by omega), List.getElem?_eq_getElem _, ?_⟩
    unfold nth
    rw [ho]
    simp only
    rw [List.getElem?_eq_getElem (by omega)]
  obtain ⟨r, hr⟩ := mapE_exists_ok (l := m.zipIdx) (fun fa hfa => by
    obtain ⟨f', -, h⟩ := hstep fa hfa
    exact ⟨_, h⟩)
  refine ⟨r, hr, ?_⟩
  intro a
  rw [List.mem_flatten]
  constructor
  · rintro ⟨l, hl', ha⟩
    obtain ⟨fa, hfa, he⟩ := (mapE_mem hr).1 hl'
    obtain ⟨f', h1, h2⟩ := hstep fa hfa
    obtain rfl := Except.ok.inj (he.symm.trans h2)
    exact ⟨fa.2, fa.1, f', List.mem_zipIdx_iff_getElem?.1 hfa, h1, ha⟩
  · rintro ⟨t, f, f', h1, h2, ha⟩
    have hfa : (f, t) ∈ m.zipIdx := List.mem_zipIdx_iff_getElem?.2 h1
    obtain ⟨f'', h3, h4⟩ := hstep _ hfa
    obtain rfl := Option.some.inj (h2.symm.trans h3)
    exact ⟨_, (mapE_mem hr).2 ⟨_, hfa, h4⟩, ha⟩

theorem listMin_least {P : K × K → K} {p : K × K} {ps : List (K × K)} :
    IsLeast {x | ∃ q ∈ p :: ps, P q = x} (listMin (P p) (ps.map P)) := by
  constructor
  · have := listMin_mem (P p) (ps.map P)
    rw [← List.map_cons, List.mem_map] at this
    exact this
  · rintro x ⟨q, hq, rfl⟩
    rcases List.mem_cons.1 hq with rfl | hq
    · exact (listMin_le _ _).1
    · exact (listMin_le _ _).2 _ (List.mem_map_of_mem hq)

theorem listMax_greatest {P : K × K → K} {p : K × K} {ps : List (K × K)} :
    IsGreatest {x | ∃ q ∈ p :: ps, P q = x} (listMax (P p) (ps.map P)) := by
  constructor
  · have := listMax_mem (P p) (ps.map P)
    rw [← List.map_cons, List.mem_map] at this
    exact this
  · rintro x ⟨q, hq, rfl⟩
    rcases List.mem_cons.1 hq with rfl | hq
    · exact (le_listMax _ _).1
    · exact (le_listMax _ _).2 _ (List.mem_map_of_mem hq)

/-- The text on the tile t of module m in a comparison. -/
def Spec.compareLabel (m t : Nat) : Option Str :=
  if t = 0 then some (ch! "0") else if t = 7 then some (ch! "7") else if t = 4 then some (ch! "p" ++ natStr m) else none

theorem compareText_mem {p : Nat} {f : Frag K} {t : Nat} {text : Str} {place : K × K} :
    (text, place) ∈ compareText p (f, t) ↔ Spec.compareLabel p t = some text ∧ place = Spec.middle 1 f := by
  have hm : f.centre.xy 1 = Spec.middle 1 f := by
    have := centre_middle 1 f
    rwa [div_one] at this
  unfold compareText Spec.compareLabel
  simp only [hm]
  by_cases h0 : t = 0
  · subst h0
    simp only [true_or, if_true, List.mem_singleton, Prod.mk.injEq, Option.some.injEq]
    rw [eq_comm]; rfl
  · by_cases h7 : t = 7
    · subst h7
      simp only [or_true, if_true, List.mem_singleton, Prod.mk.injEq, h0, if_false, Option.some.injEq]
      rw [eq_comm]; rfl
    · by_cases h4 : t = 4
      · subst h4
        simp [eq_comm]
      · simp [h0, h7, h4]

/-- The points a comparison has to show: the corners of the tiles and the polygons of the arrows. -/
def Spec.Drawn (r : Comparison K) (hull : Arrow K → List (K × K)) (p : K × K) : Prop :=
  (∃ o ∈ r.outlines, p ∈ o) ∨ ∃ a ∈ r.arrows, p ∈ hull a

/-- C103: `compare` draws every tile, and arrows from corners to where they are in the other geometry; the limits of the axes are a margin
away from all which is drawn. -/
theorem compare_shows (g other : Geom K) (scale : K) (hull : Arrow K → List (K × K)) (h0 : ∃ m ∈ g.modules, m ≠ [])
    (hm : ∀ (m : Nat) (mod : List (Frag K)), g.modules[m]? = some mod → ∃ mod', other.modules[m]? = some mod' ∧ mod.length ≤ mod'.length) :
    ∃ r, g.compare other scale hull = .ok r ∧ r.outlines = g.modules.flatten.map (Spec.outline 1) ∧
      (∀ a, a ∈ r.arrows ↔ Spec.IsArrow g other scale a) ∧
      (∀ text place, (text, place) ∈ r.texts ↔
        ∃ m t f, Spec.IsTile g m t f ∧ Spec.compareLabel m t = some text ∧ place = Spec.middle 1 f) ∧
      IsLeast {x | ∃ p, Spec.Drawn r hull p ∧ p.1 = x} (r.xlim.1 + 20) ∧ IsGreatest {x | ∃ p, Spec.Drawn r hull p ∧ p.1 = x} (r.xlim.2 - 20) ∧
      IsLeast {y | ∃ p, Spec.Drawn r hull p ∧ p.2 = y} (r.ylim.1 + 40) ∧ IsGreatest {y | ∃ p, Spec.Drawn r hull p ∧ p.2 = y} (r.ylim.2 - 20) := by
  have hmod : ∀ mp ∈ g.modules.zipIdx, ∃ r, compareModule scale other mp = .ok r ∧ ∀ a, a ∈ r.flatten ↔
      ∃ (t : Nat) (f f' : Frag K), mp.1[t]? = some f ∧ Spec.IsTile other mp.2 t f' ∧ a ∈ tileArrows scale f f' := by
    intro mp hmp
    obtain ⟨mod', h1, h2⟩ := hm _ _ (List.mem_zipIdx_iff_getElem?.1 hmp)
    obtain ⟨r, hr, hiff⟩ := compareModule_ok (scale := scale) h1 h2
    refine ⟨r, hr, ?_⟩
    intro a
    rw [hiff]
    constructor
    · rintro ⟨t, f, f', a1, a2, a3⟩
      exact ⟨t, f, f', a1, ⟨_, h1, a2⟩, a3⟩
    · rintro ⟨t, f, f', a1, ⟨m'', h3, a2⟩, a3⟩
      obtain rfl := Option.some.inj (h1.symm.trans h3)
      exact ⟨t, f, f', a1, a2, a3⟩
  obtain ⟨arrows, har⟩ := mapE_exists_ok (l := g.modules.zipIdx) (fun mp hmp => by
    obtain ⟨r, hr, -⟩ := hmod mp hmp
    exact ⟨r, hr⟩)
  have hout : g.modules.flatten.map (fun f => f.corners.map (fun c => c.xy 1)) = g.modules.flatten.map (Spec.outline 1) := by
    apply List.map_congr_left
    intro f _
    have := corners_outline 1 f
    rwa [div_one] at this
  have hpts : ∃ p ps, arrows.flatten.flatten.flatMap hull ++ (g.modules.flatten.map (Spec.outline 1)).flatten = p :: ps := by
    cases hl : arrows.flatten.flatten.flatMap hull ++ (g.modules.flatten.map (Spec.outline 1)).flatten with
    | cons p ps => exact ⟨p, ps, rfl⟩
    | nil =>
      exfalso
      obtain ⟨m, hm1, hm2⟩ := h0
      obtain ⟨f, hf⟩ := List.exists_mem_of_ne_nil m hm2
      have h1 := (List.append_eq_nil_iff.1 hl).2
      rw [List.flatten_eq_nil_iff] at h1
      have := h1 _ (List.mem_map_of_mem (List.mem_flatten.2 ⟨m, hm1, hf⟩))
      simp [Spec.outline] at this
  obtain ⟨p, ps, hps⟩ := hpts
  have hr : g.compare other scale hull = .ok ⟨g.modules.flatten.map (Spec.outline 1),
      (g.modules.zipIdx.map (fun mp => (mp.1.zipIdx.map (compareText mp.2)).flatten)).flatten, arrows.flatten.flatten,
      (listMin p.1 (ps.map Prod.fst) - 20, listMax p.1 (ps.map Prod.fst) + 20),
      (listMin p.2 (ps.map Prod.snd) - 40, listMax p.2 (ps.map Prod.snd) + 20)⟩ := by
    unfold Geom.compare
    rw [har]
    simp only [hout]
    rw [hps]
  refine ⟨_, hr, rfl, ?_, ?_, ?_⟩
  · intro a
    simp only [List.mem_flatten]
    constructor
    · rintro ⟨l, ⟨ls, hls, hl⟩, ha⟩
      obtain ⟨mp, hmp, he⟩ := (mapE_mem har).1 hls
      obtain ⟨r, hr', hiff⟩ := hmod mp hmp
      obtain rfl := Except.ok.inj (he.symm.trans hr')
      obtain ⟨t, f, f', a1, a2, a3⟩ := (hiff a).1 (List.mem_flatten.2 ⟨l, hl, ha⟩)
      obtain ⟨o, v, v', b⟩ := tileArrows_mem.1 a3
      exact ⟨mp.2, t, f, f', o, v, v', ⟨_, List.mem_zipIdx_iff_getElem?.1 hmp, a1⟩, a2, b⟩
    · rintro ⟨m, t, f, f', o, v, v', ⟨mod, h1, h2⟩, h3, b⟩
      have hmp : (mod, m) ∈ g.modules.zipIdx := List.mem_zipIdx_iff_getElem?.2 h1
      obtain ⟨r, hr', hiff⟩ := hmod _ hmp
      obtain ⟨l, hl, ha⟩ := List.mem_flatten.1 ((hiff a).2 ⟨t, f, f', h2, h3, tileArrows_mem.2 ⟨o, v, v', b⟩⟩)
      exact ⟨l, ⟨r, (mapE_mem har).2 ⟨_, hmp, hr'⟩, hl⟩, ha⟩
  · intro text place
    simp only [List.mem_flatten, List.mem_map]
    constructor
    · rintro ⟨-, ⟨mp, hmp, rfl⟩, hmem⟩
      obtain ⟨l, h1, h2⟩ := List.mem_flatten.1 hmem
      obtain ⟨ft, hft, rfl⟩ := List.mem_map.1 h1
      exact ⟨mp.2, ft.2, ft.1, ⟨_, List.mem_zipIdx_iff_getElem?.1 hmp, List.mem_zipIdx_iff_getElem?.1 hft⟩, compareText_mem.1 h2⟩
    · rintro ⟨m, t, f, ⟨mod, h1, h2⟩, h3⟩
      refine ⟨_, ⟨(mod, m), List.mem_zipIdx_iff_getElem?.2 h1, rfl⟩, ?_⟩
      exact List.mem_flatten.2 ⟨_, List.mem_map.2 ⟨(f, t), List.mem_zipIdx_iff_getElem?.2 h2, rfl⟩, compareText_mem.2 h3⟩
  · have hset : ∀ (P : K × K → K) (r : Comparison K), r.outlines = g.modules.flatten.map (Spec.outline 1) →
        r.arrows = arrows.flatten.flatten → {x | ∃ q, Spec.Drawn r hull q ∧ P q = x} = {x | ∃ q ∈ p :: ps, P q = x} := by
      intro P r e1 e2
      ext x
      simp only [Set.mem_ofPred_eq]
      apply exists_congr
      intro q
      rw [← hps]
      unfold Spec.Drawn
      rw [e1, e2, List.mem_append, List.mem_flatMap, List.mem_flatten]
      apply and_congr_left
      intro _
      rw [or_comm]
    rw [hset Prod.fst _ ?_ ?_, hset Prod.snd _ ?_ ?_]
    · rw [sub_add_cancel, sub_add_cancel, add_sub_cancel_right, add_sub_cancel_right]
      exact ⟨listMin_least, listMax_greatest, listMin_least, listMax_greatest⟩
    all_goals rfl

/-- C103: with scale 1 an arrow ends at the corner in the other geometry. -/
theorem compare_tip {g other : Geom K} {a : Arrow K} (h : Spec.IsArrow g other 1 a) :
    ∃ m t f f' opposite v v', Spec.IsTile g m t f ∧ Spec.IsTile other m t f' ∧ Spec.IsEnd opposite f v ∧ Spec.IsEnd opposite f' v' ∧
      a.start = (v.x, v.y) ∧ a.tip = (v'.x, v'.y) := by
  obtain ⟨m, t, f, f', o, v, v', h1, h2, h3, h4, -, h6, h7⟩ := h
  refine ⟨m, t, f, f', o, v, v', h1, h2, h3, h4, h6, ?_⟩
  unfold Arrow.tip
  rw [h6, h7]
  apply Prod.ext <;> simp

/-- C103: the margins of the plot are numbers of pixels on axes in metres: if all which is drawn is less than 1 m away from the beam, at
least 18 of 19 parts of the plot are empty. -/
theorem compare_margin_wrong {g other : Geom K} {scale : K} {hull : Arrow K → List (K × K)} {r : Comparison K}
    (h : g.compare other scale hull = .ok r) (h0 : ∃ m ∈ g.modules, m ≠ [])
    (hm : ∀ (m : Nat) (mod : List (Frag K)), g.modules[m]? = some mod → ∃ mod', other.modules[m]? = some mod' ∧ mod.length ≤ mod'.length)
    (hp : ∀ p, Spec.Drawn r hull p → |p.1| ≤ 1) : r.xlim.1 ≤ -19 ∧ 19 ≤ r.xlim.2 := by
  obtain ⟨r', h1, -, -, -, h5, h6, -, -⟩ := compare_shows g other scale hull h0 hm
  obtain rfl := Except.ok.inj (h.symm.trans h1)
  obtain ⟨p, hp1, hp2⟩ := h5.1
  obtain ⟨q, hq1, hq2⟩ := h6.1
  have a := abs_le.1 (hp p hp1)
  have b := abs_le.1 (hp q hq1)
  constructor <;> linarith

/-- C103: a tile which the other geometry does not have raises IndexError. -/
theorem compare_missing (g other : Geom K) (scale : K) (hull : Arrow K → List (K × K)) {m t : Nat} {f : Frag K} (hf : Spec.IsTile g m t f)
    (hno : ∀ f', ¬ Spec.IsTile other m t f') : g.compare other scale hull = .error .index := by
  obtain ⟨mod, h1, h2⟩ := hf
  unfold Geom.compare
  cases har : mapE (compareModule scale other) g.modules.zipIdx with
  | ok arrows =>
    exfalso
    obtain ⟨r, -, hr⟩ := mapE_ok_all har (List.mem_zipIdx_iff_getElem?.2 h1 : (mod, m) ∈ _)
    unfold compareModule at hr
    obtain ⟨l, -, hl⟩ := mapE_ok_all hr (List.mem_zipIdx_iff_getElem?.2 h2 : (f, t) ∈ _)
    simp only at hl
    split at hl
    · simp at hl
    · rename_i m' hm'
      split at hl
      · simp at hl
      · rename_i f' hf'
        exact hno f' ⟨m', nth_ok_iff.1 hm', nth_ok_iff.1 hf'⟩
  | error e =>
    obtain ⟨mp, -, he⟩ := mapE_error_of har
    obtain ⟨fa, -, he'⟩ := mapE_error_of he
    simp only
    split at he'
    · rename_i hn
      obtain rfl := Except.error.inj he'
      rw [(nth_error_iff.1 hn).2]
    · split at he'
      · rename_i hn
        obtain rfl := Except.error.inj he'
        rw [(nth_error_iff.1 hn).2]
      · simp at he'

/-! ### The deprecated geometry -/

/-- C104, part: the old `plot_data` shows the assembled image, with a cross at the centre of the detector. Edges of pixels are shown half a
pixel to the left and above of where they are from the centre. -/
theorem old_plot_partial {g : OldFrag K} {nan : Option V} {data : Stack V} {pic : Picture V K} (h : g.plotData nan data = .ok pic) :
    ∃ centre, g.positionAll nan data = .ok (pic.image, centre) ∧ pic.crossAt = ((centre.1 : K), (centre.2 : K)) ∧ pic.cross = 20 ∧
      pic.mirrored = false ∧
      (∀ k, 0 < pic.image.w → Spec.edge pic.left pic.right pic.image.w k - pic.crossAt.1 = (k : K) - centre.1 - 1 / 2) ∧
      (∀ k, 0 < pic.image.h → Spec.edge pic.bottom pic.top pic.image.h k - pic.crossAt.2 = (k : K) - centre.2 - 1 / 2) := by
  unfold OldFrag.plotData at h
  cases hp : g.positionAll nan data with
  | error e => rw [hp] at h; simp at h
  | ok rc =>
    obtain ⟨res, c⟩ := rc
    rw [hp] at h
    obtain rfl := Except.ok.inj h
    have hedge : ∀ n k : Nat, 0 < n → Spec.edge (-1 / 2 : K) ((n : K) - 1 / 2) n k = (k : K) - 1 / 2 := by
      intro n k hn
      have : (n : K) ≠ 0 := by exact_mod_cast hn.ne'
      unfold Spec.edge
      field_simp
      ring
    refine ⟨c, rfl, rfl, rfl, rfl, ?_, ?_⟩
    · intro k hk
      rw [hedge _ _ hk]
      ring
    · intro k hk
      rw [hedge _ _ hk]
      ring

/-- C104: so no edge of a pixel is shown where it is. -/
theorem old_plot_wrong {g : OldFrag K} {nan : Option V} {data : Stack V} {pic : Picture V K} (h : g.plotData nan data = .ok pic)
    (hw : 0 < pic.image.w) : ∃ centre, g.positionAll nan data = .ok (pic.image, centre) ∧
      ∀ k, Spec.edge pic.left pic.right pic.image.w k - pic.crossAt.1 ≠ (k : K) - centre.1 := by
  obtain ⟨centre, h1, -, -, -, h5, -⟩ := old_plot_partial h
  refine ⟨centre, h1, fun k hk => ?_⟩
  rw [h5 k hw] at hk
  have : (1 / 2 : K) = 0 := by linarith
  norm_num at this

/-- C104: plotting works if assembling does, and raises the same exception otherwise. -/
theorem old_plot_fails {g : OldFrag K} {nan : Option V} {data : Stack V} :
    (∀ e, g.positionAll nan data = .error e → (g.plotData nan data : R (Picture V K)) = .error e) ∧
    (∀ r, g.positionAll nan data = .ok r → ∃ pic : Picture V K, g.plotData nan data = .ok pic) := by
  unfold OldFrag.plotData
  constructor
  · intro e h; rw [h]
  · intro r h; rw [h]; exact ⟨_, rfl⟩

/-- A tile full of `true`. -/
def fullTile : Plane Bool := ⟨32, 128, fun _ _ => true⟩

/-- Data which are `true` everywhere. -/
def fullData : Stack Bool := ⟨0, 16, 256, 256, fun _ _ _ => true⟩

theorem assign_full {out q : Plane Bool} {y0 y1 x0 x1 : Int} {h w : Nat} (hq : out.assign y0 y1 x0 x1 ⟨h, w, fun _ _ => true⟩ = .ok q) :
    out.assign y0 y1 x0 x1 ⟨1, 1, fun _ _ => true⟩ = .ok q := by
  unfold Plane.assign at hq ⊢
  split at hq
  · simp at hq
  · split at hq
    · simp at hq
    · split at hq
      · obtain rfl := Except.ok.inj hq
        simp [broadcasts]
      · simp at hq

/-- The text and its place (in pixels of the image) for a position in metres. -/
def oldLabel (centre : Int × Int) (text : Str) (pos : K × K) : Str × Int × Int :=
  (text, ⌊pos.1 / oldPixel⌋ + centre.1, ⌊pos.2 / oldPixel⌋ + centre.2)

theorem inspect_tiles {g : OldFrag K} {centre : Int × Int} {c : Nat} {P : Nat → K × K} :
    ∀ {ts : List Nat} {out out' : Plane Bool} {l : List (Str × Int × Int)}, (∀ t ∈ ts, g.findOffset (oldPath c t) = .ok (P t)) →
      foldE (fun s t => g.place centre c s (fullTile, t)) out ts = .ok out' →
      foldE (g.inspectTile centre c) (out, l) ts =
        .ok (out', l ++ (ts.filter (fun t => t ∈ [0, 7, 8])).map (fun t => oldLabel centre (natStr (t + 1)) (P t)))
  | [], out, out', l, _, h => by
    obtain rfl := Except.ok.inj h
    simp [foldE]
  | t :: ts, out, out', l, hP, h => by
    obtain ⟨mid, h1, h2⟩ := foldE_cons_ok.1 h
    have hstep : g.inspectTile centre c (out, l) t =
        .ok (mid, if t + 1 ∈ [1, 8, 9] then l ++ [oldLabel centre (natStr (t + 1)) (P t)] else l) := by
      unfold OldFrag.place at h1
      unfold OldFrag.inspectTile
      rw [hP t (by simp)] at h1 ⊢
      simp only at h1 ⊢
      cases hs : fullTile.stride (-1) (-1) with
      | error e => rw [hs] at h1; simp at h1
      | ok src =>
        rw [hs] at h1
        simp only at h1
        have hsrc : src = ⟨src.h, src.w, fun _ _ => true⟩ := by
          unfold Plane.stride at hs
          split at hs
          · simp at hs
          · split at hs
            · simp at hs
            · obtain rfl := Except.ok.inj hs
              rfl
        rw [hsrc] at h1
        have := assign_full h1
        simp only [fullTile] at this
        norm_cast at this ⊢
        rw [this]
        rfl
    rw [foldE_cons_ok]
    refine ⟨_, hstep, ?_⟩
    rw [inspect_tiles (fun t ht => hP t (by simp [ht])) h2]
    congr 2
    have e : (t + 1 ∈ [1, 8, 9]) ↔ t ∈ [0, 7, 8] := by simp
    by_cases hin : t ∈ [0, 7, 8]
    · rw [if_pos (e.2 hin), List.filter_cons_of_pos (by simpa using hin), List.map_cons, List.append_assoc]
      rfl
    · rw [if_neg (fun h => hin (e.1 h)), List.filter_cons_of_neg (by simpa using hin)]

theorem inspect_modules {g : OldFrag K} {centre : Int × Int} {P : Nat → Nat → K × K} {M : Nat → K × K} :
    ∀ {cs : List Nat} {out out' : Plane Bool} {l : List (Str × Int × Int)},
      (∀ c ∈ cs, c < 16 ∧ g.findOffset ((oldPath c 0).take 2) = .ok (M c) ∧ ∀ t < 16, g.findOffset (oldPath c t) = .ok (P c t)) →
      foldE (g.placeModule centre fullData) out cs = .ok out' →
      foldE (g.inspectModule centre) (out, l) cs =
        .ok (out', l ++ cs.flatMap (fun c => oldLabel centre (Spec.moduleName c) (M c) ::
          [0, 7, 8].map (fun t => oldLabel centre (natStr (t + 1)) (P c t))))
  | [], out, out', l, _, h => by
    obtain rfl := Except.ok.inj h
    simp [foldE]
  | c :: cs, out, out', l, hP, h => by
    obtain ⟨mid, h1, h2⟩ := foldE_cons_ok.1 h
    obtain ⟨p1, p2, p3⟩ := hP c (by simp)
    rw [foldE_cons_ok]
    refine ⟨_, ?_, inspect_modules (l := l ++ (oldLabel centre (Spec.moduleName c) (M c) ::
      [0, 7, 8].map (fun t => oldLabel centre (natStr (t + 1)) (P c t)))) (fun c hc => hP c (by simp [hc])) h2 |>.trans ?_⟩
    · unfold OldFrag.inspectModule
      rw [p2]
      simp only
      have hpl : fullData.plane c = .ok ⟨256, 256, fun _ _ => true⟩ := by
        unfold Stack.plane fullData
        rw [if_pos p1]
      unfold OldFrag.placeModule at h1
      rw [hpl] at h1
      have hsp : splitChannel (⟨256, 256, fun _ _ => true⟩ : Plane Bool) true = .ok (List.replicate 16 fullTile) := rfl
      simp only at h1
      rw [hsp] at h1
      simp only at h1
      have hz : (List.replicate 16 fullTile).zipIdx = (List.range 16).map (fun t => (fullTile, t)) := rfl
      rw [hz, foldE_map] at h1
      rw [inspect_tiles (P := P c) (fun t ht => p3 t (by simpa using ht)) h1]
      congr 2
      rw [List.append_assoc]
      congr 1
      have e : (oldPath c 0).take 2 = [ch! "Q" ++ natStr (c / 4 + 1), ch! "M" ++ natStr (c % 4 + 1)] := rfl
      rw [e]
      have hf : (List.range 16).filter (fun t => decide (t ∈ [0, 7, 8])) = [0, 7, 8] := by decide
      rw [hf]
      simp [oldLabel, Spec.moduleName]
    · rw [List.flatMap_cons, List.append_assoc]

/-- The texts of the old `inspect`: the names of modules and the numbers of three tiles of each, at the pixel with the position of the
module or tile. -/
def Spec.OldText (g : OldFrag K) (centre : Int × Int) (text : Str) (x y : Int) : Prop :=
  ∃ c < 16, ∃ path f px py, Spec.At g path f px py ∧ x = ⌊px / (5 / 10000)⌋ + centre.1 ∧ y = ⌊py / (5 / 10000)⌋ + centre.2 ∧
    ((path = (Spec.oldTile c 0).take 2 ∧ text = Spec.moduleName c) ∨ ∃ t, path = Spec.oldTile c t ∧ (t, text) ∈ [(0, ch! "1"), (7, ch! "8"), (8, ch! "9")])

theorem at_take {g : OldFrag K} : ∀ {path : List Str} {f : OldFrag K} {x y : K} (n : Nat), Spec.At g path f x y →
    ∃ f' x' y', Spec.At g (path.take n) f' x' y' := by
  intro path f x y n h
  induction h generalizing n with
  | here o ch => exact ⟨_, _, _, by simpa using Spec.At.here o ch⟩
  | child o ch name c rest f x y hc h ih =>
    cases n with
    | zero => exact ⟨_, _, _, by simpa using Spec.At.here o ch⟩
    | succ n =>
      obtain ⟨f', x', y', h'⟩ := ih n
      exact ⟨f', _, _, Spec.At.child o ch name c _ f' x' y' hc h'⟩

theorem old_size {g : OldFrag K} {nan : V} {data : Stack V} {img : Plane V} {centre : Int × Int}
    (h : g.positionAll (some nan) data = .ok (img, centre)) :
    ∃ size, g.dimensions = .ok (size, centre) ∧ img.h = size.2.toNat ∧ img.w = size.1.toNat := by
  unfold OldFrag.positionAll at h
  split at h
  · cases hd : g.dimensions with
    | error e => rw [hd] at h; simp at h
    | ok sc =>
      obtain ⟨size, cen⟩ := sc
      rw [hd] at h
      simp only at h
      split at h
      · simp at h
      · rename_i res hf
        simp only [Except.ok.injEq, Prod.mk.injEq] at h
        obtain ⟨rfl, rfl⟩ := h
        have hfold : res.h = size.2.toNat ∧ res.w = size.1.toNat := by
          refine foldE_inv (fun _ (p : Plane V) => p.h = size.2.toNat ∧ p.w = size.1.toNat) (done := []) ⟨rfl, rfl⟩ ?_ hf
          intro _ p c p' _ hp hstep
          unfold OldFrag.placeModule at hstep
          split at hstep
          · simp at hstep
          · split at hstep
            · simp at hstep
            · refine foldE_inv (fun _ (p : Plane V) => p.h = size.2.toNat ∧ p.w = size.1.toNat) (done := []) hp ?_ hstep
              intro _ p jt p' _ hp hstep
              unfold OldFrag.place at hstep
              split at hstep
              · simp at hstep
              · simp only at hstep
                split at hstep
                · simp at hstep
                · obtain ⟨a, b⟩ := assign_shape hstep
                  rw [a, b]
                  exact hp
        exact ⟨size, rfl, hfold⟩
  · simp at h

/-- C104: the old `inspect` shows tiles exactly where the assembled image has data, and the same centre. -/
theorem old_inspect (g : OldFrag K) (hg : Spec.IsDict g) (hc : Spec.OldComplete g) :
    ∃ bg texts centre, g.inspect = .ok ((bg, texts), centre) ∧
      (∀ row col : Nat, row < bg.h → col < bg.w → (bg.get row col = true ↔ ∃ c i j, Spec.OldCovers g centre c i j row col)) ∧
      (∀ text x y, (text, x, y) ∈ texts ↔ Spec.OldText g centre text x y) ∧
      ∀ (nan : V) (data : Stack V), data.n = 16 ∧ data.h = 256 ∧ data.w = 256 →
        ∃ img, g.positionAll (some nan) data = .ok (img, centre) ∧ img.h = bg.h ∧ img.w = bg.w := by
  have hM : ∀ c, ∃ p : K × K, c < 16 → g.findOffset ((oldPath c 0).take 2) = .ok p ∧ ∃ f, Spec.At g ((Spec.oldTile c 0).take 2) f p.1 p.2 := by
    intro c
    by_cases h : c < 16
    · obtain ⟨x, y, o, hat⟩ := hc c 0 h (by omega)
      obtain ⟨f', x', y', h'⟩ := at_take 2 hat
      exact ⟨(x', y'), fun _ => ⟨(findOffset_iff hg _ _ _).2 ⟨_, h'⟩, _, h'⟩⟩
    · exact ⟨(0, 0), fun h' => absurd h' h⟩
  have hP : ∀ c t, ∃ p : K × K, c < 16 → t < 16 → g.findOffset (oldPath c t) = .ok p ∧ ∃ f, Spec.At g (Spec.oldTile c t) f p.1 p.2 := by
    intro c t
    by_cases h : c < 16 ∧ t < 16
    · obtain ⟨x, y, o, hat⟩ := hc c t h.1 h.2
      exact ⟨(x, y), fun _ _ => ⟨(findOffset_iff hg _ _ _).2 ⟨_, hat⟩, _, hat⟩⟩
    · exact ⟨(0, 0), fun h1 h2 => absurd ⟨h1, h2⟩ h⟩
  choose M hM using hM
  choose P hP using hP
  obtain ⟨bg, centre, h1, h2, h3⟩ := old_assemble g hg hc false fullData ⟨rfl, rfl, rfl⟩
  have h1' := h1
  unfold OldFrag.positionAll at h1
  rw [if_pos (by rfl)] at h1
  cases hd : g.dimensions with
  | error e => rw [hd] at h1; simp at h1
  | ok sc =>
    obtain ⟨size, cen⟩ := sc
    rw [hd] at h1
    simp only at h1
    cases hf : foldE (g.placeModule cen fullData) ⟨size.2.toNat, size.1.toNat, fun _ _ => false⟩ (List.range 16) with
    | error e => rw [hf] at h1; simp at h1
    | ok res =>
      rw [hf] at h1
      simp only [Except.ok.injEq, Prod.mk.injEq] at h1
      obtain ⟨rfl, rfl⟩ := h1
      have hin := inspect_modules (P := P) (M := M) (l := []) (fun c hc' => by
        have hc16 : c < 16 := by simpa using hc'
        exact ⟨hc16, (hM c hc16).1, fun t ht => (hP c t hc16 ht).1⟩) hf
      refine ⟨res, _, cen, by unfold OldFrag.inspect; rw [hd]; simp only; rw [hin], ?_, ?_, ?_⟩
      · intro row col hr hcol
        rcases h3 row col hr hcol with ⟨a, b⟩ | ⟨c, i, j, a, -, b⟩
        · rw [b]
          constructor
          · intro h; simp at h
          · rintro ⟨c, i, j, h⟩; exact absurd h (a c i j)
        · rw [b]
          exact ⟨fun _ => ⟨c, i, j, a⟩, fun _ => rfl⟩
      · intro text x y
        rw [List.nil_append, List.mem_flatMap]
        constructor
        · rintro ⟨c, hc', hmem⟩
          have hc16 : c < 16 := by simpa using hc'
          rcases List.mem_cons.1 hmem with e | hmem
          · simp only [oldLabel, Prod.mk.injEq] at e
            obtain ⟨f, hat⟩ := (hM c hc16).2
            exact ⟨c, hc16, _, f, _, _, hat, e.2.1, e.2.2, Or.inl ⟨rfl, e.1⟩⟩
          · obtain ⟨t, ht, e⟩ := List.mem_map.1 hmem
            simp only [oldLabel, Prod.mk.injEq] at e
            have ht16 : t < 16 := by simp only [List.mem_cons, List.not_mem_nil, or_false] at ht; omega
            obtain ⟨f, hat⟩ := (hP c t hc16 ht16).2
            refine ⟨c, hc16, _, f, _, _, hat, e.2.1.symm, e.2.2.symm, Or.inr ⟨t, rfl, ?_⟩⟩
            rw [← e.1]
            simp only [List.mem_cons, List.not_mem_nil, or_false] at ht
            rcases ht with rfl | rfl | rfl <;> decide
        · rintro ⟨c, hc16, path, f, px, py, hat, rfl, rfl, ⟨rfl, rfl⟩ | ⟨t, rfl, hmem⟩⟩
          · refine ⟨c, by simpa using hc16, ?_⟩
            obtain ⟨f', hat'⟩ := (hM c hc16).2
            obtain ⟨e1, e2⟩ := at_unique hg hat' hat
            rw [e1, e2]
            exact List.mem_cons_self
          · refine ⟨c, by simpa using hc16, List.mem_cons_of_mem _ (List.mem_map.2 ?_)⟩
            simp only [List.mem_cons, List.not_mem_nil, or_false, Prod.mk.injEq] at hmem
            have ht16 : t < 16 := by omega
            obtain ⟨f', hat'⟩ := (hP c t hc16 ht16).2
            obtain ⟨e1, e2⟩ := at_unique hg hat' hat
            rw [e1, e2]
            rcases hmem with ⟨rfl, rfl⟩ | ⟨rfl, rfl⟩ | ⟨rfl, rfl⟩
            · exact ⟨0, by simp, rfl⟩
            · exact ⟨7, by simp, rfl⟩
            · exact ⟨8, by simp, rfl⟩
      · intro nan data hdata
        obtain ⟨img, centre', q1, q2, q3⟩ := old_assemble g hg hc nan data hdata
        obtain ⟨s1, d1, e1, e2⟩ := old_size q1
        obtain ⟨s2, d2, e3, e4⟩ := old_size h1'
        rw [d1] at d2
        simp only [Except.ok.injEq, Prod.mk.injEq] at d2
        obtain ⟨rfl, rfl⟩ := d2
        exact ⟨img, q1, by rw [e1, e3], by rw [e2, e4]⟩

theorem findOffset_error : ∀ {path : List Str} {g : OldFrag K} {e : PyErr}, g.findOffset path = .error e → e = .key
  | [], .node o ch, e, h => by simp [OldFrag.findOffset] at h
  | name :: rest, .node o ch, e, h => by
    simp only [OldFrag.findOffset] at h
    split at h
    · next e' he =>
      unfold oldChild at he
      split at he <;> simp_all
    · split at h
      · next e' he =>
        obtain rfl := Except.error.inj h
        exact findOffset_error he
      · simp at h

theorem assign_point {out : Plane Bool} {y0 y1 x0 x1 : Int} : ∃ q, out.assign y0 y1 x0 x1 ⟨1, 1, fun _ _ => true⟩ = .ok q := by
  unfold Plane.assign
  simp only [slicePositions]
  simp [broadcasts]

/-- C104: a tile or a module which is missing from the geometry: KeyError. -/
theorem old_inspect_missing (g : OldFrag K) (hg : Spec.IsDict g) {c t : Nat} (hc : c < 16) (ht : t < 16)
    (hm : ∀ f x y, ¬ Spec.At g (Spec.oldTile c t) f x y) : g.inspect = .error .key := by
  obtain ⟨w, h, cx, cy, hdim, -⟩ := old_box hg
  unfold OldFrag.inspect
  rw [hdim]
  simp only
  have hmod : ∀ s c, (∃ s', g.inspectModule (cx, cy) s c = .ok s' ∧ True) ∨ g.inspectModule (cx, cy) s c = .error .key := by
    intro s c
    unfold OldFrag.inspectModule
    cases hf : g.findOffset ((oldPath c 0).take 2) with
    | error e => right; rw [findOffset_error hf]
    | ok pos =>
      apply foldE_or (fun _ => True) _ trivial
      intro s t _ _
      unfold OldFrag.inspectTile
      cases hf : g.findOffset (oldPath c t) with
      | error e => right; rw [findOffset_error hf]
      | ok pos =>
        left
        simp only
        obtain ⟨q, hq⟩ := assign_point (out := s.1) (y0 := ⌊pos.2 / oldPixel⌋ + cy) (y1 := ⌊pos.2 / oldPixel⌋ + cy + 32)
          (x0 := ⌊pos.1 / oldPixel⌋ + cx) (x1 := ⌊pos.1 / oldPixel⌋ + cx + 128)
        rw [hq]
        exact ⟨_, rfl, trivial⟩
  rcases foldE_or (f := g.inspectModule (cx, cy)) (err := .key) (fun _ => True) (l := List.range 16)
      (s := (⟨h.toNat, w.toNat, fun _ _ => false⟩, [])) (fun s c _ _ => hmod s c) trivial with ⟨s, hs, -⟩ | he
  · exfalso
    obtain ⟨s1, s2, h12⟩ := foldE_all_ok hs c (by simpa using hc)
    unfold OldFrag.inspectModule at h12
    split at h12
    · simp at h12
    · obtain ⟨r1, r2, hr⟩ := foldE_all_ok h12 t (by simpa using ht)
      unfold OldFrag.inspectTile at hr
      split at hr
      · simp at hr
      · rename_i pos hpos
        obtain ⟨f, hat⟩ := (findOffset_iff hg _ pos.1 pos.2).1 hpos
        exact hm _ _ _ hat
  · rw [he]

/-! ### Examples -/

/-- An AGIPD geometry: all tiles in a row. -/
def Spec.rowOfTiles (shift : ℚ) : Geom ℚ :=
  ⟨.agipd, (List.range 16).map (fun m => (List.range 8).map (fun t =>
    ⟨⟨(m : ℚ) * (3 / 100), (t : ℚ) * (15 / 1000) + (if t = 3 then shift else 0), 0⟩, ⟨0, 2 / 10000, 0⟩, ⟨2 / 10000, 0, 0⟩, 64, 128⟩))⟩

/-- The hypotheses of `inspect_layout` and `compare_shows` hold. -/
example : (Spec.rowOfTiles 0).modules ≠ [] ∧ (∀ m ∈ (Spec.rowOfTiles 0).modules, Spec.tiles (Spec.rowOfTiles 0).det ≤ m.length) ∧
    ∀ (m : Nat) (mod : List (Frag ℚ)), (Spec.rowOfTiles 0).modules[m]? = some mod →
      ∃ mod', (Spec.rowOfTiles (1 / 10000)).modules[m]? = some mod' ∧ mod.length ≤ mod'.length := by
  refine ⟨by simp only [Spec.rowOfTiles]; decide, ?_, ?_⟩
  · intro m hm
    obtain ⟨k, -, rfl⟩ := List.mem_map.1 hm
    simp [Spec.rowOfTiles, Spec.tiles]
  · intro m mod h
    simp only [Spec.rowOfTiles, List.getElem?_map, Option.map_eq_some_iff] at h ⊢
    obtain ⟨k, hk, rfl⟩ := h
    exact ⟨_, ⟨k, hk, rfl⟩, by simp⟩

/-- An arrow of this comparison. -/
example : Spec.IsArrow (Spec.rowOfTiles 0) (Spec.rowOfTiles (1 / 10000)) 10 ⟨(6 / 100, 45 / 1000), (0, 1 / 1000)⟩ := by
  refine ⟨2, 3, _, _, false, _, _, ⟨_, rfl, rfl⟩, ⟨_, rfl, rfl⟩, rfl, rfl, ?_, ?_, ?_⟩ <;> norm_num [Spec.point]

end KD.Geo
