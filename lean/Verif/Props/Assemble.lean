/-
C73 snapped tiles keep their orientation; C74 the assembled image contains all tiles and is the smallest; C75 assembling
loses no pixel.
-/
import Verif.Lemmas.Assemble

set_option linter.unusedSimpArgs false
set_option linter.unusedSectionVars false

namespace KD.Geo

variable {V : Type} {K : Type} [Field K] [LinearOrder K] [IsStrictOrderedRing K] [FloorRing K]

theorem axisAligned_iff (s1 s2 f1 f2 : Int) :
    Spec.AxisAligned (s2, s1) (f2, f1) ↔
      ((|s1|, |s2|) = ((0, 1) : Int × Int) ∧ (|f1|, |f2|) = ((1, 0) : Int × Int)) ∨
        ((|s1|, |s2|) = ((1, 0) : Int × Int) ∧ (|f1|, |f2|) = ((0, 1) : Int × Int)) := by
  have habs : ∀ x : Int, |x| = 1 ↔ x = 1 ∨ x = -1 := fun x => abs_eq (by decide)
  have habs0 : ∀ x : Int, |x| = 0 ↔ x = 0 := fun x => abs_eq_zero
  simp only [Spec.AxisAligned, Spec.UnitStep, Prod.mk.injEq, habs, habs0]
  omega

/-- C73: snapping succeeds exactly if the tile is close to one of the 8 ways to lay it on the grid; corner and steps are then
the nearest ones. -/
theorem snap_iff (f : Frag K) (px : K × K) (g : Grid) :
    f.snap px = .ok g ↔ ∃ c ss fs, Spec.Snaps px f c ss fs ∧ g = Grid.init c ss fs f.ssPixels f.fsPixels := by
  unfold Frag.snap
  simp only
  constructor
  · intro h
    split at h
    · next hc =>
      obtain rfl := Except.ok.inj h
      exact ⟨_, _, _, ⟨around_nearest _, around_nearest _, around_nearest _, around_nearest _, around_nearest _,
        around_nearest _, (axisAligned_iff _ _ _ _).2 hc⟩, rfl⟩
    · simp at h
  · rintro ⟨⟨c1, c2⟩, ⟨s1, s2⟩, ⟨f1, f2⟩, ⟨h1, h2, h3, h4, h5, h6, h7⟩, rfl⟩
    simp only at h1 h2 h3 h4 h5 h6
    rw [nearest_unique (around_nearest _) h1, nearest_unique (around_nearest _) h2, nearest_unique (around_nearest _) h3,
      nearest_unique (around_nearest _) h4, nearest_unique (around_nearest _) h5, nearest_unique (around_nearest _) h6]
    rw [if_pos ((axisAligned_iff _ _ _ _).1 h7)]

/-- C73: otherwise it raises an AssertionError. -/
theorem snap_fails (f : Frag K) (px : K × K) (h : ¬ ∃ c ss fs, Spec.Snaps px f c ss fs) : f.snap px = .error .assertion := by
  cases hs : f.snap px with
  | ok g =>
    obtain ⟨c, ss, fs, h1, _⟩ := (snap_iff f px g).1 hs
    exact absurd ⟨c, ss, fs, h1⟩ h
  | error e =>
    unfold Frag.snap at hs
    simp only at hs
    split at hs
    · simp at hs
    · simpa using hs.symm

theorem snaps_unique {f : Frag K} {px : K × K} {c ss fs c' ss' fs' : Int × Int} (h : Spec.Snaps px f c ss fs)
    (h' : Spec.Snaps px f c' ss' fs') : c = c' ∧ ss = ss' ∧ fs = fs' := by
  obtain ⟨a1, a2, a3, a4, a5, a6, _⟩ := h
  obtain ⟨b1, b2, b3, b4, b5, b6, _⟩ := h'
  exact ⟨Prod.ext (nearest_unique a1 b1) (nearest_unique a2 b2), Prod.ext (nearest_unique a3 b3) (nearest_unique a4 b4),
    Prod.ext (nearest_unique a5 b5) (nearest_unique a6 b6)⟩

/-! ### The size of the image -/

/-- C74: a geometry without tiles cannot be assembled. -/
theorem box_fails (d : Det) (mods : List (List Grid)) (h : ∀ m ∈ mods, m = []) : Snapped.init d mods = .error .value := by
  unfold Snapped.init snapCorners
  have : mods.flatten = [] := by
    rw [List.flatten_eq_nil_iff]; exact h
  rw [this]
  rfl

/-- C74: all corners of the tiles are inside the image, and no smaller image would do: any box which contains the corners
contains the image. -/
theorem box_tight {d : Det} {mods : List (List Grid)} {s : Snapped} (h : Snapped.init d mods = .ok s) :
    s.det = d ∧ s.modules = mods ∧
      (∀ m ∈ mods, ∀ g ∈ m, ∀ c ∈ [g.corner, g.opp],
        0 ≤ c.1 + s.centre.1 ∧ c.1 + s.centre.1 ≤ s.size.1 ∧ 0 ≤ c.2 + s.centre.2 ∧ c.2 + s.centre.2 ≤ s.size.2) ∧
      (∃ m ∈ mods, ∃ g ∈ m, ∃ c ∈ [g.corner, g.opp], c.1 + s.centre.1 = 0) ∧
      (∃ m ∈ mods, ∃ g ∈ m, ∃ c ∈ [g.corner, g.opp], c.2 + s.centre.2 = 0) ∧
      (∃ m ∈ mods, ∃ g ∈ m, ∃ c ∈ [g.corner, g.opp], c.1 + s.centre.1 = s.size.1) ∧
      (∃ m ∈ mods, ∃ g ∈ m, ∃ c ∈ [g.corner, g.opp], c.2 + s.centre.2 = s.size.2) := by
  have hmem : ∀ c, c ∈ snapCorners mods ↔ ∃ m ∈ mods, ∃ g ∈ m, c ∈ [g.corner, g.opp] := by
    intro c
    simp only [snapCorners, List.mem_flatMap, List.mem_flatten]
    constructor
    · rintro ⟨g, ⟨m, hm, hg⟩, hc⟩; exact ⟨m, hm, g, hg, hc⟩
    · rintro ⟨m, hm, g, hg, hc⟩; exact ⟨g, ⟨m, hm, hg⟩, hc⟩
  unfold Snapped.init at h
  split at h
  · simp at h
  · next c cs hcs =>
    obtain rfl := Except.ok.inj h
    simp only
    rw [hcs] at hmem
    have pull : ∀ (φ : Int × Int → Int) (v : Int), v ∈ φ c :: cs.map φ →
        ∃ m ∈ mods, ∃ g ∈ m, ∃ c' ∈ [g.corner, g.opp], φ c' = v := by
      intro φ v hv
      rw [← List.map_cons, List.mem_map] at hv
      obtain ⟨c', hc', rfl⟩ := hv
      obtain ⟨m, hm, g, hg, hcg⟩ := (hmem c').1 hc'
      exact ⟨m, hm, g, hg, c', hcg, rfl⟩
    refine ⟨trivial, trivial, ?_, ?_, ?_, ?_, ?_⟩
    · intro m hm g hg c' hc'
      have hin := (hmem c').2 ⟨m, hm, g, hg, hc'⟩
      have lo : ∀ φ : Int × Int → Int, listMin (φ c) (cs.map φ) ≤ φ c' := by
        intro φ
        rcases List.mem_cons.1 hin with rfl | hin
        · exact (listMin_le _ _).1
        · exact (listMin_le _ _).2 _ (List.mem_map_of_mem hin)
      have hi : ∀ φ : Int × Int → Int, φ c' ≤ listMax (φ c) (cs.map φ) := by
        intro φ
        rcases List.mem_cons.1 hin with rfl | hin
        · exact (le_listMax _ _).1
        · exact (le_listMax _ _).2 _ (List.mem_map_of_mem hin)
      have := lo Prod.fst; have := lo Prod.snd; have := hi Prod.fst; have := hi Prod.snd
      omega
    · obtain ⟨m, hm, g, hg, c', hc', e⟩ := pull Prod.fst _ (listMin_mem _ _)
      exact ⟨m, hm, g, hg, c', hc', by omega⟩
    · obtain ⟨m, hm, g, hg, c', hc', e⟩ := pull Prod.snd _ (listMin_mem _ _)
      exact ⟨m, hm, g, hg, c', hc', by omega⟩
    · obtain ⟨m, hm, g, hg, c', hc', e⟩ := pull Prod.fst _ (listMax_mem _ _)
      exact ⟨m, hm, g, hg, c', hc', by omega⟩
    · obtain ⟨m, hm, g, hg, c', hc', e⟩ := pull Prod.snd _ (listMax_mem _ _)
      exact ⟨m, hm, g, hg, c', hc', by omega⟩

/-- With tiles there is a size. -/
theorem box_succeeds (d : Det) (mods : List (List Grid)) (h : ∃ m ∈ mods, m ≠ []) : ∃ s, Snapped.init d mods = .ok s := by
  obtain ⟨m, hm, hne⟩ := h
  obtain ⟨g, hg⟩ := List.exists_mem_of_ne_nil m hne
  unfold Snapped.init
  split
  · next hnil =>
    have : g.corner ∈ snapCorners mods := by
      simp only [snapCorners, List.mem_flatMap, List.mem_flatten]
      exact ⟨g, ⟨m, hm, hg⟩, by simp⟩
    rw [hnil] at this
    simp at this
  · exact ⟨_, rfl⟩

/-! ### Assembling -/

/-- What is known while images are assembled: every cell has the value of the last pixel put there, or its first value.
`done m t`: this tile has been placed. -/
def Painted (g : Geom K) (px : K × K) (centre : Int × Int) (data : Stack V) (start : Plane V) (done : Nat → Nat → Prop)
    (img : Plane V) : Prop :=
  img.h = start.h ∧ img.w = start.w ∧ ∀ y x : Nat, y < img.h → x < img.w →
    ((∀ m t i j, done m t → ¬ Spec.TileCovers g px m t i j ((y : Int) - centre.1, (x : Int) - centre.2)) ∧
      img.get y x = start.get y x) ∨
    ∃ m t i j, done m t ∧ Spec.TileCovers g px m t i j ((y : Int) - centre.1, (x : Int) - centre.2) ∧
      (∀ m' t' i' j', done m' t' → Spec.Later m t m' t' →
        ¬ Spec.TileCovers g px m' t' i' j' ((y : Int) - centre.1, (x : Int) - centre.2)) ∧
      img.get y x = data.get m ((g.det.tileSlice t).y0 + i) ((g.det.tileSlice t).x0 + j)

/-- The snapped tiles of a geometry. -/
theorem snapped_modules {g : Geom K} {px : K × K} {mods : List (List Grid)}
    (h : mapE (mapE (fun f : Frag K => f.snap px)) g.modules = .ok mods) {m : Nat} {mod : List Grid} (hm : mods[m]? = some mod)
    {t : Nat} {q : Grid} (hq : mod[t]? = some q) : ∃ f, Spec.IsTile g m t f ∧ f.snap px = .ok q := by
  obtain ⟨fmod, h1, h2⟩ := mapE_getElem? h hm
  obtain ⟨f, h3, h4⟩ := mapE_getElem? h2 hq
  exact ⟨f, ⟨fmod, h1, h3⟩, h4⟩

/-- Two pixels of a tile have different cells. -/
theorem cell_injective {c ss fs : Int × Int} (h : Spec.AxisAligned ss fs) {i j i' j' : Nat}
    (e : Spec.cell c ss fs i j = Spec.cell c ss fs i' j') : i = i' ∧ j = j' := by
  obtain ⟨s1, s2⟩ := ss
  obtain ⟨f1, f2⟩ := fs
  simp only [Spec.cell, Spec.vertex, Prod.mk.injEq] at e
  obtain ⟨h1, h2, h3⟩ := h
  simp only [Spec.UnitStep, Prod.mk.injEq] at h1 h2 h3
  rcases h1 with ⟨rfl, rfl⟩ | ⟨rfl, rfl⟩ | ⟨rfl, rfl⟩ | ⟨rfl, rfl⟩ <;>
    rcases h2 with ⟨rfl, rfl⟩ | ⟨rfl, rfl⟩ | ⟨rfl, rfl⟩ | ⟨rfl, rfl⟩ <;> omega

/-- A tile which has been snapped covers the cells between its corners. -/
theorem tile_covers_iff {g : Geom K} {px : K × K} {m t : Nat} {f : Frag K} {q : Grid} (hf : Spec.IsTile g m t f)
    (hq : f.snap px = .ok q) (hs : f.ssPixels = (Spec.tileShape g.det).1 ∧ f.fsPixels = (Spec.tileShape g.det).2)
    (yx : Int × Int) :
    (∃ i j, Spec.TileCovers g px m t i j yx) ↔
      q.corner.1 ≤ yx.1 ∧ yx.1 < q.opp.1 ∧ q.corner.2 ≤ yx.2 ∧ yx.2 < q.opp.2 := by
  obtain ⟨c, ss, fs, hsn, rfl⟩ := (snap_iff f px q).1 hq
  rw [hs.1, hs.2]
  obtain ⟨p', hp, hdims, hopp, h1, h2⟩ := grid_cells (c := c) hsn.2.2.2.2.2.2
    (⟨(Spec.tileShape g.det).1, (Spec.tileShape g.det).2, fun _ _ => ()⟩ : Plane Unit)
  simp only at hp hdims hopp h1 h2
  rw [hopp]
  simp only
  constructor
  · rintro ⟨i, j, f', c', ss', fs', ⟨mod', hm', hf'⟩, hsn', hi, hj, rfl⟩
    obtain ⟨mod, hm, hf⟩ := hf
    rw [hm] at hm'
    obtain rfl := Option.some.inj hm'
    rw [hf] at hf'
    obtain rfl := Option.some.inj hf'
    obtain ⟨rfl, rfl, rfl⟩ := snaps_unique hsn hsn'
    obtain ⟨y, x, hy, hx, e, _⟩ := h1 i j hi hj
    rw [e]
    simp only
    omega
  · rintro ⟨a1, a2, a3, a4⟩
    obtain ⟨i, j, hi, hj, e, _⟩ := h2 (yx.1 - (Grid.init c ss fs (Spec.tileShape g.det).1 (Spec.tileShape g.det).2).corner.1).toNat
      (yx.2 - (Grid.init c ss fs (Spec.tileShape g.det).1 (Spec.tileShape g.det).2).corner.2).toNat (by omega) (by omega)
    refine ⟨i, j, f, c, ss, fs, hf, hsn, hi, hj, ?_⟩
    rw [e]
    apply Prod.ext
    · simp only; omega
    · simp only; omega

/-- Placing one tile. -/
theorem place_tile {g : Geom K} {px : K × K} {s : Snapped} {data : Stack V} {start img : Plane V} {done : Nat → Nat → Prop}
    (hp : Painted g px s.centre data start done img) {m t : Nat} {f : Frag K} {q : Grid}
    (hf : Spec.IsTile g m t f) (hq : f.snap px = .ok q)
    (hs : f.ssPixels = (Spec.tileShape g.det).1 ∧ f.fsPixels = (Spec.tileShape g.det).2)
    (hbox : 0 ≤ q.corner.1 + s.centre.1 ∧ q.opp.1 + s.centre.1 ≤ start.h ∧ 0 ≤ q.corner.2 + s.centre.2 ∧
      q.opp.2 + s.centre.2 ≤ start.w)
    {tiles : List (Plane V)} {p : Plane V} (ht : tiles[t]? = some p) (hph : p.h = (Spec.tileShape g.det).1)
    (hpw : p.w = (Spec.tileShape g.det).2)
    (hpg : ∀ i j, i < p.h → j < p.w → p.get i j = data.get m ((g.det.tileSlice t).y0 + i) ((g.det.tileSlice t).x0 + j))
    (hdone : ∀ m' t', done m' t' → Spec.Later m' t' m t) :
    ∃ img', s.place tiles img (q, t) = .ok img' ∧
      Painted g px s.centre data start (fun m' t' => done m' t' ∨ (m' = m ∧ t' = t)) img' := by
  have hcov := tile_covers_iff hf hq hs
  obtain ⟨c, ss, fs, hsn, hqe⟩ := (snap_iff f px q).1 hq
  rw [hs.1, hs.2, ← hph, ← hpw] at hqe
  obtain ⟨src, htr, hdims, hopp, h1, h2⟩ := grid_cells (c := c) hsn.2.2.2.2.2.2 p
  rw [← hqe] at htr hdims hopp h1 h2
  obtain ⟨p1, p2, p3⟩ := hp
  obtain ⟨b1, b2, b3, b4⟩ := hbox
  obtain ⟨Y, hY⟩ := Int.eq_ofNat_of_zero_le b1
  obtain ⟨X, hX⟩ := Int.eq_ofNat_of_zero_le b3
  have ho1 : q.opp.1 = q.corner.1 + src.h := by rw [hopp]
  have ho2 : q.opp.2 = q.corner.2 + src.w := by rw [hopp]
  have hd1 : q.dims.1 = src.h := by rw [← hdims]
  have hd2 : q.dims.2 = src.w := by rw [← hdims]
  obtain ⟨img', ha, a1, a2, a3, a4⟩ := assign_inside (out := img) (src := src) (y := Y) (x := X) (by omega) (by omega)
  refine ⟨img', ?_, ?_⟩
  · unfold Snapped.place
    simp only [nth, ht, htr]
    rw [hY, hX, hd1, hd2]
    push_cast at ha
    exact ha
  · refine ⟨by omega, by omega, ?_⟩
    intro y x hy hx
    rw [a1] at hy
    rw [a2] at hx
    by_cases hin : Y ≤ y ∧ y < Y + src.h ∧ X ≤ x ∧ x < X + src.w
    · right
      obtain ⟨i, j, hi, hj, hc, hg⟩ := h2 (y - Y) (x - X) (by omega) (by omega)
      refine ⟨m, t, i, j, Or.inr ⟨rfl, rfl⟩, ⟨f, c, ss, fs, hf, hsn, by omega, by omega, ?_⟩, ?_, ?_⟩
      · rw [hc]
        apply Prod.ext
        · simp only; omega
        · simp only; omega
      · intro m' t' i' j' hd hl
        rcases hd with hd | ⟨rfl, rfl⟩
        · have := hdone m' t' hd
          unfold Spec.Later at hl this
          omega
        · unfold Spec.Later at hl
          omega
      · rw [a3 y x hin.1 hin.2.1 hin.2.2.1 hin.2.2.2, hg, hpg i j hi hj]
    · have hnot : ∀ i j, ¬ Spec.TileCovers g px m t i j ((y : Int) - s.centre.1, (x : Int) - s.centre.2) := by
        intro i j hc
        have := (hcov _).1 ⟨i, j, hc⟩
        simp only at this
        omega
      rcases p3 y x hy hx with ⟨q1, q2⟩ | ⟨m', t', i', j', q1, q2, q3, q4⟩
      · left
        refine ⟨?_, by rw [a4 y x hin, q2]⟩
        intro m' t' i j hd
        rcases hd with hd | ⟨rfl, rfl⟩
        · exact q1 m' t' i j hd
        · exact hnot i j
      · right
        refine ⟨m', t', i', j', Or.inl q1, q2, ?_, by rw [a4 y x hin, q4]⟩
        intro m2 t2 i2 j2 hd hl
        rcases hd with hd | ⟨rfl, rfl⟩
        · exact q3 m2 t2 i2 j2 hd hl
        · exact hnot i2 j2

theorem Painted.congr {g : Geom K} {px : K × K} {centre : Int × Int} {data : Stack V} {start img : Plane V}
    {done done' : Nat → Nat → Prop} (h : ∀ m t, done m t ↔ done' m t) (hp : Painted g px centre data start done img) :
    Painted g px centre data start done' img := by
  have : done = done' := by
    funext m t
    exact propext (h m t)
  rw [← this]
  exact hp

/-- The loops of `position_modules`. -/
theorem paint_all {g : Geom K} {px : K × K} {mods : List (List Grid)} {s : Snapped} {data : Stack V} {start : Plane V}
    (hmods : mapE (mapE (fun f : Frag K => f.snap px)) g.modules = .ok mods) (hinit : Snapped.init g.det mods = .ok s)
    (hC : Spec.Complete g) (hS : Spec.RightSize g) (hdata : (data.n, data.h, data.w) = Spec.shape g.det)
    (hstart : ((start.h : Int), (start.w : Int)) = s.size) :
    ∃ img, foldE (s.placeModule data) start s.modules.zipIdx = .ok img ∧
      Painted g px s.centre data start (fun m _ => m < mods.length) img := by
  obtain ⟨hdet, hsm, hin, _⟩ := box_tight hinit
  have hlen : mods.length = g.modules.length := mapE_length hmods
  rw [hsm]
  have hh : data.h = (Spec.shape g.det).2.1 := by rw [← hdata]
  have hw : data.w = (Spec.shape g.det).2.2 := by rw [← hdata]
  have hn : data.n = (Spec.shape g.det).1 := by rw [← hdata]
  have hz1 : (start.h : Int) = s.size.1 := by rw [← hstart]
  have hz2 : (start.w : Int) = s.size.2 := by rw [← hstart]
  apply foldE_zipIdx (fun k img => Painted g px s.centre data start (fun m _ => m < k) img)
  · exact ⟨rfl, rfl, fun y x _ _ => Or.inl ⟨fun m t i j h => absurd h (Nat.not_lt_zero _), rfl⟩⟩
  · intro k mod img hk hP
    have hklt : k < mods.length := (List.getElem?_eq_some_iff.1 hk).1
    obtain ⟨tiles, ht1, ht2, ht3⟩ := split_regions g.det (⟨data.h, data.w, data.get k⟩ : Plane V) hh hw
    have hplane : data.plane k = .ok ⟨data.h, data.w, data.get k⟩ := by
      unfold Stack.plane
      rw [if_pos (by rw [hn, ← hC.1, ← hlen]; exact hklt)]
    obtain ⟨fmod, hfm, hmapmod⟩ := mapE_getElem? hmods hk
    have hmodlen : mod.length = Spec.tiles g.det := by
      rw [mapE_length hmapmod]
      exact hC.2 fmod (List.mem_of_getElem? hfm)
    have inner := foldE_zipIdx (fun l img => Painted g px s.centre data start (fun m t => m < k ∨ (m = k ∧ t < l)) img)
      (s.place tiles) mod img (hP.congr (fun m t => by simp)) (by
        intro l q img1 hl hP1
        have hllt : l < mod.length := (List.getElem?_eq_some_iff.1 hl).1
        obtain ⟨f, hf, hfq⟩ := snapped_modules hmods hk hl
        have hfs : f.ssPixels = (Spec.tileShape g.det).1 ∧ f.fsPixels = (Spec.tileShape g.det).2 := by
          obtain ⟨fm, e1, e2⟩ := hf
          exact hS fm (List.mem_of_getElem? e1) f (List.mem_of_getElem? e2)
        have hq1 := hin mod (List.mem_of_getElem? hk) q (List.mem_of_getElem? hl) q.corner (by simp)
        have hq2 := hin mod (List.mem_of_getElem? hk) q (List.mem_of_getElem? hl) q.opp (by simp)
        have htl : l < tiles.length := by rw [ht2, ← hmodlen]; exact hllt
        obtain ⟨r1, r2, r3⟩ := ht3 l tiles[l] (List.getElem?_eq_getElem htl)
        obtain ⟨-, e1, e2, -⟩ := tile_inside g.det (t := l) (by rw [← hmodlen]; exact hllt)
        have hth : tiles[l].h = (Spec.tileShape g.det).1 := by rw [r1]; simp only [Spec.part]; omega
        have htw : tiles[l].w = (Spec.tileShape g.det).2 := by rw [r2]; simp only [Spec.part]; omega
        obtain ⟨img2, e3, e4⟩ := place_tile hP1 hf hfq hfs ⟨by omega, by omega, by omega, by omega⟩
          (List.getElem?_eq_getElem htl) hth htw (fun i j hi hj => r3 i j hi hj)
          (by intro m' t' h; unfold Spec.Later; omega)
        refine ⟨img2, e3, e4.congr ?_⟩
        intro m t
        omega)
    obtain ⟨img2, e1, e2⟩ := inner
    refine ⟨img2, ?_, ?_⟩
    · unfold Snapped.placeModule
      simp only [hplane]
      rw [hdet, ht1]
      exact e1
    · -- every tile of module k has been placed
      obtain ⟨i1, i2, i3⟩ := e2
      have hbound : ∀ m t i j yx, m = k → Spec.TileCovers g px m t i j yx → t < mod.length := by
        rintro m t i j yx rfl ⟨f, c, ss, fs, ⟨fm, e1, e2⟩, _⟩
        rw [hfm] at e1
        obtain rfl := Option.some.inj e1
        rw [mapE_length hmapmod]
        exact (List.getElem?_eq_some_iff.1 e2).1
      refine ⟨i1, i2, ?_⟩
      intro y x hy hx
      rcases i3 y x hy hx with ⟨q1, q2⟩ | ⟨m', t', i', j', q1, q2, q3, q4⟩
      · left
        refine ⟨?_, q2⟩
        intro m t i j hm hc
        by_cases hmk : m = k
        · exact q1 m t i j (Or.inr ⟨hmk, hbound m t i j _ hmk hc⟩) hc
        · exact q1 m t i j (Or.inl (by omega)) hc
      · right
        refine ⟨m', t', i', j', by omega, q2, ?_, q4⟩
        intro m t i j hm hl hc
        by_cases hmk : m = k
        · exact q3 m t i j (Or.inr ⟨hmk, hbound m t i j _ hmk hc⟩) hl hc
        · exact q3 m t i j (Or.inl (by omega)) hl hc

theorem tile_pixel (d : Det) {t i j : Nat} (ht : t < Spec.tiles d) (hi : i < (Spec.tileShape d).1) (hj : j < (Spec.tileShape d).2) :
    (d.tileSlice t).y0 + i < (Spec.shape d).2.1 ∧ (d.tileSlice t).x0 + j < (Spec.shape d).2.2 ∧
      Spec.tileOf d ((d.tileSlice t).y0 + i) ((d.tileSlice t).x0 + j) = t ∧
      Spec.inTile d ((d.tileSlice t).y0 + i) ((d.tileSlice t).x0 + j) = (i, j) := by
  obtain ⟨h1, h2, h3, -⟩ := tile_inside d ht
  have hr : Spec.InRegion (d.tileSlice t) ((d.tileSlice t).y0 + i) ((d.tileSlice t).x0 + j) := by
    unfold Spec.InRegion
    omega
  obtain ⟨b1, b2⟩ := h1 _ _ hr
  have e := (tile_region d b1 b2 ht).1 hr
  obtain ⟨o1, o2⟩ := tile_origin d b1 b2
  rw [← e] at o1 o2
  refine ⟨b1, b2, e.symm, ?_⟩
  apply Prod.ext
  · simp only; omega
  · simp only; omega

/-- A pixel of a tile is a pixel of the module. -/
theorem covers_of_tile {g : Geom K} {px : K × K} (hC : Spec.Complete g) {m t i j : Nat} {yx : Int × Int}
    (h : Spec.TileCovers g px m t i j yx) :
    t < Spec.tiles g.det ∧ Spec.tileOf g.det ((g.det.tileSlice t).y0 + i) ((g.det.tileSlice t).x0 + j) = t ∧
    Spec.Covers g px m ((g.det.tileSlice t).y0 + i) ((g.det.tileSlice t).x0 + j) yx := by
  have h' := h
  obtain ⟨f, c, ss, fs, ⟨mod, hm, ht⟩, -, hi, hj, -⟩ := h
  have htl : t < Spec.tiles g.det := by
    rw [← hC.2 mod (List.mem_of_getElem? hm)]
    exact (List.getElem?_eq_some_iff.1 ht).1
  obtain ⟨a1, a2, a3, a4⟩ := tile_pixel g.det htl hi hj
  refine ⟨htl, a3, a1, a2, ?_⟩
  rw [a3, a4]
  exact h'

theorem snap_all {g : Geom K} {px : K × K} (h : Spec.AllSnap g px) :
    ∃ mods, mapE (mapE (fun f : Frag K => f.snap px)) g.modules = .ok mods := by
  apply mapE_exists_ok
  intro m hm
  apply mapE_exists_ok
  intro f hf
  obtain ⟨c, ss, fs, hs⟩ := h m hm f hf
  exact ⟨_, (snap_iff f px _).2 ⟨c, ss, fs, hs, rfl⟩⟩

theorem complete_nonempty {g : Geom K} (hC : Spec.Complete g) : ∃ m ∈ g.modules, m ≠ [] := by
  have h1 : 0 < g.modules.length := by
    rw [hC.1]; cases g.det <;> decide
  refine ⟨g.modules[0], List.getElem_mem h1, ?_⟩
  intro h
  have := hC.2 _ (List.getElem_mem h1)
  rw [h] at this
  cases hg : g.det <;> rw [hg] at this <;> simp [Spec.tiles] at this

/-- The snapped geometry of a complete geometry with tiles along the axes. -/
theorem snapped_succeeds {g : Geom K} {rowStep : K} (hC : Spec.Complete g) (hA : Spec.AllSnap g (g.det.pixelShape rowStep)) :
    ∃ mods s, mapE (mapE (fun f : Frag K => f.snap (g.det.pixelShape rowStep))) g.modules = .ok mods ∧
      Snapped.init g.det mods = .ok s ∧ g.snapped rowStep = .ok s ∧ 0 ≤ s.size.1 ∧ 0 ≤ s.size.2 := by
  obtain ⟨mods, hm⟩ := snap_all hA
  have hne : ∃ m ∈ mods, m ≠ [] := by
    obtain ⟨m, h1, h2⟩ := complete_nonempty hC
    obtain ⟨r, h3, h4⟩ := mapE_ok_all hm h1
    refine ⟨r, h3, ?_⟩
    rintro rfl
    exact h2 (List.length_eq_zero_iff.1 (by rw [← mapE_length h4]; rfl))
  obtain ⟨s, hs⟩ := box_succeeds g.det mods hne
  refine ⟨mods, s, hm, hs, ?_, ?_⟩
  · unfold Geom.snapped
    rw [hm]
    exact hs
  · obtain ⟨-, -, h1, ⟨m, hm, q, hq, c, hc, -⟩, -⟩ := box_tight hs
    have := h1 m hm q hq c hc
    omega

theorem assembled_of_painted {g : Geom K} {px : K × K} {mods : List (List Grid)} {s : Snapped} {data : Stack V}
    {start img : Plane V} (hmods : mapE (mapE (fun f : Frag K => f.snap px)) g.modules = .ok mods)
    (hinit : Snapped.init g.det mods = .ok s) (hC : Spec.Complete g) (hS : Spec.RightSize g)
    (hstart : ((start.h : Int), (start.w : Int)) = s.size)
    (hP : Painted g px s.centre data start (fun m _ => m < mods.length) img) : Spec.Assembled g px data start img s.centre := by
  obtain ⟨hdet, hsm, hin, htop, hleft, hbot, hright⟩ := box_tight hinit
  have hlen : mods.length = g.modules.length := mapE_length hmods
  have hz1 : (start.h : Int) = s.size.1 := by rw [← hstart]
  have hz2 : (start.w : Int) = s.size.2 := by rw [← hstart]
  obtain ⟨p1, p2, p3⟩ := hP
  have hsize : ∀ {m t : Nat} {f : Frag K}, Spec.IsTile g m t f →
      f.ssPixels = (Spec.tileShape g.det).1 ∧ f.fsPixels = (Spec.tileShape g.det).2 := by
    rintro m t f ⟨fm, e1, e2⟩
    exact hS fm (List.mem_of_getElem? e1) f (List.mem_of_getElem? e2)
  have hts : 0 < (Spec.tileShape g.det).1 ∧ 0 < (Spec.tileShape g.det).2 := by
    cases g.det <;> decide
  -- the cells of a tile of the image
  have hgrid : ∀ m ∈ mods, ∀ q ∈ m, q.corner.1 < q.opp.1 ∧ q.corner.2 < q.opp.2 ∧ ∀ yx : Int × Int,
      q.corner.1 ≤ yx.1 → yx.1 < q.opp.1 → q.corner.2 ≤ yx.2 → yx.2 < q.opp.2 →
      ∃ m i j, Spec.Covers g px m i j yx := by
    intro mod hmod q hq
    obtain ⟨m, hm⟩ := List.getElem?_of_mem hmod
    obtain ⟨t, ht⟩ := List.getElem?_of_mem hq
    obtain ⟨f, hf, hfq⟩ := snapped_modules hmods hm ht
    have hcov := tile_covers_iff hf hfq (hsize hf)
    obtain ⟨c, ss, fs, hsn, -⟩ := (snap_iff f px q).1 hfq
    have h0 := (hcov (Spec.cell c ss fs 0 0)).1 ⟨0, 0, f, c, ss, fs, hf, hsn, hts.1, hts.2, rfl⟩
    refine ⟨by omega, by omega, ?_⟩
    intro yx a1 a2 a3 a4
    obtain ⟨i, j, h⟩ := (hcov yx).2 ⟨a1, a2, a3, a4⟩
    exact ⟨m, _, _, (covers_of_tile hC h).2.2⟩
  have hcovlen : ∀ {m t i j : Nat} {yx : Int × Int}, Spec.TileCovers g px m t i j yx → m < mods.length := by
    rintro m t i j yx ⟨f, c, ss, fs, ⟨mod, hm, -⟩, -⟩
    rw [hlen]
    exact (List.getElem?_eq_some_iff.1 hm).1
  -- every pixel is inside
  have hinside : ∀ m i j yx, Spec.Covers g px m i j yx →
      0 ≤ yx.1 + s.centre.1 ∧ yx.1 + s.centre.1 < img.h ∧ 0 ≤ yx.2 + s.centre.2 ∧ yx.2 + s.centre.2 < img.w := by
    intro m i j yx hc
    have hc' := hc.2.2
    obtain ⟨f, c, ss, fs, hf, hsn, -⟩ := hc.2.2
    have hfq := (snap_iff f px _).2 ⟨c, ss, fs, hsn, rfl⟩
    have hr := (tile_covers_iff hf hfq (hsize hf) yx).1 ⟨_, _, hc'⟩
    obtain ⟨mod, e1, e2⟩ := hf
    obtain ⟨gm, e3, e4⟩ := mapE_ok_all hmods (List.mem_of_getElem? e1)
    obtain ⟨q, e5, e6⟩ := mapE_ok_all e4 (List.mem_of_getElem? e2)
    rw [hfq] at e6
    obtain rfl := Except.ok.inj e6
    have b1 := hin gm e3 _ e5 _ (List.mem_cons_self ..)
    have b2 := hin gm e3 _ e5 _ (List.mem_cons_of_mem _ (List.mem_cons_self ..))
    omega
  constructor
  · exact p1
  · exact p2
  · exact hinside
  · obtain ⟨m, hm, q, hq, c, hc, e⟩ := htop
    obtain ⟨g1, g2, g3⟩ := hgrid m hm q hq
    have b := hin m hm q hq q.corner (by simp)
    simp only [List.mem_cons, List.not_mem_nil, or_false] at hc
    obtain ⟨m', i, j, h⟩ := g3 q.corner (by omega) (by omega) (by omega) (by omega)
    refine ⟨m', i, j, q.corner, h, ?_⟩
    rcases hc with rfl | rfl <;> omega
  · obtain ⟨m, hm, q, hq, c, hc, e⟩ := hbot
    obtain ⟨g1, g2, g3⟩ := hgrid m hm q hq
    have b := hin m hm q hq q.opp (by simp)
    simp only [List.mem_cons, List.not_mem_nil, or_false] at hc
    obtain ⟨m', i, j, h⟩ := g3 (q.opp.1 - 1, q.opp.2 - 1) (by simp only; omega) (by simp only; omega) (by simp only; omega)
      (by simp only; omega)
    refine ⟨m', i, j, (q.opp.1 - 1, q.opp.2 - 1), h, ?_⟩
    simp only
    rcases hc with rfl | rfl <;> omega
  · obtain ⟨m, hm, q, hq, c, hc, e⟩ := hleft
    obtain ⟨g1, g2, g3⟩ := hgrid m hm q hq
    have b := hin m hm q hq q.corner (by simp)
    simp only [List.mem_cons, List.not_mem_nil, or_false] at hc
    obtain ⟨m', i, j, h⟩ := g3 q.corner (by omega) (by omega) (by omega) (by omega)
    refine ⟨m', i, j, q.corner, h, ?_⟩
    rcases hc with rfl | rfl <;> omega
  · obtain ⟨m, hm, q, hq, c, hc, e⟩ := hright
    obtain ⟨g1, g2, g3⟩ := hgrid m hm q hq
    have b := hin m hm q hq q.opp (by simp)
    simp only [List.mem_cons, List.not_mem_nil, or_false] at hc
    obtain ⟨m', i, j, h⟩ := g3 (q.opp.1 - 1, q.opp.2 - 1) (by simp only; omega) (by simp only; omega) (by simp only; omega)
      (by simp only; omega)
    refine ⟨m', i, j, (q.opp.1 - 1, q.opp.2 - 1), h, ?_⟩
    simp only
    rcases hc with rfl | rfl <;> omega
  · intro m i j y x hc hlast
    have hb := hinside _ _ _ _ hc
    simp only at hb
    rcases p3 y x (by omega) (by omega) with ⟨q1, -⟩ | ⟨m', t', i', j', q1, q2, q3, q4⟩
    · exact absurd hc.2.2 (q1 m _ _ _ (hcovlen hc.2.2))
    · obtain ⟨o1, o2⟩ := tile_origin g.det hc.1 hc.2.1
      obtain ⟨c1, c2, c3⟩ := covers_of_tile hC q2
      have n1 : ¬ Spec.Later m (Spec.tileOf g.det i j) m' t' := by
        intro hl
        refine hlast m' _ _ ?_ c3
        rw [c2]
        exact hl
      have n2 : ¬ Spec.Later m' t' m (Spec.tileOf g.det i j) := by
        intro hl
        exact q3 m _ _ _ (hcovlen hc.2.2) hl hc.2.2
      have e : m = m' ∧ Spec.tileOf g.det i j = t' := by
        unfold Spec.Later at n1 n2
        omega
      obtain ⟨rfl, rfl⟩ := e
      rw [q4]
      -- the same tile, so the same pixel
      obtain ⟨f, k, ss, fs, ⟨mod, hm, hf⟩, hsn, hi, hj, hcell⟩ := hc.2.2
      obtain ⟨f', k', ss', fs', ⟨mod', hm', hf'⟩, hsn', hi', hj', hcell'⟩ := q2
      rw [hm] at hm'
      obtain rfl := Option.some.inj hm'
      rw [hf] at hf'
      obtain rfl := Option.some.inj hf'
      obtain ⟨rfl, rfl, rfl⟩ := snaps_unique hsn hsn'
      obtain ⟨d1, d2⟩ := cell_injective hsn.2.2.2.2.2.2 (hcell.symm.trans hcell')
      rw [← d1, ← d2, ← o1, ← o2]
  · intro y x hy hx hno
    rcases p3 y x hy hx with ⟨-, q2⟩ | ⟨m', t', i', j', q1, q2, -⟩
    · exact q2
    · exact absurd (covers_of_tile hC q2).2.2 (hno _ _ _)

/-- C74, C75: assembling a complete geometry whose tiles are close to the axes, with data of the shape of the detector. -/
theorem assemble_new (g : Geom K) (rowStep : K) (safe : Nat → Nat → Bool) (nan : Nat → V) (data : Stack V)
    (hC : Spec.Complete g) (hS : Spec.RightSize g) (hA : Spec.AllSnap g (g.det.pixelShape rowStep))
    (hd : (data.n, data.h, data.w) = Spec.shape g.det) :
    ∃ img c, g.positionFast rowStep safe nan data none = .ok (img, c) ∧
      Spec.Assembled g (g.det.pixelShape rowStep) data ⟨img.h, img.w, fun _ _ => nan data.dtype⟩ img c := by
  obtain ⟨mods, s, h1, h2, h3, h4, h5⟩ := snapped_succeeds hC hA
  have hst : (((s.output (nan data.dtype)).h : Int), ((s.output (nan data.dtype)).w : Int)) = s.size := by
    apply Prod.ext
    · simp only [Snapped.output]; omega
    · simp only [Snapped.output]; omega
  obtain ⟨img, h6, h7⟩ := paint_all h1 h2 hC hS hd hst
  have hdet := (box_tight h2).1
  refine ⟨img, s.centre, ?_, ?_⟩
  · unfold Geom.positionFast Snapped.positionModules
    simp only [h3]
    rw [if_pos (by rw [hdet, (shapes_agree g.det).1]; exact hd), h6]
  · have := assembled_of_painted h1 h2 hC hS hst h7
    have e1 := this.height
    have e2 := this.width
    rw [e1, e2]
    exact this

/-- C74, C75: the same into an array given by the user, of the shape of `output_array_for_position_fast` and of a dtype to
which the data can be converted. -/
theorem assemble_out (g : Geom K) (rowStep : K) (safe : Nat → Nat → Bool) (nan : Nat → V) (data : Stack V)
    (hC : Spec.Complete g) (hS : Spec.RightSize g) (hA : Spec.AllSnap g (g.det.pixelShape rowStep))
    (hd : (data.n, data.h, data.w) = Spec.shape g.det) (v : V) (empty : Plane V) (he : g.outputFast rowStep v = .ok empty)
    (dt : Nat) (out : Plane V) (ho : out.h = empty.h ∧ out.w = empty.w) (hsafe : safe data.dtype dt = true) :
    ∃ img c, g.positionFast rowStep safe nan data (some (dt, out)) = .ok (img, c) ∧
      Spec.Assembled g (g.det.pixelShape rowStep) data out img c := by
  obtain ⟨mods, s, h1, h2, h3, h4, h5⟩ := snapped_succeeds hC hA
  unfold Geom.outputFast at he
  simp only [h3] at he
  obtain rfl := Except.ok.inj he
  have hst : ((out.h : Int), (out.w : Int)) = s.size := by
    obtain ⟨o1, o2⟩ := ho
    simp only [Snapped.output] at o1 o2
    apply Prod.ext
    · simp only; omega
    · simp only; omega
  obtain ⟨img, h6, h7⟩ := paint_all h1 h2 hC hS hd hst
  have hdet := (box_tight h2).1
  refine ⟨img, s.centre, ?_, assembled_of_painted h1 h2 hC hS hst h7⟩
  unfold Geom.positionFast Snapped.positionModules
  simp only [h3]
  rw [if_pos (by rw [hdet, (shapes_agree g.det).1]; exact hd)]
  simp only [if_pos hst, if_pos hsafe, h6]

/-- C74: the array made by `output_array_for_position_fast` is an empty one of the size of the assembled image. -/
theorem output_shape (g : Geom K) (rowStep : K) (hC : Spec.Complete g) (hA : Spec.AllSnap g (g.det.pixelShape rowStep)) (v : V) :
    ∃ empty, g.outputFast rowStep v = .ok empty ∧ (∀ y x, empty.get y x = v) ∧
      ∀ safe nan (data : Stack V) img c, g.positionFast rowStep safe nan data none = .ok (img, c) → 
        Spec.RightSize g → img.h = empty.h ∧ img.w = empty.w := by
  obtain ⟨mods, s, h1, h2, h3, h4, h5⟩ := snapped_succeeds hC hA
  refine ⟨s.output v, ?_, fun _ _ => rfl, ?_⟩
  · unfold Geom.outputFast
    simp only [h3]
  · intro safe nan data img c h hS
    by_cases hd : (data.n, data.h, data.w) = Spec.shape g.det
    · have hst : (((s.output (nan data.dtype)).h : Int), ((s.output (nan data.dtype)).w : Int)) = s.size := by
        apply Prod.ext
        · simp only [Snapped.output]; omega
        · simp only [Snapped.output]; omega
      obtain ⟨img', h6, h7⟩ := paint_all h1 h2 hC hS hd hst
      unfold Geom.positionFast Snapped.positionModules at h
      simp only [h3] at h
      rw [if_pos (by rw [(box_tight h2).1, (shapes_agree g.det).1]; exact hd), h6] at h
      simp only [Except.ok.injEq, Prod.mk.injEq] at h
      obtain ⟨rfl, -⟩ := h
      exact ⟨h7.1, h7.2.1⟩
    · unfold Geom.positionFast Snapped.positionModules at h
      simp only [h3] at h
      rw [if_neg (by rw [(box_tight h2).1, (shapes_agree g.det).1]; exact hd)] at h
      simp at h

/-- C75: if no two pixels overlap, every pixel is in the image, unchanged, at its cell. -/
theorem no_pixel_lost {g : Geom K} {px : K × K} {data : Stack V} {start img : Plane V} {c : Int × Int}
    (h : Spec.Assembled g px data start img c) (hno : Spec.NoOverlap g px) {m i j : Nat} {yx : Int × Int}
    (hc : Spec.Covers g px m i j yx) :
    ∃ y x : Nat, (y : Int) = yx.1 + c.1 ∧ (x : Int) = yx.2 + c.2 ∧ y < img.h ∧ x < img.w ∧ img.get y x = data.get m i j := by
  obtain ⟨a1, a2, a3, a4⟩ := h.inside m i j yx hc
  refine ⟨(yx.1 + c.1).toNat, (yx.2 + c.2).toNat, by omega, by omega, by omega, by omega, ?_⟩
  have e : ((((yx.1 + c.1).toNat : Nat) : Int) - c.1, (((yx.2 + c.2).toNat : Nat) : Int) - c.2) = yx := by
    apply Prod.ext
    · simp only; omega
    · simp only; omega
  apply h.shown
  · rw [e]; exact hc
  · intro m' i' j' hl hc'
    rw [e] at hc'
    obtain ⟨rfl, rfl, rfl⟩ := hno m i j m' i' j' yx hc hc'
    unfold Spec.Later at hl
    omega

/-- C75: every pixel of a complete geometry has a cell. -/
theorem pixel_has_cell {g : Geom K} {px : K × K} (hC : Spec.Complete g) (hA : Spec.AllSnap g px) {m i j : Nat}
    (hm : m < (Spec.shape g.det).1) (hi : i < (Spec.shape g.det).2.1) (hj : j < (Spec.shape g.det).2.2) :
    ∃ yx, Spec.Covers g px m i j yx ∧ ∀ yx', Spec.Covers g px m i j yx' → yx' = yx := by
  have hm' : m < g.modules.length := by rw [hC.1]; exact hm
  have hmod := hC.2 _ (List.getElem_mem hm')
  have ht := tileOf_lt g.det hi hj
  have ht' : Spec.tileOf g.det i j < g.modules[m].length := by omega
  obtain ⟨c, ss, fs, hs⟩ := hA _ (List.getElem_mem hm') _ (List.getElem_mem ht')
  have htile : Spec.IsTile g m (Spec.tileOf g.det i j) (g.modules[m][Spec.tileOf g.det i j]) :=
    ⟨_, List.getElem?_eq_getElem hm', List.getElem?_eq_getElem ht'⟩
  have h1 : 0 < (Spec.tileShape g.det).1 ∧ 0 < (Spec.tileShape g.det).2 := by
    cases g.det <;> decide
  refine ⟨_, ⟨hi, hj, _, c, ss, fs, htile, hs, Nat.mod_lt _ h1.1, Nat.mod_lt _ h1.2, rfl⟩, ?_⟩
  rintro yx' ⟨-, -, f', c', ss', fs', ⟨mod', e1, e2⟩, hs', -, -, rfl⟩
  rw [List.getElem?_eq_getElem hm'] at e1
  obtain rfl := Option.some.inj e1
  rw [List.getElem?_eq_getElem ht'] at e2
  obtain rfl := Option.some.inj e2
  obtain ⟨rfl, rfl, rfl⟩ := snaps_unique hs hs'
  rfl

/-- C73, C75: an AssertionError if a tile is not close to the axes. -/
theorem assemble_not_aligned (g : Geom K) (rowStep : K) (safe : Nat → Nat → Bool) (nan : Nat → V) (data : Stack V)
    (out : Option (Nat × Plane V)) (hA : ¬ Spec.AllSnap g (g.det.pixelShape rowStep)) :
    g.positionFast rowStep safe nan data out = .error .assertion := by
  have hsnap : ∀ (f : Frag K) px e, f.snap px = .error e → e = .assertion := by
    intro f px e h
    unfold Frag.snap at h
    simp only at h
    split at h
    · simp at h
    · simpa using h.symm
  have hmod : ∀ (m : List (Frag K)) px e, mapE (fun f : Frag K => f.snap px) m = .error e → e = .assertion := by
    intro m px e h
    obtain ⟨x, -, hx⟩ := mapE_error_of h
    exact hsnap x px e hx
  have hsn : g.snapped rowStep = .error .assertion := by
    unfold Geom.snapped
    cases h : mapE (mapE (fun f : Frag K => f.snap (g.det.pixelShape rowStep))) g.modules with
    | error e =>
      obtain ⟨x, -, hx⟩ := mapE_error_of h
      rw [hmod x _ e hx]
    | ok mods =>
      exfalso
      apply hA
      intro m hm f hf
      obtain ⟨r, -, h1⟩ := mapE_ok_all h hm
      obtain ⟨q, -, h2⟩ := mapE_ok_all h1 hf
      obtain ⟨c, ss, fs, hs, -⟩ := (snap_iff f _ q).1 h2
      exact ⟨c, ss, fs, hs⟩
  unfold Geom.positionFast
  rw [hsn]

/-- C75: an AssertionError for data which do not have the shape of the detector. -/
theorem assemble_bad_data (g : Geom K) (rowStep : K) (safe : Nat → Nat → Bool) (nan : Nat → V) (data : Stack V)
    (out : Option (Nat × Plane V)) (hC : Spec.Complete g) (hd : (data.n, data.h, data.w) ≠ Spec.shape g.det) :
    g.positionFast rowStep safe nan data out = .error .assertion := by
  by_cases hA : Spec.AllSnap g (g.det.pixelShape rowStep)
  · obtain ⟨mods, s, h1, h2, h3, h4, h5⟩ := snapped_succeeds hC hA
    unfold Geom.positionFast Snapped.positionModules
    simp only [h3]
    rw [if_neg (by rw [(box_tight h2).1, (shapes_agree g.det).1]; exact hd)]
  · exact assemble_not_aligned g rowStep safe nan data out hA

/-- Every round of a loop which succeeds has succeeded, from a state for which an invariant holds. -/
theorem foldE_rounds {α σ : Type} (Inv : σ → Prop) {f : σ → α → R σ} (hstep : ∀ s a s', Inv s → f s a = .ok s' → Inv s') :
    ∀ (l : List α) (s s' : σ), Inv s → foldE f s l = .ok s' → (∀ a ∈ l, ∃ s1 s2, Inv s1 ∧ f s1 a = .ok s2) ∧ Inv s' := by
  intro l
  induction l with
  | nil =>
    intro s s' h0 h
    obtain rfl := Except.ok.inj h
    exact ⟨by simp, h0⟩
  | cons a l ih =>
    intro s s' h0 h
    simp only [foldE] at h
    cases hf : f s a with
    | error e => rw [hf] at h; simp at h
    | ok s1 =>
      rw [hf] at h
      obtain ⟨i1, i2⟩ := ih s1 s' (hstep s a s1 h0 hf) h
      refine ⟨fun x hx => ?_, i2⟩
      rcases List.mem_cons.1 hx with rfl | hx
      · exact ⟨s, s1, h0, hf⟩
      · exact i1 x hx

/-- Assigning does not change the shape. -/
theorem assign_shape {out src q : Plane V} {y0 y1 x0 x1 : Int} (h : out.assign y0 y1 x0 x1 src = .ok q) : q.h = out.h ∧ q.w = out.w := by
  unfold Plane.assign at h
  split at h
  · simp at h
  · split at h
    · simp at h
    · split at h
      · obtain rfl := Except.ok.inj h
        exact ⟨rfl, rfl⟩
      · simp at h

/-- Assigning data of another shape fails, unless they have one row or column. -/
theorem assign_fails {out src : Plane V} {y x dh dw : Nat} (hy : y + dh ≤ out.h) (hx : x + dw ≤ out.w)
    (h : (src.h ≠ dh ∧ src.h ≠ 1) ∨ (src.w ≠ dw ∧ src.w ≠ 1)) :
    out.assign (y : Int) ((y + dh : Nat) : Int) (x : Int) ((x + dw : Nat) : Int) src = .error .value := by
  unfold Plane.assign
  rw [slicePositions_range (Nat.le_add_right _ _) hy]
  simp only
  rw [slicePositions_range (Nat.le_add_right _ _) hx]
  simp only [Nat.add_sub_cancel_left]
  rw [if_neg]
  simp only [broadcasts, List.length_range', Bool.and_eq_true, Bool.or_eq_true, decide_eq_true_eq]
  omega

/-- C75: a geometry with a tile which has not the number of pixels of the detector (as can be read from a file) is refused: no image is made. -/
theorem assemble_bad_tiles (g : Geom K) (rowStep : K) (safe : Nat → Nat → Bool) (nan : Nat → V) (data : Stack V)
    (out : Option (Nat × Plane V)) (hC : Spec.Complete g) (hd : (data.n, data.h, data.w) = Spec.shape g.det)
    (hpos : ∀ m ∈ g.modules, ∀ f ∈ m, 0 ≤ f.ssPixels ∧ 0 ≤ f.fsPixels) (hS : ¬ Spec.RightSize g) :
    ∀ r, g.positionFast rowStep safe nan data out ≠ .ok r := by
  intro r hr
  by_cases hA : Spec.AllSnap g (g.det.pixelShape rowStep)
  swap
  · rw [assemble_not_aligned g rowStep safe nan data out hA] at hr
    simp at hr
  obtain ⟨mods, s, hmods, hinit, h3, -, -⟩ := snapped_succeeds hC hA
  obtain ⟨hdet, hsm, hin, -⟩ := box_tight hinit
  obtain ⟨fm, hfm, f, hf, hbad⟩ : ∃ m ∈ g.modules, ∃ f ∈ m, ¬ (f.ssPixels = (Spec.tileShape g.det).1 ∧ f.fsPixels = (Spec.tileShape g.det).2) := by
    by_contra hc
    apply hS
    intro m hm f hf
    by_contra hc'
    exact hc ⟨m, hm, f, hf, hc'⟩
  obtain ⟨mod, hmod, hm1⟩ := mapE_ok_all hmods hfm
  obtain ⟨q, hq, hq1⟩ := mapE_ok_all hm1 hf
  have hfold : ∃ o img : Plane V, ((o.h : Int), (o.w : Int)) = s.size ∧ foldE (s.placeModule data) o s.modules.zipIdx = .ok img := by
    unfold Geom.positionFast Snapped.positionModules at hr
    simp only [h3] at hr
    rw [if_pos (by rw [hdet, (shapes_agree g.det).1]; exact hd)] at hr
    have hsz : 0 ≤ s.size.1 ∧ 0 ≤ s.size.2 := by
      have := hin mod hmod q hq q.corner (by simp)
      omega
    split at hr
    · simp at hr
    · next o ho =>
      split at hr
      · simp at hr
      · next img himg =>
        refine ⟨o, img, ?_, himg⟩
        split at ho
        · obtain rfl := Except.ok.inj ho
          simp only [Snapped.output]
          apply Prod.ext <;> simp only <;> omega
        · split at ho
          · next hs =>
            split at ho
            · obtain rfl := Except.ok.inj ho
              exact hs
            · simp at ho
          · simp at ho
  obtain ⟨o, img, ho, hfold⟩ := hfold
  have hshape : ∀ tiles (o : Plane V) x o', s.place tiles o x = .ok o' → o'.h = o.h ∧ o'.w = o.w := by
    intro tiles o x o' h
    unfold Snapped.place at h
    split at h
    · simp at h
    · split at h
      · simp at h
      · exact assign_shape h
  have hinner : ∀ tiles (l : List (Grid × Nat)) (o1 o2 : Plane V), foldE (s.place tiles) o1 l = .ok o2 →
      (∀ a ∈ l, ∃ p1 p2 : Plane V, (p1.h = o1.h ∧ p1.w = o1.w) ∧ s.place tiles p1 a = .ok p2) ∧ (o2.h = o1.h ∧ o2.w = o1.w) := by
    intro tiles l o1 o2 h
    exact foldE_rounds (fun p : Plane V => p.h = o1.h ∧ p.w = o1.w) (fun s1 a s2 h1 h2 => by
      have := hshape tiles s1 a s2 h2
      omega) l o1 o2 ⟨rfl, rfl⟩ h
  have hmodule : ∀ (o1 : Plane V) x (o2 : Plane V), s.placeModule data o1 x = .ok o2 → ∃ p tiles, data.plane x.2 = .ok p ∧
      s.det.splitTiles p = .ok tiles ∧ foldE (s.place tiles) o1 x.1.zipIdx = .ok o2 := by
    intro o1 x o2 h
    unfold Snapped.placeModule at h
    split at h
    · simp at h
    · next p hp =>
      split at h
      · simp at h
      · next tiles ht => exact ⟨p, tiles, hp, ht, h⟩
  obtain ⟨rounds, -⟩ := foldE_rounds (fun p : Plane V => p.h = o.h ∧ p.w = o.w) (fun s1 a s2 h1 h2 => by
    obtain ⟨p, tiles, -, -, h⟩ := hmodule s1 a s2 h2
    have := (hinner tiles _ _ _ h).2
    omega) s.modules.zipIdx o img ⟨rfl, rfl⟩ hfold
  rw [hsm] at rounds
  obtain ⟨k, hk, hke⟩ := List.mem_iff_getElem.1 hmod
  obtain ⟨s1, s2, hs1, hround⟩ := rounds (mod, k) (List.mem_zipIdx_iff_getElem?.2 (by simp [hk, hke]))
  obtain ⟨p, tiles, hp, ht, hin2⟩ := hmodule _ _ _ hround
  obtain ⟨l, hl, hle⟩ := List.mem_iff_getElem.1 hq
  obtain ⟨p1, p2, hp1, hplace⟩ := (hinner tiles _ _ _ hin2).1 (q, l) (List.mem_zipIdx_iff_getElem?.2 (by simp [hl, hle]))
  have hh : p.h = (Spec.shape g.det).2.1 ∧ p.w = (Spec.shape g.det).2.2 := by
    unfold Stack.plane at hp
    split at hp
    · obtain rfl := Except.ok.inj hp
      rw [← hd]
      exact ⟨rfl, rfl⟩
    · simp at hp
  obtain ⟨tiles', ht1, ht2, ht3⟩ := split_regions g.det p hh.1 hh.2
  rw [hdet, ht1] at ht
  obtain rfl := Except.ok.inj ht
  have hmodlen : mod.length = Spec.tiles g.det := by
    rw [mapE_length hm1]
    exact hC.2 fm hfm
  have htl : l < tiles'.length := by rw [ht2, ← hmodlen]; exact hl
  obtain ⟨r1, r2, -⟩ := ht3 l tiles'[l] (List.getElem?_eq_getElem htl)
  obtain ⟨-, e1, e2, -⟩ := tile_inside g.det (t := l) (by rw [← hmodlen]; exact hl)
  have hth : tiles'[l].h = (Spec.tileShape g.det).1 := by rw [r1]; simp only [Spec.part]; omega
  have htw : tiles'[l].w = (Spec.tileShape g.det).2 := by rw [r2]; simp only [Spec.part]; omega
  have hbig : 1 < (Spec.tileShape g.det).1 ∧ 1 < (Spec.tileShape g.det).2 := by cases g.det <;> decide
  obtain ⟨c, ss, fs, hsn, hqe⟩ := (snap_iff f _ q).1 hq1
  obtain ⟨src, htr, hdims, -⟩ := grid_cells (c := c) hsn.2.2.2.2.2.2 tiles'[l]
  have hbox1 := hin mod hmod q hq q.corner (by simp)
  have hbox2 := hin mod hmod q hq q.opp (by simp)
  obtain ⟨np1, np2⟩ := hpos fm hfm f hf
  obtain ⟨a, ha⟩ := Int.eq_ofNat_of_zero_le np1
  obtain ⟨b, hb⟩ := Int.eq_ofNat_of_zero_le np2
  rw [ha, hb] at hqe
  have hsw : q.transform tiles'[l] = .ok src ∧ ((fs.1 = 0 ∧ src.h = tiles'[l].h ∧ src.w = tiles'[l].w ∧ q.dims = ((a : Int), (b : Int))) ∨
      (fs.1 ≠ 0 ∧ src.h = tiles'[l].w ∧ src.w = tiles'[l].h ∧ q.dims = ((b : Int), (a : Int)))) ∧ q.opp = (q.corner.1 + q.dims.1, q.corner.2 + q.dims.2) := by
    by_cases hz : fs.1 = 0
    · have : q.transform tiles'[l] = .ok src := by
        rw [← htr, hqe]
        simp only [Grid.init, if_pos hz, Grid.transform]
      refine ⟨this, Or.inl ⟨hz, ?_, ?_, ?_⟩, ?_⟩
      · have := congrArg Prod.fst hdims
        simp only [Grid.init, if_pos hz] at this
        omega
      · have := congrArg Prod.snd hdims
        simp only [Grid.init, if_pos hz] at this
        omega
      · rw [hqe]; simp only [Grid.init, if_pos hz]
      · rw [hqe]; simp only [Grid.init, if_pos hz]
    · have : q.transform tiles'[l] = .ok src := by
        rw [← htr, hqe]
        simp only [Grid.init, if_neg hz, Grid.transform]
      refine ⟨this, Or.inr ⟨hz, ?_, ?_, ?_⟩, ?_⟩
      · have := congrArg Prod.fst hdims
        simp only [Grid.init, if_neg hz] at this
        omega
      · have := congrArg Prod.snd hdims
        simp only [Grid.init, if_neg hz] at this
        omega
      · rw [hqe]; simp only [Grid.init, if_neg hz]
      · rw [hqe]; simp only [Grid.init, if_neg hz]
  obtain ⟨htq, hcase, hopp⟩ := hsw
  have hz1 : (o.h : Int) = s.size.1 := by rw [← ho]
  have hz2 : (o.w : Int) = s.size.2 := by rw [← ho]
  obtain ⟨Y, hY⟩ := Int.eq_ofNat_of_zero_le hbox1.1
  obtain ⟨X, hX⟩ := Int.eq_ofNat_of_zero_le hbox1.2.2.1
  unfold Snapped.place at hplace
  simp only [nth, List.getElem?_eq_getElem htl, htq] at hplace
  rw [hY, hX] at hplace
  have ho1 : q.opp.1 = q.corner.1 + q.dims.1 := by rw [hopp]
  have ho2 : q.opp.2 = q.corner.2 + q.dims.2 := by rw [hopp]
  rw [ha, hb] at hbad
  rcases hcase with ⟨-, w1, w2, w3⟩ | ⟨-, w1, w2, w3⟩
  · have d1 : q.dims.1 = (a : Int) := by rw [w3]
    have d2 : q.dims.2 = (b : Int) := by rw [w3]
    have := assign_fails (out := p1) (src := src) (y := Y) (x := X) (dh := a) (dw := b) (by omega) (by omega) (by omega)
    push_cast at this
    rw [d1, d2, this] at hplace
    simp at hplace
  · have d1 : q.dims.1 = (b : Int) := by rw [w3]
    have d2 : q.dims.2 = (a : Int) := by rw [w3]
    have := assign_fails (out := p1) (src := src) (y := Y) (x := X) (dh := b) (dw := a) (by omega) (by omega) (by omega)
    push_cast at this
    rw [d1, d2, this] at hplace
    simp at hplace

/-- C75: an array of another shape is refused with an AssertionError, and one of a dtype to which the data cannot be converted
with a TypeError; so data are never cut or changed silently. -/
theorem assemble_bad_out (g : Geom K) (rowStep : K) (safe : Nat → Nat → Bool) (nan : Nat → V) (data : Stack V)
    (v : V) (empty : Plane V) (he : g.outputFast rowStep v = .ok empty)
    (hd : (data.n, data.h, data.w) = Spec.shape g.det) (dt : Nat) (out : Plane V) (hC : Spec.Complete g)
    (hA : Spec.AllSnap g (g.det.pixelShape rowStep)) :
    (¬ (out.h = empty.h ∧ out.w = empty.w) →
      g.positionFast rowStep safe nan data (some (dt, out)) = .error .assertion) ∧
    (out.h = empty.h ∧ out.w = empty.w → safe data.dtype dt = false →
      g.positionFast rowStep safe nan data (some (dt, out)) = .error .type) := by
  obtain ⟨mods, s, h1, h2, h3, h4, h5⟩ := snapped_succeeds hC hA
  unfold Geom.outputFast at he
  simp only [h3] at he
  obtain rfl := Except.ok.inj he
  unfold Geom.positionFast Snapped.positionModules
  simp only [h3]
  rw [if_pos (by rw [(box_tight h2).1, (shapes_agree g.det).1]; exact hd)]
  simp only [Snapped.output]
  constructor
  · intro hne
    rw [if_neg]
    intro hc
    apply hne
    have e1 := congrArg Prod.fst hc
    have e2 := congrArg Prod.snd hc
    simp only at e1 e2
    omega
  · intro heq hsafe
    rw [if_pos, hsafe]
    · rfl
    · apply Prod.ext
      · simp only; omega
      · simp only; omega

end KD.Geo
