/-
C90 the box of interpolated assembling; C91 what interpolated assembling shows.
-/
import Verif.Props.GeomFiles

set_option linter.unusedSimpArgs false
set_option linter.unusedSectionVars false

namespace KD.Geo

variable {V : Type} {K : Type} [Field K] [LinearOrder K] [IsStrictOrderedRing K] [FloorRing K]

theorem truncate_bounds (x : K) : ((truncate x : Int) : K) - 1 < x ∧ x < ((truncate x : Int) : K) + 1 ∧
    (0 ≤ x → ((truncate x : Int) : K) ≤ x) ∧ (x ≤ 0 → x ≤ ((truncate x : Int) : K)) := by
  unfold truncate
  by_cases h : 0 ≤ x
  · rw [if_pos h]
    have h1 := Int.floor_le x
    have h2 := Int.lt_floor_add_one x
    refine ⟨by linarith, by linarith, fun _ => h1, ?_⟩
    intro h0
    have : x = 0 := le_antisymm h0 h
    subst this
    simp
  · rw [if_neg h]
    have h1 := Int.le_ceil x
    have h2 := Int.ceil_lt_add_one x
    exact ⟨by linarith, by linarith, fun h0 => absurd h0 h, fun _ => h1⟩

/-- The corners of a tile are the four points at the ends of its two sides. -/
theorem corners_eq (f : Frag K) (v : Vec K) : v ∈ f.corners ↔
    v = Spec.point f 0 0 ∨ v = Spec.point f 0 f.fsPixels ∨ v = Spec.point f f.ssPixels f.fsPixels ∨ v = Spec.point f f.ssPixels 0 := by
  have e : f.corners = [Spec.point f 0 0, Spec.point f 0 f.fsPixels, Spec.point f f.ssPixels f.fsPixels, Spec.point f f.ssPixels 0] := by
    simp only [Frag.corners, Spec.point, Vec.add, Vec.smul, List.cons.injEq, and_true]
    refine ⟨?_, ?_, ?_, ?_⟩ <;> refine Vec.ext ?_ ?_ ?_ <;> simp only <;> ring
  rw [e]
  simp

/-- The centre of a tile is the point half along both sides. -/
theorem centre_eq (f : Frag K) : f.centre = Spec.point f ((f.ssPixels : K) / 2) ((f.fsPixels : K) / 2) := by
  simp only [Frag.centre, Spec.point, Vec.add, Vec.smul]
  refine Vec.ext ?_ ?_ ?_ <;> simp only <;> ring

/-- A number which depends on the place in a tile by slow-scan and fast-scan is between bounds if it is at the four corners. -/
theorem between_corners {a b s t n m lo hi : K} (hs : 0 ≤ s ∧ s ≤ n) (ht : 0 ≤ t ∧ t ≤ m) (c : K)
    (h1 : lo ≤ c ∧ c ≤ hi) (h2 : lo ≤ c + m * b ∧ c + m * b ≤ hi) (h3 : lo ≤ c + n * a + m * b ∧ c + n * a + m * b ≤ hi)
    (h4 : lo ≤ c + n * a ∧ c + n * a ≤ hi) : lo ≤ c + s * a + t * b ∧ c + s * a + t * b ≤ hi := by
  have ha : (0 ≤ s * a ∧ s * a ≤ n * a) ∨ (n * a ≤ s * a ∧ s * a ≤ 0) := by
    rcases le_total 0 a with h | h
    · exact Or.inl ⟨mul_nonneg hs.1 h, mul_le_mul_of_nonneg_right hs.2 h⟩
    · exact Or.inr ⟨mul_le_mul_of_nonpos_right hs.2 h, mul_nonpos_of_nonneg_of_nonpos hs.1 h⟩
  have hb : (0 ≤ t * b ∧ t * b ≤ m * b) ∨ (m * b ≤ t * b ∧ t * b ≤ 0) := by
    rcases le_total 0 b with h | h
    · exact Or.inl ⟨mul_nonneg ht.1 h, mul_le_mul_of_nonneg_right ht.2 h⟩
    · exact Or.inr ⟨mul_le_mul_of_nonpos_right ht.2 h, mul_nonpos_of_nonneg_of_nonpos ht.1 h⟩
  rcases ha with ha | ha <;> rcases hb with hb | hb <;> constructor <;> linarith [h1.1, h1.2, h2.1, h2.2, h3.1, h3.2, h4.1, h4.2]

/-- The size of a pixel of a detector, (x, y), in metres. -/
theorem pixelShape_pos (d : Det) (rowStep : K) (h : 0 < rowStep) : 0 < (d.pixelShape rowStep).1 ∧ 0 < (d.pixelShape rowStep).2 := by
  cases d <;> simp only [Det.pixelShape, Det.pixelSize] <;> constructor <;> positivity

/-- C90: when a geometry has a tile, the box found for interpolation holds every point of every tile, and is at most two pixels
larger than needed on each side. -/
theorem box_holds (g : Geom K) (rowStep : K) (hrow : 0 < rowStep) (hne : ∃ m ∈ g.modules, ∃ f, f ∈ m) :
    ∃ h w cy cx, g.dimensions rowStep = .ok ((h, w), (cy, cx)) ∧
      (∀ m ∈ g.modules, ∀ f ∈ m, ∀ s t : K, 0 ≤ s → s ≤ f.ssPixels → 0 ≤ t → t ≤ f.fsPixels →
        (let p := Spec.point f s t
         let px := g.det.pixelShape rowStep
         0 < p.x / px.1 + (cx : K) ∧ p.x / px.1 + (cx : K) < (w : K) ∧ 0 < p.y / px.2 + (cy : K) ∧ p.y / px.2 + (cy : K) < (h : K))) ∧
      (let near (φ : Vec K → K) (at_ : K) := ∃ m ∈ g.modules, ∃ f ∈ m, ∃ v ∈ f.corners, |φ v - at_| < 2
       near (fun v => v.x / (g.det.pixelShape rowStep).1) (-(cx : K)) ∧
       near (fun v => v.x / (g.det.pixelShape rowStep).1) ((w : K) - cx) ∧
       near (fun v => v.y / (g.det.pixelShape rowStep).2) (-(cy : K)) ∧
       near (fun v => v.y / (g.det.pixelShape rowStep).2) ((h : K) - cy)) := by
  obtain ⟨px1, px2⟩ := pixelShape_pos g.det rowStep hrow
  have hmem : ∀ v, v ∈ g.modules.flatten.flatMap Frag.corners ↔ ∃ m ∈ g.modules, ∃ f ∈ m, v ∈ f.corners := by
    intro v
    simp only [List.mem_flatMap, List.mem_flatten]
    constructor
    · rintro ⟨f, ⟨m, hm, hf⟩, hv⟩; exact ⟨m, hm, f, hf, hv⟩
    · rintro ⟨m, hm, f, hf, hv⟩; exact ⟨f, ⟨m, hm, hf⟩, hv⟩
  cases hl : g.modules.flatten.flatMap Frag.corners with
  | nil =>
    exfalso
    obtain ⟨m, hm, f, hf⟩ := hne
    have := (hmem (Spec.point f 0 0)).2 ⟨m, hm, f, hf, (corners_eq f _).2 (Or.inl rfl)⟩
    rw [hl] at this
    simp at this
  | cons c cs =>
    rw [hl] at hmem
    unfold Geom.dimensions
    rw [hl]
    simp only
    generalize hpx : g.det.pixelShape rowStep = px at px1 px2
    have lo : ∀ φ : Vec K → K, ∀ v ∈ c :: cs, listMin (φ c) (cs.map φ) ≤ φ v := by
      intro φ v hv
      rcases List.mem_cons.1 hv with rfl | hv
      · exact (listMin_le _ _).1
      · exact (listMin_le _ _).2 _ (List.mem_map_of_mem hv)
    have hi : ∀ φ : Vec K → K, ∀ v ∈ c :: cs, φ v ≤ listMax (φ c) (cs.map φ) := by
      intro φ v hv
      rcases List.mem_cons.1 hv with rfl | hv
      · exact (le_listMax _ _).1
      · exact (le_listMax _ _).2 _ (List.mem_map_of_mem hv)
    have memlo : ∀ φ : Vec K → K, ∃ v ∈ c :: cs, φ v = listMin (φ c) (cs.map φ) := by
      intro φ
      rcases List.mem_cons.1 (listMin_mem (φ c) (cs.map φ)) with h | h
      · exact ⟨c, List.mem_cons_self, h.symm⟩
      · obtain ⟨v, hv, e⟩ := List.mem_map.1 h
        exact ⟨v, List.mem_cons_of_mem _ hv, e⟩
    have memhi : ∀ φ : Vec K → K, ∃ v ∈ c :: cs, φ v = listMax (φ c) (cs.map φ) := by
      intro φ
      rcases List.mem_cons.1 (listMax_mem (φ c) (cs.map φ)) with h | h
      · exact ⟨c, List.mem_cons_self, h.symm⟩
      · obtain ⟨v, hv, e⟩ := List.mem_map.1 h
        exact ⟨v, List.mem_cons_of_mem _ hv, e⟩
    refine ⟨_, _, _, _, rfl, ?_, ?_⟩
    · intro m hm f hf s t s0 s1 t0 t1
      have inb : ∀ (φ : Vec K → K) (a b k : K), (∀ s t : K, φ (Spec.point f s t) = k + s * a + t * b) →
          listMin (φ c) (cs.map φ) ≤ φ (Spec.point f s t) ∧ φ (Spec.point f s t) ≤ listMax (φ c) (cs.map φ) := by
        intro φ a b k hφ
        have q : ∀ s t : K, Spec.point f s t ∈ f.corners → listMin (φ c) (cs.map φ) ≤ k + s * a + t * b ∧
            k + s * a + t * b ≤ listMax (φ c) (cs.map φ) := by
          intro s t hv
          have := (hmem _).2 ⟨m, hm, f, hf, hv⟩
          have l := lo φ _ this
          have u := hi φ _ this
          rw [hφ] at l u
          exact ⟨l, u⟩
        rw [hφ]
        have q1 := q 0 0 ((corners_eq f _).2 (Or.inl rfl))
        have q2 := q 0 f.fsPixels ((corners_eq f _).2 (Or.inr (Or.inl rfl)))
        have q3 := q f.ssPixels f.fsPixels ((corners_eq f _).2 (Or.inr (Or.inr (Or.inl rfl))))
        have q4 := q f.ssPixels 0 ((corners_eq f _).2 (Or.inr (Or.inr (Or.inr rfl))))
        simp only [zero_mul, add_zero] at q1 q2 q4
        exact between_corners ⟨s0, s1⟩ ⟨t0, t1⟩ k q1 q2 q3 q4
      obtain ⟨x1, x2⟩ := inb (fun v => v.x / px.1) (f.ss.x / px.1) (f.fs.x / px.1) (f.corner.x / px.1)
        (by intro s t; simp only [Spec.point]; ring)
      obtain ⟨y1, y2⟩ := inb (fun v => v.y / px.2) (f.ss.y / px.2) (f.fs.y / px.2) (f.corner.y / px.2)
        (by intro s t; simp only [Spec.point]; ring)
      obtain ⟨b1, -⟩ := truncate_bounds (listMin (c.x / px.1) (cs.map (fun v => v.x / px.1)))
      obtain ⟨-, b2, -⟩ := truncate_bounds (listMax (c.x / px.1) (cs.map (fun v => v.x / px.1)))
      obtain ⟨b3, -⟩ := truncate_bounds (listMin (c.y / px.2) (cs.map (fun v => v.y / px.2)))
      obtain ⟨-, b4, -⟩ := truncate_bounds (listMax (c.y / px.2) (cs.map (fun v => v.y / px.2)))
      push_cast
      refine ⟨by linarith, by linarith, by linarith, by linarith⟩
    · have nearlo : ∀ φ : Vec K → K, ∃ m ∈ g.modules, ∃ f ∈ m, ∃ v ∈ f.corners,
          |φ v - (((truncate (listMin (φ c) (cs.map φ)) : Int) : K) - 1)| < 2 := by
        intro φ
        obtain ⟨v, hv, e⟩ := memlo φ
        obtain ⟨m, hm, f, hf, hv'⟩ := (hmem v).1 hv
        refine ⟨m, hm, f, hf, v, hv', ?_⟩
        rw [e]
        obtain ⟨b1, b2, -⟩ := truncate_bounds (listMin (φ c) (cs.map φ))
        rw [abs_lt]
        constructor <;> linarith
      have nearhi : ∀ φ : Vec K → K, ∃ m ∈ g.modules, ∃ f ∈ m, ∃ v ∈ f.corners,
          |φ v - (((truncate (listMax (φ c) (cs.map φ)) : Int) : K) + 1)| < 2 := by
        intro φ
        obtain ⟨v, hv, e⟩ := memhi φ
        obtain ⟨m, hm, f, hf, hv'⟩ := (hmem v).1 hv
        refine ⟨m, hm, f, hf, v, hv', ?_⟩
        rw [e]
        obtain ⟨b1, b2, -⟩ := truncate_bounds (listMax (φ c) (cs.map φ))
        rw [abs_lt]
        constructor <;> linarith
      push_cast
      refine ⟨?_, ?_, ?_, ?_⟩
      · rw [neg_neg]; exact nearlo (fun v => v.x / px.1)
      · have := nearhi (fun v => v.x / px.1)
        rw [show ∀ a b : K, a - b - -b = a from fun a b => by ring]
        exact this
      · rw [neg_neg]; exact nearlo (fun v => v.y / px.2)
      · have := nearhi (fun v => v.y / px.2)
        rw [show ∀ a b : K, a - b - -b = a from fun a b => by ring]
        exact this

/-- C90: ValueError without any tile. -/
theorem box_no_tiles (g : Geom K) (rowStep : K) (h : ∀ m ∈ g.modules, m = []) : g.dimensions rowStep = .error .value := by
  have : g.modules.flatten = [] := by simpa [List.flatten_eq_nil_iff] using h
  unfold Geom.dimensions
  rw [this]
  rfl

/-- Where a cell of the output shows tile data: at row s and column t of the tile whose point is at the cell. -/
def Spec.ShowsAt (f : Frag K) (px : K × K) (centre : Int × Int) (y x s t : K) : Prop :=
  (Spec.point f s t).x / px.1 + centre.2 = x ∧ (Spec.point f s t).y / px.2 + centre.1 = y

/-- C91 is false: for a tile lying along the axes with the size which pixels of AGIPD have, and less than a million pixels away
from the centre, at no cell from (1, 1) on is anything of the data of the tile shown (the place looked up is outside the tile), though the
tile is there. -/
theorem interpolate_wrong (f : Frag K) (rowStep : K) (hn : f.ssPixels = 64 ∧ f.fsPixels = 128)
    (hf : Spec.Exact (Det.agipd.pixelShape rowStep) f) (cy cx : Int) (hy : |f.corner.y + (cy : K)| < 1000000) (hx : |f.corner.x + (cx : K)| < 1000000)
    (y x : K) (h1 : 1 ≤ y) (h2 : 1 ≤ x) :
    ∃ s t, f.interpolates (cy, cx) y x = some (s, t) ∧ ¬ (0 ≤ s ∧ s ≤ f.ssPixels) ∧ ¬ (0 ≤ t ∧ t ≤ f.fsPixels) := by
  obtain ⟨ss, fs, ⟨u1, u2, u3⟩, e1, e2, e3, e4⟩ := hf
  rw [hn.1, hn.2]
  simp only [Det.pixelShape, Det.pixelSize] at e1 e2 e3 e4
  rw [abs_lt] at hy hx
  have big : ∀ d e z w : K, (d = 1 ∨ d = -1) → (e = 1 ∨ e = -1) → 1 ≤ z → -1000000 < w → w < 1000000 →
      (z * 5000 * d + 1 / 5000 * w * e ≤ -4000 ∨ 4000 ≤ z * 5000 * d + 1 / 5000 * w * e) := by
    intro d e z w hd he hz hw1 hw2
    rcases hd with rfl | rfl <;> rcases he with rfl | rfl
    · right; linarith
    · right; linarith
    · left; linarith
    · left; linarith
  have out : ∀ {r : K} {n : K}, n ≤ 128 → (r ≤ -4000 ∨ 4000 ≤ r) → ¬ (0 ≤ r ∧ r ≤ n) := by
    rintro r n hn (h | h) ⟨h3, h4⟩ <;> linarith
  have n1 : ((64 : Int) : K) ≤ 128 := by norm_num
  have n2 : ((128 : Int) : K) ≤ 128 := by norm_num
  have pm : (1 : K) = 1 ∨ (1 : K) = -1 := Or.inl rfl
  have mm : (-1 : K) = 1 ∨ (-1 : K) = -1 := Or.inr rfl
  unfold Frag.interpolates
  rcases u1 with rfl | rfl | rfl | rfl <;> rcases u2 with rfl | rfl | rfl | rfl <;>
    first
    | exact absurd u3 (by decide)
    | (rw [e1, e2, e3, e4]
       simp only [Int.cast_zero, Int.cast_one, Int.cast_neg, zero_mul, one_mul, neg_mul]
       rw [if_neg (by norm_num)]
       refine ⟨_, _, rfl, out n1 ?_, out n2 ?_⟩)
  · have := big 1 1 x (f.corner.x + cx) pm pm h2 hx.1 hx.2
    convert this using 1 <;> ring_nf
  · have := big 1 1 y (f.corner.y + cy) pm pm h1 hy.1 hy.2
    convert this using 1 <;> ring_nf
  · have := big 1 (-1) x (f.corner.x + cx) pm mm h2 hx.1 hx.2
    convert this using 1 <;> ring_nf
  · have := big (-1) 1 y (f.corner.y + cy) mm pm h1 hy.1 hy.2
    convert this using 1 <;> ring_nf
  · have := big (-1) 1 x (f.corner.x + cx) mm pm h2 hx.1 hx.2
    convert this using 1 <;> ring_nf
  · have := big 1 (-1) y (f.corner.y + cy) pm mm h1 hy.1 hy.2
    convert this using 1 <;> ring_nf
  · have := big (-1) (-1) x (f.corner.x + cx) mm mm h2 hx.1 hx.2
    convert this using 1 <;> ring_nf
  · have := big (-1) (-1) y (f.corner.y + cy) mm mm h1 hy.1 hy.2
    convert this using 1 <;> ring_nf
  · have := big 1 1 y (f.corner.y + cy) pm pm h1 hy.1 hy.2
    convert this using 1 <;> ring_nf
  · have := big 1 1 x (f.corner.x + cx) pm pm h2 hx.1 hx.2
    convert this using 1 <;> ring_nf
  · have := big 1 1 y (f.corner.y + cy) pm pm h1 hy.1 hy.2
    convert this using 1 <;> ring_nf
  · have := big (-1) (-1) x (f.corner.x + cx) mm mm h2 hx.1 hx.2
    convert this using 1 <;> ring_nf
  · have := big (-1) (-1) y (f.corner.y + cy) mm mm h1 hy.1 hy.2
    convert this using 1 <;> ring_nf
  · have := big 1 1 x (f.corner.x + cx) pm pm h2 hx.1 hx.2
    convert this using 1 <;> ring_nf
  · have := big (-1) (-1) y (f.corner.y + cy) mm mm h1 hy.1 hy.2
    convert this using 1 <;> ring_nf
  · have := big (-1) (-1) x (f.corner.x + cx) mm mm h2 hx.1 hx.2
    convert this using 1 <;> ring_nf

/-- C91 is false: no point of such a tile (seen at the cell (y, x)) is the one which is looked up for the cell. -/
theorem interpolate_place_wrong (f : Frag K) (rowStep : K) (hn : f.ssPixels = 64 ∧ f.fsPixels = 128)
    (hf : Spec.Exact (Det.agipd.pixelShape rowStep) f) (cy cx : Int) (hy : |f.corner.y + (cy : K)| < 1000000) (hx : |f.corner.x + (cx : K)| < 1000000)
    (y x s t : K) (h1 : 1 ≤ y) (h2 : 1 ≤ x) (_hat : Spec.ShowsAt f (Det.agipd.pixelShape rowStep) (cy, cx) y x s t)
    (hs : 0 ≤ s ∧ s ≤ f.ssPixels) : f.interpolates (cy, cx) y x ≠ some (s, t) := by
  intro hc
  obtain ⟨s', t', e, h3, -⟩ := interpolate_wrong f rowStep hn hf cy cx hy hx y x h1 h2
  rw [hc, Option.some.injEq, Prod.mk.injEq] at e
  rw [← e.1] at h3
  exact h3 hs

/-- C91: what is right is the direction: i rows and j columns of a tile further (as vectors in metres, though cells are pixels), the
place looked up is i rows and j columns further. Missing: the place itself. -/
theorem interpolate_steps_partial (f : Frag K) (c : Int × Int) (y x i j : K) (h : f.ss.y * f.fs.x - f.fs.y * f.ss.x ≠ 0) :
    ∃ s t, f.interpolates c y x = some (s, t) ∧
      f.interpolates c (y + i * f.ss.y + j * f.fs.y) (x + i * f.ss.x + j * f.fs.x) = some (s + i, t + j) := by
  unfold Frag.interpolates
  rw [if_neg h, if_neg h]
  refine ⟨_, _, rfl, ?_⟩
  simp only [Option.some.injEq, Prod.mk.injEq]
  have e : ∀ a k : K, (a + k * (f.ss.y * f.fs.x - f.fs.y * f.ss.x)) / (f.ss.y * f.fs.x - f.fs.y * f.ss.x) =
      a / (f.ss.y * f.fs.x - f.fs.y * f.ss.x) + k := by
    intro a k
    rw [add_div, mul_div_cancel_right₀ _ h]
  constructor
  · rw [show f.fs.x * (y + i * f.ss.y + j * f.fs.y) - f.fs.y * (x + i * f.ss.x + j * f.fs.x) =
      (f.fs.x * y - f.fs.y * x) + i * (f.ss.y * f.fs.x - f.fs.y * f.ss.x) by ring, e]
    ring
  · rw [show -f.ss.x * (y + i * f.ss.y + j * f.fs.y) + f.ss.y * (x + i * f.ss.x + j * f.fs.x) =
      (-f.ss.x * y + f.ss.y * x) + j * (f.ss.y * f.fs.x - f.fs.y * f.ss.x) by ring, e]
    ring

/-- C91: LinAlgError when the two directions of a tile are the same. -/
theorem interpolate_singular (f : Frag K) (c : Int × Int) (y x : K) (h : f.ss.y * f.fs.x = f.fs.y * f.ss.x) :
    f.interpolates c y x = none := by
  unfold Frag.interpolates
  rw [if_pos (by rw [h, sub_self])]

/-- A tile of an AGIPD geometry made from positions in pixels meets the conditions. -/
example : let f : Frag ℚ := agipdTile (1 / 5000) 2 29 (-525, 625) 0 0
    (f.ssPixels = 64 ∧ f.fsPixels = 128) ∧ Spec.Exact (Det.agipd.pixelShape 1) f ∧ |f.corner.y + ((700 : Int) : ℚ)| < 1000000 ∧
      |f.corner.x + ((700 : Int) : ℚ)| < 1000000 ∧ f.ss.y * f.fs.x - f.fs.y * f.ss.x ≠ 0 ∧
      Spec.ShowsAt f (Det.agipd.pixelShape 1) (700, 700) 1322 180 5 3 := by
  refine ⟨⟨rfl, rfl⟩, ⟨(0, 1), (-1, 0), ?_, ?_⟩, ?_, ?_, ?_, ?_⟩
  · simp [Spec.AxisAligned, Spec.UnitStep]
  · norm_num [agipdTile, Det.pixelShape, Det.pixelSize]
  · norm_num [agipdTile, Det.pixelSize, abs_lt]
  · norm_num [agipdTile, Det.pixelSize, abs_lt]
  · norm_num [agipdTile]
  · norm_num [agipdTile, Spec.ShowsAt, Spec.point, Det.pixelShape, Det.pixelSize]

example : ∃ m ∈ (⟨.agipd, [[agipdTile (1 / 5000) 2 29 (-525, 625) 0 0]]⟩ : Geom ℚ).modules, ∃ f, f ∈ m := by simp

end KD.Geo
