/-
C75, C81: tiles which do not overlap do not overlap in the assembled image.
-/
import Verif.Props.Assemble
import Mathlib.Tactic.Linarith
import Mathlib.Tactic.FieldSimp

set_option linter.unusedSimpArgs false
set_option linter.unusedSectionVars false

namespace KD.Geo

variable {V : Type} {K : Type} [Field K] [LinearOrder K] [IsStrictOrderedRing K] [FloorRing K]

theorem around_add_even (x : K) (n : Int) (hn : n % 2 = 0) : around (x + n) = around x + n := by
  apply nearest_unique (around_nearest _)
  obtain ⟨h1, h2⟩ := around_nearest x
  have e : x + n - ((around x + n : Int) : K) = x - (around x : K) := by push_cast; ring
  refine ⟨by rw [e]; exact h1, ?_⟩
  rw [e]
  intro h
  have := h2 h
  omega

theorem around_mono {x y : K} (h : x ≤ y) : around x ≤ around y := by
  by_contra hc
  obtain ⟨h1, h2⟩ := around_nearest x
  obtain ⟨h3, h4⟩ := around_nearest y
  have hk : ((around y + 1 : Int) : K) ≤ (around x : K) := by exact_mod_cast (by omega : around y + 1 ≤ around x)
  push_cast at hk
  have a1 := abs_le.1 h1
  have a3 := abs_le.1 h3
  have e1 : x - (around x : K) = -(1 / 2) := by linarith [a1.1, a3.2]
  have e2 : y - (around y : K) = 1 / 2 := by linarith [a1.1, a3.2]
  have e3 : (around x : K) = (around y : K) + 1 := by linarith
  have e3' : around x = around y + 1 := by exact_mod_cast e3
  have b1 := h2 (by rw [e1]; norm_num [abs_of_nonneg])
  have b2 := h4 (by rw [e2]; norm_num [abs_of_nonneg])
  omega

/-- Where the snapped tile is: in cells from the nearest integers to its edges. -/
theorem exact_box {px : K × K} (hp1 : 0 < px.1) (hp2 : 0 < px.2) {f : Frag K} (he : Spec.Exact px f)
    (hs : 0 < f.ssPixels ∧ f.ssPixels % 2 = 0) (hf : 0 < f.fsPixels ∧ f.fsPixels % 2 = 0) :
    ∃ (X Y : K) (w h : Int) (c ss fs : Int × Int), Spec.Snaps px f c ss fs ∧ 0 < w ∧ 0 < h ∧ w % 2 = 0 ∧ h % 2 = 0 ∧
      (∀ x y, X < x / px.1 → x / px.1 < X + w → Y < y / px.2 → y / px.2 < Y + h → Spec.Inside f x y) ∧
      (∀ i j : Nat, (i : Int) < f.ssPixels → (j : Int) < f.fsPixels →
        around Y ≤ (Spec.cell c ss fs i j).1 ∧ (Spec.cell c ss fs i j).1 < around Y + h ∧
        around X ≤ (Spec.cell c ss fs i j).2 ∧ (Spec.cell c ss fs i j).2 < around X + w) := by
  obtain ⟨⟨s1, s2⟩, ⟨f1, f2⟩, ha, e1, e2, e3, e4⟩ := he
  simp only at e1 e2 e3 e4
  have hsn : Spec.Snaps px f (around (f.corner.y / px.2), around (f.corner.x / px.1)) (s1, s2) (f1, f2) := by
    have hz : ∀ n : Int, Spec.Nearest ((n : K)) n := by
      intro n
      unfold Spec.Nearest
      simp
    refine ⟨around_nearest _, around_nearest _, ?_, ?_, ?_, ?_, ha⟩
    · simp only; rw [e2, mul_div_assoc, div_self hp2.ne', mul_one]; exact hz s1
    · simp only; rw [e1, mul_div_assoc, div_self hp1.ne', mul_one]; exact hz s2
    · simp only; rw [e4, mul_div_assoc, div_self hp2.ne', mul_one]; exact hz f1
    · simp only; rw [e3, mul_div_assoc, div_self hp1.ne', mul_one]; exact hz f2
  -- one dimension: n pixels in direction d from the corner c
  have oned : ∀ (c p x : K) (n : Int) (d : Int), 0 < p → (d = 1 ∨ d = -1) →
      (c / p + ((min d 0 * n : Int) : K) < x / p) → (x / p < c / p + ((min d 0 * n : Int) : K) + n) →
      ∃ s : K, 0 < s ∧ s < n ∧ x = c + s * (d * p) := by
    intro c p x n d hp hd h1 h2
    rcases hd with rfl | rfl
    · refine ⟨x / p - c / p, ?_, ?_, ?_⟩
      · have : (min (1 : Int) 0 * n) = 0 := by simp
        rw [this] at h1; push_cast at h1; linarith
      · have : (min (1 : Int) 0 * n) = 0 := by simp
        rw [this] at h2; push_cast at h2; linarith
      · field_simp; push_cast; ring
    · refine ⟨c / p - x / p, ?_, ?_, ?_⟩
      · have : (min (-1 : Int) 0 * n) = -n := by simp
        rw [this] at h2; push_cast at h2; linarith
      · have : (min (-1 : Int) 0 * n) = -n := by simp
        rw [this] at h1; push_cast at h1; linarith
      · field_simp; push_cast; ring
  have hround : ∀ (c p : K) (n : Int) (d : Int), n % 2 = 0 → (d = 1 ∨ d = -1) →
      around (c / p + ((min d 0 * n : Int) : K)) = around (c / p) + min d 0 * n := by
    intro c p n d hn hd
    apply around_add_even
    rcases hd with rfl | rfl
    · simp
    · simp; omega
  have m1 : min (1 : Int) 0 = 0 := by decide
  have m2 : min (-1 : Int) 0 = -1 := by decide
  obtain ⟨hu1, hu2, hu3⟩ := ha
  simp only [Spec.UnitStep, Prod.mk.injEq] at hu1 hu2 hu3
  by_cases h0 : f1 = 0
  · -- fast scan along x
    have k1 : s1 = 1 ∨ s1 = -1 := by omega
    have k2 : f2 = 1 ∨ f2 = -1 := by omega
    have k3 : s2 = 0 := by omega
    subst h0 k3
    refine ⟨f.corner.x / px.1 + ((min f2 0 * f.fsPixels : Int) : K), f.corner.y / px.2 + ((min s1 0 * f.ssPixels : Int) : K),
      f.fsPixels, f.ssPixels, _, _, _, hsn, hf.1, hs.1, hf.2, hs.2, ?_, ?_⟩
    · intro x y a1 a2 a3 a4
      obtain ⟨t, t1, t2, t3⟩ := oned f.corner.x px.1 x f.fsPixels f2 hp1 k2 a1 a2
      obtain ⟨s, q1, q2, q3⟩ := oned f.corner.y px.2 y f.ssPixels s1 hp2 k1 a3 a4
      refine ⟨s, t, q1, q2, t1, t2, ?_, ?_⟩
      · simp only [Spec.point, e1, e3]; push_cast; rw [t3]; ring
      · simp only [Spec.point, e2, e4]; push_cast; rw [q3]; ring
    · intro i j hi hj
      rw [hround _ _ _ _ hs.2 k1, hround _ _ _ _ hf.2 k2]
      simp only [Spec.cell, Spec.vertex]
      rcases k1 with rfl | rfl <;> rcases k2 with rfl | rfl <;> simp only [m1, m2, zero_mul] <;> omega
  · have k1 : s2 = 1 ∨ s2 = -1 := by omega
    have k2 : f1 = 1 ∨ f1 = -1 := by omega
    have k3 : s1 = 0 := by omega
    have k4 : f2 = 0 := by omega
    subst k3 k4
    refine ⟨f.corner.x / px.1 + ((min s2 0 * f.ssPixels : Int) : K), f.corner.y / px.2 + ((min f1 0 * f.fsPixels : Int) : K),
      f.ssPixels, f.fsPixels, _, _, _, hsn, hs.1, hf.1, hs.2, hf.2, ?_, ?_⟩
    · intro x y a1 a2 a3 a4
      obtain ⟨s, t1, t2, t3⟩ := oned f.corner.x px.1 x f.ssPixels s2 hp1 k1 a1 a2
      obtain ⟨t, q1, q2, q3⟩ := oned f.corner.y px.2 y f.fsPixels f1 hp2 k2 a3 a4
      refine ⟨s, t, t1, t2, q1, q2, ?_, ?_⟩
      · simp only [Spec.point, e1, e3]; push_cast; rw [t3]; ring
      · simp only [Spec.point, e2, e4]; push_cast; rw [q3]; ring
    · intro i j hi hj
      rw [hround _ _ _ _ hs.2 k1, hround _ _ _ _ hf.2 k2]
      simp only [Spec.cell, Spec.vertex]
      rcases k1 with rfl | rfl <;> rcases k2 with rfl | rfl <;> simp only [m1, m2, zero_mul] <;> omega

/-- Two intervals of which the rounded ones meet have a common point. -/
theorem meet_of_around {a b : K} {m n : Int} (hm : 0 < m) (hn : 0 < n) (hm2 : m % 2 = 0) (hn2 : n % 2 = 0) {k : Int}
    (h1 : around a ≤ k) (h2 : k < around a + m) (h3 : around b ≤ k) (h4 : k < around b + n) :
    ∃ x : K, a < x ∧ x < a + m ∧ b < x ∧ x < b + n := by
  have hab : a < b + n := by
    by_contra hc
    have := around_mono (not_lt.1 hc)
    rw [around_add_even b n hn2] at this
    omega
  have hba : b < a + m := by
    by_contra hc
    have := around_mono (not_lt.1 hc)
    rw [around_add_even a m hm2] at this
    omega
  have hmK : (0 : K) < m := by exact_mod_cast hm
  have hnK : (0 : K) < n := by exact_mod_cast hn
  refine ⟨(max a b + min (a + m) (b + n)) / 2, ?_⟩
  have hlt : max a b < min (a + m) (b + n) := by
    rw [max_lt_iff, lt_min_iff, lt_min_iff]
    exact ⟨⟨by linarith, hab⟩, hba, by linarith⟩
  have l1 := le_max_left a b
  have l2 := le_max_right a b
  have l3 := min_le_left (a + m) (b + n)
  have l4 := min_le_right (a + m) (b + n)
  refine ⟨by linarith, by linarith, by linarith, by linarith⟩

/-- C75: if no two tiles of a geometry overlap, and the steps of the tiles are exactly along the axes, no two pixels are put on
the same cell, although the positions of tiles are rounded. (The numbers of pixels of all tiles are even, so that neighbours
are rounded alike.) -/
theorem no_overlap {g : Geom K} {px : K × K} (hp1 : 0 < px.1) (hp2 : 0 < px.2) (hS : Spec.RightSize g)
    (he : ∀ m ∈ g.modules, ∀ f ∈ m, Spec.Exact px f)
    (ha : ∀ m t f m' t' f', Spec.IsTile g m t f → Spec.IsTile g m' t' f' → (m, t) ≠ (m', t') → Spec.Apart f f') :
    Spec.NoOverlap g px := by
  have hpos : 0 < (Spec.tileShape g.det).1 ∧ 0 < (Spec.tileShape g.det).2 ∧ (Spec.tileShape g.det).1 % 2 = 0 ∧
      (Spec.tileShape g.det).2 % 2 = 0 := by
    cases g.det <;> decide
  intro m i j m' i' j' yx hc hc'
  obtain ⟨hi, hj, f, c, ss, fs, hf, hsn, hti, htj, hcell⟩ := hc
  obtain ⟨hi', hj', f', c', ss', fs', hf', hsn', hti', htj', hcell'⟩ := hc'
  by_cases hsame : (m, Spec.tileOf g.det i j) = (m', Spec.tileOf g.det i' j')
  · simp only [Prod.mk.injEq] at hsame
    obtain ⟨rfl, htt⟩ := hsame
    obtain ⟨mod, b1, b2⟩ := hf
    obtain ⟨mod', b3, b4⟩ := hf'
    rw [b1] at b3
    obtain rfl := Option.some.inj b3
    rw [← htt, b2] at b4
    obtain rfl := Option.some.inj b4
    obtain ⟨rfl, rfl, rfl⟩ := snaps_unique hsn hsn'
    obtain ⟨d1, d2⟩ := cell_injective hsn.2.2.2.2.2.2 (hcell.symm.trans hcell')
    obtain ⟨o1, o2⟩ := tile_origin g.det hi hj
    obtain ⟨o3, o4⟩ := tile_origin g.det hi' hj'
    rw [← htt] at o3 o4
    exact ⟨rfl, by omega, by omega⟩
  · exfalso
    apply ha m _ f m' _ f' hf hf' hsame
    have size : ∀ {m t f}, Spec.IsTile g m t f → f ∈ g.modules.flatten ∧ Spec.Exact px f ∧ f.ssPixels = (Spec.tileShape g.det).1 ∧
        f.fsPixels = (Spec.tileShape g.det).2 := by
      rintro m t f ⟨mod, b1, b2⟩
      have := hS mod (List.mem_of_getElem? b1) f (List.mem_of_getElem? b2)
      exact ⟨List.mem_flatten.2 ⟨mod, List.mem_of_getElem? b1, List.mem_of_getElem? b2⟩,
        he mod (List.mem_of_getElem? b1) f (List.mem_of_getElem? b2), this.1, this.2⟩
    obtain ⟨-, x1, x2, x3⟩ := size hf
    obtain ⟨-, y1, y2, y3⟩ := size hf'
    obtain ⟨X, Y, w, h, k, k1, k2, r1, r2, r3, r4, r5, r6, r7⟩ := exact_box hp1 hp2 x1 ⟨by omega, by omega⟩ ⟨by omega, by omega⟩
    obtain ⟨X', Y', w', h', k', k1', k2', r1', r2', r3', r4', r5', r6', r7'⟩ :=
      exact_box hp1 hp2 y1 ⟨by omega, by omega⟩ ⟨by omega, by omega⟩
    obtain ⟨rfl, rfl, rfl⟩ := snaps_unique hsn r1
    obtain ⟨rfl, rfl, rfl⟩ := snaps_unique hsn' r1'
    obtain ⟨a1, a2, a3, a4⟩ := r7 (Spec.inTile g.det i j).1 (Spec.inTile g.det i j).2 (by omega) (by omega)
    obtain ⟨b1, b2, b3, b4⟩ := r7' (Spec.inTile g.det i' j').1 (Spec.inTile g.det i' j').2 (by omega) (by omega)
    rw [← hcell] at a1 a2 a3 a4
    rw [← hcell'] at b1 b2 b3 b4
    obtain ⟨y, u1, u2, u3, u4⟩ := meet_of_around r3 r3' r5 r5' a1 a2 b1 b2
    obtain ⟨x, v1, v2, v3, v4⟩ := meet_of_around r2 r2' r4 r4' a3 a4 b3 b4
    refine ⟨x * px.1, y * px.2, r6 _ _ ?_ ?_ ?_ ?_, r6' _ _ ?_ ?_ ?_ ?_⟩ <;>
      rw [mul_div_assoc, div_self (by positivity), mul_one] <;> assumption

end KD.Geo
