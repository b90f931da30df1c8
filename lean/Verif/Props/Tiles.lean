/-
C70 tiles partition a module; C71 splitting agrees with the regions; C72 data coordinates map to the right tile;
C82 the old and new LPD code split modules alike.
-/
import Verif.Lemmas.Geometry
import Mathlib.Data.Rat.Floor

set_option linter.unusedSimpArgs false
set_option linter.unusedSectionVars false

namespace KD.Geo

variable {V : Type} {K : Type} [Field K] [LinearOrder K] [IsStrictOrderedRing K] [FloorRing K]

/-- The constants of the classes are those of the detectors. -/
theorem shapes_agree (d : Det) :
    d.dataShape = Spec.shape d ∧ d.nModules = (Spec.shape d).1 ∧ d.nTiles = Spec.tiles d ∧
      d.ssPixels = (Spec.tileShape d).1 ∧ d.fsPixels = (Spec.tileShape d).2 := by
  cases d <;> exact ⟨rfl, rfl, rfl, rfl, rfl⟩

/-- C70: a pixel of a module is in the region of the tile it belongs to, at its place in the tile, and in no other. -/
theorem tile_region (d : Det) {i j : Nat} (hi : i < (Spec.shape d).2.1) (hj : j < (Spec.shape d).2.2) {t : Nat}
    (ht : t < Spec.tiles d) :
    Spec.InRegion (d.tileSlice t) i j ↔ t = Spec.tileOf d i j := by
  cases d
  · simp only [Spec.shape, Spec.tiles, Spec.tileOf, Spec.InRegion, Det.tileSlice, Det.ssPixels, Det.fsPixels] at *
    omega
  · simp only [Spec.shape, Spec.tiles, Spec.tileOf, Spec.InRegion, Det.tileSlice, Det.ssPixels, Det.fsPixels] at *
    split <;> split <;> simp only <;> omega
  · simp only [Spec.shape, Spec.tiles, Spec.tileOf, Spec.InRegion, Det.tileSlice, Det.ssPixels, Det.fsPixels] at *
    omega

/-- The tile of a pixel exists. -/
theorem tileOf_lt (d : Det) {i j : Nat} (hi : i < (Spec.shape d).2.1) (hj : j < (Spec.shape d).2.2) :
    Spec.tileOf d i j < Spec.tiles d := by
  cases d <;> simp only [Spec.shape, Spec.tiles, Spec.tileOf] at *
  · omega
  · split <;> omega
  · omega

/-- C70: every pixel of a module is in the region of exactly one tile. -/
theorem tiles_partition (d : Det) {i j : Nat} (hi : i < (Spec.shape d).2.1) (hj : j < (Spec.shape d).2.2) :
    ∃! t, t < Spec.tiles d ∧ Spec.InRegion (d.tileSlice t) i j := by
  refine ⟨Spec.tileOf d i j, ⟨tileOf_lt d hi hj, (tile_region d hi hj (tileOf_lt d hi hj)).2 rfl⟩, ?_⟩
  intro t ⟨h1, h2⟩
  exact (tile_region d hi hj h1).1 h2

/-- C70: the region of every tile is inside the module, and has the shape of a tile. -/
theorem tile_inside (d : Det) {t : Nat} (ht : t < Spec.tiles d) :
    (∀ i j, Spec.InRegion (d.tileSlice t) i j → i < (Spec.shape d).2.1 ∧ j < (Spec.shape d).2.2) ∧
      (d.tileSlice t).y1 = (d.tileSlice t).y0 + (Spec.tileShape d).1 ∧
      (d.tileSlice t).x1 = (d.tileSlice t).x0 + (Spec.tileShape d).2 ∧
      (d.tileSlice t).y1 ≤ (Spec.shape d).2.1 ∧ (d.tileSlice t).x1 ≤ (Spec.shape d).2.2 := by
  cases d
  · simp only [Spec.shape, Spec.tiles, Spec.tileShape, Spec.InRegion, Det.tileSlice, Det.ssPixels, Det.fsPixels] at *
    refine ⟨fun i j h => by omega, trivial, trivial, by omega, by omega⟩
  · simp only [Spec.shape, Spec.tiles, Spec.tileShape, Spec.InRegion, Det.tileSlice, Det.ssPixels, Det.fsPixels] at *
    split
    · refine ⟨fun i j h => ?_, rfl, rfl, ?_, ?_⟩ <;> simp only at * <;> omega
    · refine ⟨fun i j h => ?_, rfl, rfl, ?_, ?_⟩ <;> simp only at * <;> omega
  · simp only [Spec.shape, Spec.tiles, Spec.tileShape, Spec.InRegion, Det.tileSlice, Det.ssPixels, Det.fsPixels] at *
    refine ⟨fun i j h => by omega, trivial, trivial, by omega, by omega⟩

/-- The regions start where the place in the tile is counted from. -/
theorem tile_origin (d : Det) {i j : Nat} (hi : i < (Spec.shape d).2.1) (hj : j < (Spec.shape d).2.2) :
    i = (d.tileSlice (Spec.tileOf d i j)).y0 + (Spec.inTile d i j).1 ∧
      j = (d.tileSlice (Spec.tileOf d i j)).x0 + (Spec.inTile d i j).2 := by
  cases d
  · simp only [Spec.shape, Spec.tileOf, Spec.inTile, Spec.tileShape, Det.tileSlice, Det.ssPixels, Det.fsPixels] at *
    omega
  · simp only [Spec.shape, Spec.tileOf, Spec.inTile, Spec.tileShape, Det.tileSlice, Det.ssPixels, Det.fsPixels] at *
    split <;> split <;> simp only <;> omega
  · simp only [Spec.shape, Spec.tileOf, Spec.inTile, Spec.tileShape, Det.tileSlice, Det.ssPixels, Det.fsPixels] at *
    omega

example : Spec.tileOf .lpd 40 7 = 6 ∧ Spec.InRegion (Det.lpd.tileSlice 6) 40 7 ∧ Spec.inTile .lpd 40 7 = (8, 7) := by
  refine ⟨by decide, ?_, by decide⟩
  unfold Spec.InRegion
  decide

/-! ### Splitting -/

theorem splitRows_ok {p : Plane V} {n : Nat} (h : p.h % n = 0) :
    p.splitRows n = .ok ((List.range n).map (fun k => (⟨p.h / n, p.w, fun i j => p.get (k * (p.h / n) + i) j⟩ : Plane V))) := by
  unfold Plane.splitRows
  rw [if_pos h]

theorem splitCols_ok {p : Plane V} {n : Nat} (h : p.w % n = 0) :
    p.splitCols n = .ok ((List.range n).map (fun k => (⟨p.h, p.w / n, fun i j => p.get i (k * (p.w / n) + j)⟩ : Plane V))) := by
  unfold Plane.splitCols
  rw [if_pos h]

/-- C71: splitting the data of a module gives one array per tile, and it is the part of the module in the region of this
tile. -/
theorem split_regions (d : Det) (p : Plane V) (hh : p.h = (Spec.shape d).2.1) (hw : p.w = (Spec.shape d).2.2) :
    ∃ ts, d.splitTiles p = .ok ts ∧ ts.length = Spec.tiles d ∧
      ∀ (t : Nat) (q : Plane V), ts[t]? = some q → Spec.Same q (Spec.part p (d.tileSlice t)) := by
  cases d
  · simp only [Spec.shape] at hh hw
    refine ⟨_, splitRows_ok (by rw [hh]), by simp [Spec.tiles], ?_⟩
    intro t q hq
    rw [List.getElem?_map] at hq
    have ht : t < 8 := by
      by_contra hge
      rw [List.getElem?_eq_none (by simpa using hge)] at hq
      simp at hq
    rw [List.getElem?_range ht] at hq
    simp only [Option.map_some, Option.some.injEq] at hq
    subst hq
    refine ⟨?_, ?_, ?_⟩
    · simp [Spec.part, Det.tileSlice, Det.ssPixels, hh]
    · simp [Spec.part, Det.tileSlice, Det.ssPixels, Det.fsPixels, hw]
    · intro i j hi hj
      simp [Spec.part, Det.tileSlice, Det.ssPixels, hh]
  · simp only [Spec.shape] at hh hw
    have h1 := splitCols_ok (p := p) (n := 2) (by rw [hw])
    simp only [List.range_succ, List.range_zero, List.nil_append, List.map_append, List.map_cons, List.map_nil,
      List.cons_append, List.singleton_append] at h1
    refine ⟨((List.range 8).map (fun k => (⟨32, 128, fun i j => p.get (k * 32 + i) (0 * 128 + j)⟩ : Plane V))).reverse ++
      (List.range 8).map (fun k => (⟨32, 128, fun i j => p.get (k * 32 + i) (1 * 128 + j)⟩ : Plane V)), ?_, ?_, ?_⟩
    · simp only [Det.splitTiles, h1]
      rw [splitRows_ok (p := (⟨p.h, p.w / 2, fun i j => p.get i (0 * (p.w / 2) + j)⟩ : Plane V)) (n := 8) (by simp only [hh]),
        splitRows_ok (p := (⟨p.h, p.w / 2, fun i j => p.get i (1 * (p.w / 2) + j)⟩ : Plane V)) (n := 8) (by simp only [hh])]
      simp only [hh, hw]
    · simp [Spec.tiles]
    · intro t q hq
      rw [List.getElem?_append] at hq
      split at hq
      · next hlt =>
        have ht : t < 8 := by simpa using hlt
        rw [List.getElem?_reverse (by simpa using ht)] at hq
        simp only [List.length_map, List.length_range] at hq
        rw [List.getElem?_map, List.getElem?_range (by omega)] at hq
        simp only [Option.map_some, Option.some.injEq] at hq
        subst hq
        refine ⟨?_, ?_, ?_⟩
        · simp [Spec.part, Det.tileSlice, Det.ssPixels, ht]
        · simp [Spec.part, Det.tileSlice, Det.ssPixels, ht]
        · intro i j hi hj
          simp [Spec.part, Det.tileSlice, Det.ssPixels, ht]
      · next hge =>
        have hge : 8 ≤ t := by simpa using hge
        simp only [List.length_reverse, List.length_map, List.length_range] at hq
        rw [List.getElem?_map] at hq
        have ht : t - 8 < 8 := by
          by_contra hh
          rw [List.getElem?_eq_none (by simpa using hh)] at hq
          simp at hq
        rw [List.getElem?_range ht] at hq
        simp only [Option.map_some, Option.some.injEq] at hq
        subst hq
        have hn : ¬ t < 8 := by omega
        refine ⟨?_, ?_, ?_⟩
        · simp [Spec.part, Det.tileSlice, Det.ssPixels, hn]
        · simp [Spec.part, Det.tileSlice, Det.ssPixels, hn]
        · intro i j hi hj
          simp [Spec.part, Det.tileSlice, Det.ssPixels, hn]
  · simp only [Spec.shape] at hh hw
    refine ⟨_, splitCols_ok (by rw [hw]), by simp [Spec.tiles], ?_⟩
    intro t q hq
    rw [List.getElem?_map] at hq
    have ht : t < 2 := by
      by_contra hge
      rw [List.getElem?_eq_none (by simpa using hge)] at hq
      simp at hq
    rw [List.getElem?_range ht] at hq
    simp only [Option.map_some, Option.some.injEq] at hq
    subst hq
    refine ⟨?_, ?_, ?_⟩
    · simp [Spec.part, Det.tileSlice, Det.ssPixels, hh]
    · simp [Spec.part, Det.tileSlice, Det.ssPixels, Det.fsPixels, hw]
    · intro i j hi hj
      simp [Spec.part, Det.tileSlice, Det.fsPixels, hw]

/-- C71: data which cannot be split evenly are refused. -/
theorem split_fails (d : Det) (p : Plane V)
    (h : match d with
      | .agipd => ¬ 8 ∣ p.h
      | .lpd => ¬ 2 ∣ p.w ∨ ¬ 8 ∣ p.h
      | .dssc => ¬ 2 ∣ p.w) :
    d.splitTiles p = .error .value := by
  cases d
  · simp only at h
    simp only [Det.splitTiles, Plane.splitRows]
    rw [if_neg (fun hm => h (Nat.dvd_of_mod_eq_zero hm))]
  · simp only at h
    simp only [Det.splitTiles]
    by_cases hw : p.w % 2 = 0
    · have h1 := splitCols_ok (p := p) (n := 2) hw
      simp only [List.range_succ, List.range_zero, List.nil_append, List.map_append, List.map_cons, List.map_nil,
        List.cons_append, List.singleton_append] at h1
      have hh : ¬ p.h % 8 = 0 := by
        rcases h with h | h
        · exact absurd (Nat.dvd_of_mod_eq_zero hw) h
        · exact fun hm => h (Nat.dvd_of_mod_eq_zero hm)
      simp only [h1, Plane.splitRows]
      rw [if_neg hh]
    · simp only [Plane.splitCols]
      rw [if_neg hw]
  · simp only at h
    simp only [Det.splitTiles, Plane.splitCols]
    rw [if_neg (fun hm => h (Nat.dvd_of_mod_eq_zero hm))]

example : ∃ ts, Det.agipd.splitTiles (⟨512, 128, fun i j => (i, j)⟩ : Plane (Nat × Nat)) = .ok ts ∧
    (ts[3]?).map (fun q => q.get 5 7) = some (197, 7) := by
  refine ⟨_, splitRows_ok (by decide), ?_⟩
  rfl

/-! ### Coordinates in a module -/

/-- C72: for AGIPD and LPD, a position inside a module is found in the tile whose region contains it, at its distance from the
start of the region. -/
theorem coords_to_tile (d : Det) (hd : d ≠ .dssc) (ss fs : K) (h0 : 0 ≤ ss) (h1 : ss < (Spec.shape d).2.1) (h2 : 0 ≤ fs)
    (h3 : fs < (Spec.shape d).2.2) :
    ∃ (t : Nat) (a b : K), d.coordsToTile ss fs = .ok ((t : Int), a, b) ∧ t < Spec.tiles d ∧
      ((d.tileSlice t).y0 : K) ≤ ss ∧ ss < ((d.tileSlice t).y1 : K) ∧ ((d.tileSlice t).x0 : K) ≤ fs ∧
      fs < ((d.tileSlice t).x1 : K) ∧ ss = (d.tileSlice t).y0 + a ∧ fs = (d.tileSlice t).x0 + b := by
  have key : ∀ (x : K) (n m : Nat), 0 < n → 0 ≤ x → x < ((n * m : Nat) : K) →
      ∃ k : Nat, ⌊x / (n : K)⌋ = (k : Int) ∧ k < m ∧ ((k * n : Nat) : K) ≤ x ∧ x < ((k * n + n : Nat) : K) := by
    intro x n m hn hx hlt
    have hnK : (0 : K) < n := by exact_mod_cast hn
    have hf0 : 0 ≤ ⌊x / (n : K)⌋ := Int.floor_nonneg.2 (div_nonneg hx hnK.le)
    obtain ⟨k, hk⟩ := Int.eq_ofNat_of_zero_le hf0
    have e1 : ((k : Int) : K) ≤ x / n := by rw [← hk]; exact Int.floor_le _
    have e2 : x / n < ((k : Int) : K) + 1 := by rw [← hk]; exact Int.lt_floor_add_one _
    rw [le_div_iff₀ hnK] at e1
    rw [div_lt_iff₀ hnK] at e2
    refine ⟨k, hk, ?_, ?_, ?_⟩
    · have : ((k * n : Nat) : K) < ((n * m : Nat) : K) := by push_cast at *; linarith
      have h' : k * n < n * m := by exact_mod_cast this
      rw [Nat.mul_comm] at h'
      exact Nat.lt_of_mul_lt_mul_left h'
    · push_cast at *; linarith
    · push_cast at *; linarith
  cases d
  · simp only [Spec.shape] at h1 h3
    obtain ⟨k, hk, hk8, hlo, hhi⟩ := key ss 64 8 (by decide) h0 (by norm_num at h1 ⊢; exact h1)
    refine ⟨k, ss - ((k : Int) : K) * ((64 : Nat) : K), fs, ?_, ?_⟩
    · simp only [Det.coordsToTile, Det.ssPixels]
      rw [hk]
    · simp only [Spec.tiles, Det.tileSlice, Det.ssPixels, Det.fsPixels]
      push_cast at *
      exact ⟨hk8, hlo, hhi, h2, h3, by ring, by ring⟩
  · simp only [Spec.shape] at h1 h3
    obtain ⟨k, hk, hk8, hlo, hhi⟩ := key ss 32 8 (by decide) h0 (by norm_num at h1 ⊢; exact h1)
    obtain ⟨l, hl, hl2, llo, lhi⟩ := key fs 128 2 (by decide) h2 (by norm_num at h3 ⊢; exact h3)
    have hl' : l = 0 ∨ l = 1 := by omega
    rcases hl' with rfl | rfl
    · refine ⟨7 - k, ss - ((k : Int) : K) * ((32 : Nat) : K), fs - (((0 : Nat) : Int) : K) * ((128 : Nat) : K), ?_, ?_⟩
      · simp only [Det.coordsToTile, Det.ssPixels, Det.fsPixels]
        rw [hk, hl]
        congr 2
        push_cast
        omega
      · simp only [Spec.tiles, Det.tileSlice, Det.ssPixels]
        rw [if_pos (by omega)]
        simp only [show 7 - (7 - k) = k by omega]
        push_cast at *
        exact ⟨by omega, hlo, hhi, by linarith, by linarith, by ring, by ring⟩
    · refine ⟨k + 8, ss - ((k : Int) : K) * ((32 : Nat) : K), fs - (((1 : Nat) : Int) : K) * ((128 : Nat) : K), ?_, ?_⟩
      · simp only [Det.coordsToTile, Det.ssPixels, Det.fsPixels]
        rw [hk, hl]
        congr 2
        push_cast
        omega
      · simp only [Spec.tiles, Det.tileSlice, Det.ssPixels]
        rw [if_neg (by omega)]
        simp only [show k + 8 - 8 = k by omega]
        push_cast at *
        exact ⟨by omega, hlo, hhi, by linarith, by linarith, by ring, by ring⟩
  · exact absurd rfl hd

/-- C72: for DSSC this is not implemented. -/
theorem coords_dssc (ss fs : K) : Det.dssc.coordsToTile ss fs = .error .notImplemented := rfl

/-- C72: the pixel in row i and column j is in the tile it belongs to. -/
theorem coords_of_pixel (d : Det) (hd : d ≠ .dssc) {i j : Nat} (hi : i < (Spec.shape d).2.1) (hj : j < (Spec.shape d).2.2)
    (e f : K) (he : 0 ≤ e) (he1 : e < 1) (hf : 0 ≤ f) (hf1 : f < 1) :
    d.coordsToTile ((i : K) + e) ((j : K) + f) =
      .ok ((Spec.tileOf d i j : Nat), ((Spec.inTile d i j).1 : K) + e, ((Spec.inTile d i j).2 : K) + f) := by
  have hiK : ((i : K) + e) < ((Spec.shape d).2.1 : K) := by
    have : ((i + 1 : Nat) : K) ≤ ((Spec.shape d).2.1 : K) := by exact_mod_cast hi
    push_cast at this; linarith
  have hjK : ((j : K) + f) < ((Spec.shape d).2.2 : K) := by
    have : ((j + 1 : Nat) : K) ≤ ((Spec.shape d).2.2 : K) := by exact_mod_cast hj
    push_cast at this; linarith
  obtain ⟨t, a, b, h1, h2, h3, h4, h5, h6, h7, h8⟩ := coords_to_tile d hd ((i : K) + e) ((j : K) + f)
    (by positivity) hiK (by positivity) hjK
  have lo : ∀ {a k : Nat} {e : K}, e < 1 → (a : K) ≤ (k : K) + e → a ≤ k := by
    intro a k e he h
    by_contra hc
    have : ((k + 1 : Nat) : K) ≤ (a : K) := by exact_mod_cast (by omega : k + 1 ≤ a)
    push_cast at this; linarith
  have hiN : ∀ {a k : Nat} {e : K}, 0 ≤ e → (k : K) + e < (a : K) → k < a := by
    intro a k e he h
    by_contra hc
    have : (a : K) ≤ (k : K) := by exact_mod_cast (by omega : a ≤ k)
    linarith
  have ht : t = Spec.tileOf d i j :=
    (tile_region d hi hj h2).1 ⟨lo he1 h3, hiN he h4, lo hf1 h5, hiN hf h6⟩
  subst ht
  obtain ⟨o1, o2⟩ := tile_origin d hi hj
  have o1' : (i : K) = ((d.tileSlice (Spec.tileOf d i j)).y0 : K) + ((Spec.inTile d i j).1 : K) := by
    exact_mod_cast o1
  have o2' : (j : K) = ((d.tileSlice (Spec.tileOf d i j)).x0 : K) + ((Spec.inTile d i j).2 : K) := by
    exact_mod_cast o2
  rw [h1]
  have ha : a = ((Spec.inTile d i j).1 : K) + e := by linarith
  have hb : b = ((Spec.inTile d i j).2 : K) + f := by linarith
  rw [ha, hb]

example : Det.lpd.coordsToTile (40 + 1 / 2 : ℚ) (7 + 1 / 4) = .ok (6, 8 + 1 / 2, 7 + 1 / 4) := by
  have := coords_of_pixel (K := ℚ) .lpd (by decide) (i := 40) (j := 7) (by decide) (by decide) (1 / 2) (1 / 4) (by norm_num)
    (by norm_num) (by norm_num) (by norm_num)
  simpa [Spec.tileOf, Spec.inTile, Spec.tileShape] using this

/-! ### The deprecated LPD code -/

/-- C82: for a module of 256 × 256 pixels, the deprecated function gives, with `clockwiseOrder`, the same tiles in the same order
as the current one. -/
theorem split_old_new_partial (p : Plane V) (hh : p.h = 256) (hw : p.w = 256) :
    ∃ old new, splitChannel p true = .ok old ∧ Det.lpd.splitTiles p = .ok new ∧ old.length = new.length ∧
      ∀ (t : Nat) (a b : Plane V), old[t]? = some a → new[t]? = some b → Spec.Same a b := by
  obtain ⟨new, hn, hlen, hreg⟩ := split_regions .lpd p hh hw
  unfold splitChannel
  rw [if_pos (by rw [hh]), if_pos (by rw [hw])]
  simp only [hh, hw]
  rw [if_pos (by decide)]
  refine ⟨_, new, rfl, hn, by rw [hlen]; simp [Spec.tiles], ?_⟩
  intro t a b ha hb
  obtain ⟨s1, s2, s3⟩ := hreg t b hb
  have htlt : t < 16 := by
    have := (List.getElem?_eq_some_iff.1 hb).1
    rw [hlen] at this
    exact this
  rw [List.getElem?_map] at ha
  have hord : ((List.range 8).reverse ++ (List.range 8).map (· + 8))[t]? = some (if t < 8 then 7 - t else t) := by
    rw [List.getElem?_append]
    split
    · next h =>
      have h : t < 8 := by simpa using h
      rw [List.getElem?_reverse (by simpa using h), List.getElem?_range (by simp; omega), if_pos h]
      simp
    · next h =>
      have h : ¬ t < 8 := by simpa using h
      rw [List.getElem?_map, List.getElem?_range (by simp; omega), if_neg h]
      simp; omega
  rw [if_pos trivial, hord] at ha
  simp only [Option.map_some, Option.some.injEq] at ha
  subst ha
  have h32 : b.h = 32 := by
    rw [s1]; simp only [Spec.part, Det.tileSlice, Det.ssPixels]; split <;> simp
  have h128 : b.w = 128 := by
    rw [s2]; simp only [Spec.part, Det.tileSlice, Det.ssPixels]; split <;> simp
  refine ⟨by rw [h32], by rw [h128], ?_⟩
  intro i j hi hj
  simp only at hi hj
  rw [s3 i j (by omega) (by omega)]
  simp only [Spec.part, Det.tileSlice, Det.ssPixels]
  split
  · next h =>
    congr 1
    · simp only; omega
    · simp only; omega
  · next h =>
    congr 1
    · simp only; omega
    · simp only; omega

/-- C82: without `clockwiseOrder` the tiles are in the order of the data: first those of the first 128 columns. -/
theorem split_old_reading (p : Plane V) (hh : p.h = 256) (hw : p.w = 256) :
    ∃ old, splitChannel p false = .ok old ∧ old.length = 16 ∧
      ∀ (t : Nat) (a : Plane V), old[t]? = some a → a.h = 32 ∧ a.w = 128 ∧
        ∀ i j, i < 32 → j < 128 → a.get i j = p.get (t % 8 * 32 + i) (t / 8 * 128 + j) := by
  unfold splitChannel
  rw [if_pos (by rw [hh]), if_pos (by rw [hw])]
  simp only [hh, hw]
  rw [if_pos (by decide)]
  refine ⟨_, rfl, by simp, ?_⟩
  intro t a ha
  rw [List.getElem?_map, if_neg (by decide)] at ha
  have ht : t < 16 := by
    by_contra hge
    rw [List.getElem?_eq_none (by simpa using hge)] at ha
    simp at ha
  rw [List.getElem?_range ht] at ha
  simp only [Option.map_some, Option.some.injEq] at ha
  subst ha
  refine ⟨rfl, rfl, ?_⟩
  intro i j hi hj
  simp only
  congr 1
  · omega
  · omega

/-- C82: arrays which do not have 65536 elements, or cannot be split evenly, are refused by the deprecated function. -/
theorem split_old_fails (p : Plane V) (cw : Bool) (h : ¬ 8 ∣ p.h ∨ ¬ 2 ∣ p.w ∨ p.h * p.w ≠ 65536) :
    splitChannel p cw = .error .value := by
  unfold splitChannel
  by_cases h8 : p.h % 8 = 0
  · by_cases h2 : p.w % 2 = 0
    · rw [if_pos h8, if_pos h2]
      simp only
      rw [if_neg]
      intro hc
      have hne : p.h * p.w ≠ 65536 := by
        rcases h with h | h | h
        · exact absurd (Nat.dvd_of_mod_eq_zero h8) h
        · exact absurd (Nat.dvd_of_mod_eq_zero h2) h
        · exact h
      apply hne
      have e1 : p.h = p.h / 8 * 8 := by omega
      have e2 : p.w = p.w / 2 * 2 := by omega
      rw [e1, e2]
      have : p.h / 8 * 8 * (p.w / 2 * 2) = 2 * (8 * (p.h / 8 * (p.w / 2))) := by ring
      rw [this, hc]
    · rw [if_pos h8, if_neg h2]
  · rw [if_neg h8]

/-- C82 does not extend to other arrays: one of 128 × 512 pixels is refused by neither function, but they split it in different
ways. -/
theorem split_old_other_wrong :
    ∃ (p : Plane (Nat × Nat)) (old new : List (Plane (Nat × Nat))), splitChannel p true = .ok old ∧ Det.lpd.splitTiles p = .ok new ∧
      (old[7]?).map (fun q => q.get 1 0) ≠ (new[7]?).map (fun q => q.get 1 0) := by
  refine ⟨⟨128, 512, fun i j => (i, j)⟩, _, _, rfl, rfl, by decide⟩

end KD.Geo
