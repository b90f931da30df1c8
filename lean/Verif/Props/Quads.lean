/-
C80 quadrant positions in other units; C81 quadrant geometry has no overlaps and the gaps asked for.
-/
import Verif.Props.Overlap
import Mathlib.Data.Rat.Floor
import Mathlib.Tactic.NormNum
import Mathlib.Tactic.IntervalCases

set_option linter.unusedSimpArgs false
set_option linter.unusedSectionVars false

namespace KD.Geo

variable {V : Type} {K : Type} [Field K] [LinearOrder K] [IsStrictOrderedRing K] [FloorRing K]

theorem isTile_map {d : Det} {tile : Nat → Nat → Frag K} {n k m t : Nat} {f : Frag K} :
    Spec.IsTile ⟨d, (List.range n).map (fun p => (List.range k).map (tile p))⟩ m t f ↔ m < n ∧ t < k ∧ f = tile m t := by
  unfold Spec.IsTile
  constructor
  · rintro ⟨mod, h1, h2⟩
    simp only [List.getElem?_map, Option.map_eq_some_iff] at h1
    obtain ⟨a, h3, rfl⟩ := h1
    obtain ⟨h4, rfl⟩ := List.getElem?_eq_some_iff.1 h3
    simp only [List.length_range] at h4
    simp only [List.getElem?_map, Option.map_eq_some_iff, List.getElem_range] at h2
    obtain ⟨b, h5, rfl⟩ := h2
    obtain ⟨h6, rfl⟩ := List.getElem?_eq_some_iff.1 h5
    simp only [List.length_range] at h6
    simp only [List.getElem_range]
    exact ⟨h4, h6, trivial⟩
  · rintro ⟨h1, h2, rfl⟩
    refine ⟨(List.range k).map (tile m), ?_, ?_⟩
    · simp [h1]
    · simp [h2]

theorem tiles_of_map {d : Det} {tile : Nat → Nat → Frag K} {n k : Nat} (P : Frag K → Prop) (h : ∀ m t, m < n → t < k → P (tile m t)) :
    ∀ m ∈ (⟨d, (List.range n).map (fun p => (List.range k).map (tile p))⟩ : Geom K).modules, ∀ f ∈ m, P f := by
  intro m hm f hf
  simp only [List.mem_map, List.mem_range] at hm
  obtain ⟨p, hp, rfl⟩ := hm
  simp only [List.mem_map, List.mem_range] at hf
  obtain ⟨t, ht, rfl⟩ := hf
  exact h p t hp ht

theorem nth_quad {quads : List (K × K)} (h : 4 ≤ quads.length) {p : Nat} (hp : p < 16) :
    nth quads (p / 4) = .ok (quads.getD (p / 4) (0, 0)) := by
  rw [nth_ok_iff, List.getD_eq_getElem?_getD, List.getElem?_eq_getElem (by omega)]
  rfl

theorem overQuad_ok {quads : List (K × K)} (h : 4 ≤ quads.length) (tiles : K × K → Nat → List (Frag K)) :
    mapE (overQuad quads tiles) (List.range 16) = .ok ((List.range 16).map (fun p => tiles (quads.getD (p / 4) (0, 0)) p)) := by
  apply mapE_ok_of_forall
  intro p hp
  unfold overQuad
  rw [nth_quad h (by simpa using hp)]

theorem overQuad_fails {quads : List (K × K)} (h : quads.length < 4) (tiles : K × K → Nat → List (Frag K)) :
    mapE (overQuad quads tiles) (List.range 16) = .error .index := by
  have hidx : ∀ p e, overQuad quads tiles p = .error e → e = .index := by
    intro p e hp
    unfold overQuad nth at hp
    split at hp
    · next hn =>
      split at hn
      · simp at hn
      · simp only [Except.error.injEq] at hn hp
        rw [← hp, ← hn]
    · simp at hp
  have herr : ∃ e, mapE (overQuad quads tiles) (List.range 16) = .error e := by
    rw [mapE_error_iff]
    refine ⟨15, by simp, .index, ?_⟩
    unfold overQuad nth
    rw [List.getElem?_eq_none (by omega)]
  obtain ⟨e, he⟩ := herr
  obtain ⟨p, -, hp⟩ := mapE_error_of he
  rw [he, hidx p e hp]

/-- The gap between tiles or panels of LPD: four pixels unless given. -/
def Spec.lpdGap (unit : K) : Option K → K
  | none => 4 * (5 / 10000)
  | some g => g * unit

/-! ### LPD -/

/-- C81: with four positions, an LPD geometry is made, with all tiles in their places; the steps are exactly one pixel. -/
theorem lpd_quads (quads : List (K × K)) (unit : K) (ag pg : Option K) (h : 4 ≤ quads.length) :
    ∃ g, lpdQuads quads unit ag pg = .ok g ∧ g.det = .lpd ∧ Spec.Complete g ∧ Spec.RightSize g ∧
      (∀ rowStep : K, ∀ m ∈ g.modules, ∀ f ∈ m, Spec.Exact (g.det.pixelShape rowStep) f) ∧
      (∀ m t f, Spec.IsTile g m t f ↔ m < 16 ∧ t < 16 ∧ f = lpdTile unit ag pg (quads.getD (m / 4) (0, 0)) m t) := by
  refine ⟨⟨.lpd, (List.range 16).map (fun p => (List.range 16).map (lpdTile unit ag pg (quads.getD (p / 4) (0, 0)) p))⟩, ?_, rfl,
    ⟨by simp [Spec.shape], ?_⟩, ?_, ?_, ?_⟩
  · unfold lpdQuads
    rw [show List.range Det.lpd.nModules = List.range 16 from rfl, overQuad_ok h]
    rfl
  · intro m hm
    simp only [List.mem_map] at hm
    obtain ⟨p, -, rfl⟩ := hm
    simp [Spec.tiles]
  · exact tiles_of_map _ (fun m t _ _ => ⟨rfl, rfl⟩)
  · intro rowStep
    apply tiles_of_map (P := Spec.Exact (Det.lpd.pixelShape rowStep))
    intro m t _ _
    refine ⟨(1, 0), (0, 1), ⟨by simp [Spec.UnitStep], by simp [Spec.UnitStep], by simp⟩, ?_⟩
    simp [lpdTile, Det.pixelShape]
  · intro m t f
    exact isTile_map (tile := fun p => lpdTile unit ag pg (quads.getD (p / 4) (0, 0)) p)

/-- C81: with fewer positions there is an IndexError. -/
theorem lpd_quads_fails (quads : List (K × K)) (unit : K) (ag pg : Option K) (h : quads.length < 4) :
    lpdQuads quads unit ag pg = .error .index := by
  unfold lpdQuads
  rw [show List.range Det.lpd.nModules = List.range 16 from rfl, overQuad_fails h]

/-- The column and row of the panel of a module in its quadrant, and those of a tile in its panel; 0 is the one with the
highest x or y. -/
def Spec.lpdPlace (p t : Nat) : (Nat × Nat) × (Nat × Nat) :=
  ((if p % 4 < 2 then 1 else 0, if p % 4 = 1 ∨ p % 4 = 2 then 1 else 0), (if t < 8 then 1 else 0, if t < 8 then t else 15 - t))

/-- Where a tile is: its corner with the highest x and y, counted from the position of the quadrant; a, b are the gaps. -/
def Spec.lpdTop (a b : K) (quad : K × K) (unit : K) (p t : Nat) : K × K :=
  let px : K := 5 / 10000
  let pl := Spec.lpdPlace p t
  (quad.1 * unit - (pl.1.1 : K) * (2 * (128 * px) + a + b) - (pl.2.1 : K) * (128 * px + a),
   quad.2 * unit - (pl.1.2 : K) * (8 * (32 * px) + 7 * a + b) - (pl.2.2 : K) * (32 * px + a))

/-- C81: the tiles of LPD. Each has 32 × 128 pixels of 0.5 mm with slow scan along y and fast scan along x. The corner with the
highest x and y of the last tile of the last module of a quadrant is at the given position; tiles of a panel and panels are
placed below it at distances which leave the gaps asked for. -/
theorem lpd_tile (unit : K) (ag pg : Option K) (quad : K × K) {p t : Nat} (ht : t < 16) :
    (lpdTile unit ag pg quad p t).ss = ⟨0, 5 / 10000, 0⟩ ∧ (lpdTile unit ag pg quad p t).fs = ⟨5 / 10000, 0, 0⟩ ∧
      (lpdTile unit ag pg quad p t).ssPixels = 32 ∧ (lpdTile unit ag pg quad p t).fsPixels = 128 ∧
      Spec.point (lpdTile unit ag pg quad p t) 32 128 =
        ⟨(Spec.lpdTop (Spec.lpdGap unit ag) (Spec.lpdGap unit pg) quad unit p t).1,
         (Spec.lpdTop (Spec.lpdGap unit ag) (Spec.lpdGap unit pg) quad unit p t).2, 0⟩ := by
  refine ⟨by simp [lpdTile, Det.pixelSize], by simp [lpdTile, Det.pixelSize], rfl, rfl, ?_⟩
  have hg : ∀ g : Option K, lpdGapPx (unit / (Det.lpd.pixelSize : K)) g * (5 / 10000) =
      Spec.lpdGap unit g := by
    intro g
    cases g with
    | none => rfl
    | some g => simp only [lpdGapPx, Spec.lpdGap, Det.pixelSize]; field_simp
  have hga := hg ag
  have hgb := hg pg
  have h15 : ((15 - t : Nat) : K) = 15 - (t : K) := by
    rw [Nat.cast_sub (by omega)]; rfl
  simp only [Spec.point, lpdTile]
  generalize lpdGapPx (unit / (Det.lpd.pixelSize : K)) ag = A at hga ⊢
  generalize lpdGapPx (unit / (Det.lpd.pixelSize : K)) pg = B at hgb ⊢
  rw [← hga, ← hgb]
  have hp : p % 4 = 0 ∨ p % 4 = 1 ∨ p % 4 = 2 ∨ p % 4 = 3 := by omega
  simp only [Spec.lpdTop, Spec.lpdPlace, Det.pixelSize, Det.ssPixels, Det.fsPixels]
  rcases hp with h | h | h | h <;> rw [h] <;> by_cases h8 : t < 8 <;> simp only [lpdPanel, h8, if_true, if_false, h15] <;>
    refine Vec.ext ?_ ?_ ?_ <;> simp only <;> push_cast <;> norm_num <;> ring

theorem lpd_inside (unit : K) (ag pg : Option K) (quad : K × K) {p t : Nat} (ht : t < 16) {x y : K}
    (h : Spec.Inside (lpdTile unit ag pg quad p t) x y) :
    let top := Spec.lpdTop (Spec.lpdGap unit ag) (Spec.lpdGap unit pg) quad unit p t
    top.1 - 128 * (5 / 10000) < x ∧ x < top.1 ∧ top.2 - 32 * (5 / 10000) < y ∧ y < top.2 := by
  obtain ⟨e1, e2, e3, e4, e5⟩ := lpd_tile unit ag pg quad (p := p) ht
  obtain ⟨s, u, h1, h2, h3, h4, h5, h6⟩ := h
  rw [e3] at h2
  rw [e4] at h4
  push_cast at h2 h4
  simp only [Spec.point, e1, e2, Vec.mk.injEq] at e5 h5 h6
  obtain ⟨f1, f2, -⟩ := e5
  simp only
  rw [h5, h6, ← f1, ← f2]
  refine ⟨?_, ?_, ?_, ?_⟩ <;> linarith

/-- C81: with gaps which are not negative, the tiles of a quadrant do not overlap. -/
theorem lpd_no_overlap (unit : K) (ag pg : Option K) (ha : 0 ≤ Spec.lpdGap unit ag) (hb : 0 ≤ Spec.lpdGap unit pg)
    (quad : K × K) {p t p' t' : Nat} (ht : t < 16) (ht' : t' < 16) (hq : p / 4 = p' / 4) (hne : (p, t) ≠ (p', t')) :
    Spec.Apart (lpdTile unit ag pg quad p t) (lpdTile unit ag pg quad p' t') := by
  rintro ⟨x, y, hi, hi'⟩
  have i1 := lpd_inside unit ag pg quad ht hi
  have i2 := lpd_inside unit ag pg quad ht' hi'
  generalize Spec.lpdGap unit ag = A at *
  generalize Spec.lpdGap unit pg = B at *
  simp only [Spec.lpdTop, Spec.lpdPlace] at i1 i2
  obtain ⟨a1, a2, a3, a4⟩ := i1
  obtain ⟨b1, b2, b3, b4⟩ := i2
  have hrow : ∀ r r' : Nat, r < r' → (r : K) * (32 * (5 / 10000) + A) + (32 * (5 / 10000) + A) ≤ (r' : K) * (32 * (5 / 10000) + A) := by
    intro r r' h
    have : ((r + 1 : Nat) : K) ≤ (r' : K) := by exact_mod_cast h
    have h0 : (0 : K) ≤ 32 * (5 / 10000) + A := by positivity
    have := mul_le_mul_of_nonneg_right this h0
    push_cast at this
    linarith
  have hrow7 : ∀ r : Nat, r ≤ 7 → (r : K) * (32 * (5 / 10000) + A) ≤ 7 * (32 * (5 / 10000) + A) := by
    intro r h
    have : (r : K) ≤ ((7 : Nat) : K) := by exact_mod_cast h
    have h0 : (0 : K) ≤ 32 * (5 / 10000) + A := by positivity
    have := mul_le_mul_of_nonneg_right this h0
    push_cast at this
    linarith
  have hrow0 : ∀ r : Nat, (0 : K) ≤ (r : K) * (32 * (5 / 10000) + A) := by
    intro r
    positivity
  generalize hr : (if t < 8 then t else 15 - t) = r at *
  generalize hr' : (if t' < 8 then t' else 15 - t') = r' at *
  have c1 := hrow7 r (by split at hr <;> omega)
  have c2 := hrow7 r' (by split at hr' <;> omega)
  have c3 := hrow0 r
  have c4 := hrow0 r'
  have hp : p % 4 = 0 ∨ p % 4 = 1 ∨ p % 4 = 2 ∨ p % 4 = 3 := by omega
  have hp' : p' % 4 = 0 ∨ p' % 4 = 1 ∨ p' % 4 = 2 ∨ p' % 4 = 3 := by omega
  by_cases hpp : p = p'
  · subst hpp
    by_cases h8 : t < 8 <;> by_cases h8' : t' < 8 <;> simp only [h8, h8', if_true, if_false] at *
    · have hrr : r ≠ r' := by
        rintro rfl; apply hne; rw [hr, hr']
      rcases Nat.lt_or_gt_of_ne hrr with h | h
      · have := hrow r r' h; linarith
      · have := hrow r' r h; linarith
    · norm_num at a1 a2 b1 b2; linarith
    · norm_num at a1 a2 b1 b2; linarith
    · have hrr : r ≠ r' := by
        rintro rfl; apply hne; congr 1; omega
      rcases Nat.lt_or_gt_of_ne hrr with h | h
      · have := hrow r r' h; linarith
      · have := hrow r' r h; linarith
  · have hpm : p % 4 ≠ p' % 4 := by omega
    have hcol : ∀ b : Nat, 0 ≤ ((if b < 8 then 1 else 0 : Nat) : K) * (128 * (5 / 10000) + A) ∧
        ((if b < 8 then 1 else 0 : Nat) : K) * (128 * (5 / 10000) + A) ≤ 128 * (5 / 10000) + A := by
      intro b
      have h0 : (0 : K) ≤ 128 * (5 / 10000) + A := by positivity
      split
      · rw [Nat.cast_one, one_mul]; exact ⟨h0, le_refl _⟩
      · rw [Nat.cast_zero, zero_mul]; exact ⟨le_refl _, h0⟩
    obtain ⟨d1, d2⟩ := hcol t
    obtain ⟨d3, d4⟩ := hcol t'
    have h01 : ((0 : Nat) : K) = 0 := Nat.cast_zero
    have h11 : ((1 : Nat) : K) = 1 := Nat.cast_one
    generalize (r : K) * (32 * (5 / 10000) + A) = U at *
    generalize (r' : K) * (32 * (5 / 10000) + A) = U' at *
    generalize ((if t < 8 then 1 else 0 : Nat) : K) * (128 * (5 / 10000) + A) = W at *
    generalize ((if t' < 8 then 1 else 0 : Nat) : K) * (128 * (5 / 10000) + A) = W' at *
    clear hcol hrow hrow7 hrow0 hi hi' hr hr' hne ht ht' hq hpp
    by_cases k : p % 4 < 2 <;> by_cases k' : p' % 4 < 2
    · by_cases l : p % 4 = 1 ∨ p % 4 = 2 <;> by_cases l' : p' % 4 = 1 ∨ p' % 4 = 2
      · exfalso; omega
      · rw [if_pos l, h11] at a3 a4; rw [if_neg l', h01] at b3 b4; linarith
      · rw [if_neg l, h01] at a3 a4; rw [if_pos l', h11] at b3 b4; linarith
      · exfalso; omega
    · rw [if_pos k, h11] at a1 a2; rw [if_neg k', h01] at b1 b2; linarith
    · rw [if_neg k, h01] at a1 a2; rw [if_pos k', h11] at b1 b2; linarith
    · by_cases l : p % 4 = 1 ∨ p % 4 = 2 <;> by_cases l' : p' % 4 = 1 ∨ p' % 4 = 2
      · exfalso; omega
      · rw [if_pos l, h11] at a3 a4; rw [if_neg l', h01] at b3 b4; linarith
      · rw [if_neg l, h01] at a3 a4; rw [if_pos l', h11] at b3 b4; linarith
      · exfalso; omega

/-- C81: all tiles of a quadrant are in a box below the position of the quadrant. -/
theorem lpd_quad_box (unit : K) (ag pg : Option K) (ha : 0 ≤ Spec.lpdGap unit ag) (hb : 0 ≤ Spec.lpdGap unit pg)
    (quad : K × K) {p t : Nat} (ht : t < 16) {x y : K} (hi : Spec.Inside (lpdTile unit ag pg quad p t) x y) :
    quad.1 * unit - (4 * 128 * (5 / 10000) + 2 * Spec.lpdGap unit ag + Spec.lpdGap unit pg) < x ∧ x < quad.1 * unit ∧
      quad.2 * unit - (16 * 32 * (5 / 10000) + 14 * Spec.lpdGap unit ag + Spec.lpdGap unit pg) < y ∧ y < quad.2 * unit := by
  have i1 := lpd_inside unit ag pg quad ht hi
  generalize Spec.lpdGap unit ag = A at *
  generalize Spec.lpdGap unit pg = B at *
  simp only [Spec.lpdTop, Spec.lpdPlace] at i1
  obtain ⟨a1, a2, a3, a4⟩ := i1
  have bit : ∀ (b : Prop) [Decidable b] (z : K), 0 ≤ z → 0 ≤ ((if b then 1 else 0 : Nat) : K) * z ∧
      ((if b then 1 else 0 : Nat) : K) * z ≤ z := by
    intro b _ z h0
    split
    · rw [Nat.cast_one, one_mul]; exact ⟨h0, le_refl _⟩
    · rw [Nat.cast_zero, zero_mul]; exact ⟨le_refl _, h0⟩
  have z1 := bit (t < 8) (128 * (5 / 10000) + A) (by positivity)
  have z2 := bit (p % 4 < 2) (2 * (128 * (5 / 10000)) + A + B) (by positivity)
  have z3 := bit (p % 4 = 1 ∨ p % 4 = 2) (8 * (32 * (5 / 10000)) + 7 * A + B) (by positivity)
  have hr : (if t < 8 then t else 15 - t) ≤ 7 := by split <;> omega
  generalize (if t < 8 then t else 15 - t) = r at *
  have z4 : (0 : K) ≤ (r : K) * (32 * (5 / 10000) + A) ∧ (r : K) * (32 * (5 / 10000) + A) ≤ 7 * (32 * (5 / 10000) + A) := by
    have h0 : (0 : K) ≤ 32 * (5 / 10000) + A := by positivity
    refine ⟨by positivity, mul_le_mul_of_nonneg_right ?_ h0⟩
    exact_mod_cast hr
  refine ⟨by linarith, by linarith, by linarith, by linarith⟩

/-- C75, C81: if also the boxes of the quadrants do not overlap, no two pixels of the assembled image are put on the same cell. -/
theorem lpd_quads_no_overlap (quads : List (K × K)) (unit : K) (ag pg : Option K) (ha : 0 ≤ Spec.lpdGap unit ag)
    (hb : 0 ≤ Spec.lpdGap unit pg) (g : Geom K) (hg : lpdQuads quads unit ag pg = .ok g)
    (hsep : ∀ (i j : Nat) (q r : K × K), i ≠ j → quads[i]? = some q → quads[j]? = some r →
      4 * 128 * (5 / 10000) + 2 * Spec.lpdGap unit ag + Spec.lpdGap unit pg ≤ |q.1 * unit - r.1 * unit| ∨
      16 * 32 * (5 / 10000) + 14 * Spec.lpdGap unit ag + Spec.lpdGap unit pg ≤ |q.2 * unit - r.2 * unit|) (rowStep : K) :
    Spec.NoOverlap g (g.det.pixelShape rowStep) := by
  have hlen : 4 ≤ quads.length := by
    by_contra hc
    rw [lpd_quads_fails quads unit ag pg (by omega)] at hg
    simp at hg
  obtain ⟨g', h1, h2, h3, h4, h5, h6⟩ := lpd_quads quads unit ag pg hlen
  rw [hg] at h1
  obtain rfl := Except.ok.inj h1
  refine no_overlap ?_ ?_ h4 (h5 rowStep) ?_
  · rw [h2]; simp only [Det.pixelShape, Det.pixelSize]; positivity
  · rw [h2]; simp only [Det.pixelShape, Det.pixelSize]; positivity
  · intro m t f m' t' f' hf hf' hne
    obtain ⟨b1, b2, rfl⟩ := (h6 m t f).1 hf
    obtain ⟨c1, c2, rfl⟩ := (h6 m' t' f').1 hf'
    by_cases hq : m / 4 = m' / 4
    · rw [← hq]
      exact lpd_no_overlap unit ag pg ha hb _ b2 c2 hq hne
    · rintro ⟨x, y, hi, hi'⟩
      obtain ⟨x1, x2, x3, x4⟩ := lpd_quad_box unit ag pg ha hb _ b2 hi
      obtain ⟨y1, y2, y3, y4⟩ := lpd_quad_box unit ag pg ha hb _ c2 hi'
      have e1 : quads[m / 4]? = some (quads.getD (m / 4) (0, 0)) := by
        rw [List.getD_eq_getElem?_getD, List.getElem?_eq_getElem (by omega)]; rfl
      have e2 : quads[m' / 4]? = some (quads.getD (m' / 4) (0, 0)) := by
        rw [List.getD_eq_getElem?_getD, List.getElem?_eq_getElem (by omega)]; rfl
      rcases hsep _ _ _ _ hq e1 e2 with h | h <;> rw [le_abs] at h <;> rcases h with h | h <;> linarith

/-- C80 for LPD: the same positions and gaps in another unit give the same geometry. -/
theorem lpd_units (quads : List (K × K)) (unit k : K) (hk : k ≠ 0) (ag pg : Option K) :
    lpdQuads (quads.map (fun q => (q.1 / k, q.2 / k))) (unit * k) (ag.map (· / k)) (pg.map (· / k)) = lpdQuads quads unit ag pg := by
  have hgap : ∀ g : Option K, lpdGapPx (unit * k / (Det.lpd.pixelSize : K)) (g.map (· / k)) = lpdGapPx (unit / Det.lpd.pixelSize) g := by
    intro g
    cases g with
    | none => rfl
    | some g => simp only [Option.map_some, lpdGapPx]; field_simp
  have hu : ∀ x : K, x / k * (unit * k) = x * unit := by
    intro x; field_simp
  have htile : ∀ q p, lpdTile (unit * k) (ag.map (· / k)) (pg.map (· / k)) (q.1 / k, q.2 / k) p = lpdTile unit ag pg q p := by
    intro q p
    funext t
    unfold lpdTile
    simp only [hgap, hu]
  by_cases h : 4 ≤ quads.length
  · unfold lpdQuads
    rw [show List.range Det.lpd.nModules = List.range 16 from rfl, overQuad_ok h, overQuad_ok (by simpa using h)]
    simp only
    congr 2
    apply List.map_congr_left
    intro p hp
    have hp' : p < 16 := by simpa using hp
    rw [← htile]
    congr 1
    congr 1
    rw [List.getD_eq_getElem?_getD, List.getD_eq_getElem?_getD, List.getElem?_map, List.getElem?_eq_getElem (by omega)]
    rfl
  · rw [lpd_quads_fails quads unit ag pg (by omega), lpd_quads_fails _ _ _ _ (by simp; omega)]

/-- The usual positions of the LPD quadrants, in millimetres, meet the conditions: nothing overlaps. -/
theorem exLpd_good : ∃ g : Geom ℚ, lpdQuads [(114 / 10, 299), (-115 / 10, 8), (2545 / 10, -16), (2785 / 10, 275)] (1 / 1000) none none = .ok g ∧
    Spec.Complete g ∧ Spec.RightSize g ∧ Spec.AllSnap g (g.det.pixelShape 1) ∧ Spec.NoOverlap g (g.det.pixelShape 1) := by
  obtain ⟨g, h1, h2, h3, h4, h5, h6⟩ := lpd_quads (K := ℚ) [(114 / 10, 299), (-115 / 10, 8), (2545 / 10, -16), (2785 / 10, 275)]
    (1 / 1000) none none (by simp)
  refine ⟨g, h1, h3, h4, ?_, lpd_quads_no_overlap _ _ _ _ (by norm_num [Spec.lpdGap]) (by norm_num [Spec.lpdGap]) g h1 ?_ 1⟩
  · intro m hm f hf
    have hp : (0 : ℚ) < (g.det.pixelShape 1 : ℚ × ℚ).1 ∧ (0 : ℚ) < (g.det.pixelShape 1 : ℚ × ℚ).2 := by
      rw [h2]; norm_num [Det.pixelShape, Det.pixelSize]
    have hsz := h4 m hm f hf
    rw [h2] at hsz
    obtain ⟨X, Y, w, h, c, ss, fs, hs, -⟩ := exact_box hp.1 hp.2 (h5 1 m hm f hf) (by rw [hsz.1]; decide) (by rw [hsz.2]; decide)
    exact ⟨c, ss, fs, hs⟩
  · intro i j q r hij hi hj
    have hil := (List.getElem?_eq_some_iff.1 hi).1
    have hjl := (List.getElem?_eq_some_iff.1 hj).1
    simp only [List.length_cons, List.length_nil] at hil hjl
    interval_cases i <;> interval_cases j <;>
      simp only [List.getElem?_cons_zero, List.getElem?_cons_succ, Option.some.injEq, ne_eq, not_true_eq_false] at hi hj hij <;>
      subst hi hj <;> simp only [Spec.lpdGap] <;> norm_num [abs_of_nonneg, abs_of_neg, abs_of_nonpos]

/-! ### AGIPD -/

/-- C81: with four positions, an AGIPD geometry is made; with the default unit (one pixel) the steps are exactly one pixel. -/
theorem agipd_quads (quads : List (K × K)) (unit ag pg : K) (h : 4 ≤ quads.length) :
    ∃ g, agipdQuads quads unit ag pg = .ok g ∧ g.det = .agipd ∧ Spec.Complete g ∧ Spec.RightSize g ∧
      (unit = 2 / 10000 → ∀ rowStep : K, ∀ m ∈ g.modules, ∀ f ∈ m, Spec.Exact (g.det.pixelShape rowStep) f) ∧
      (∀ m t f, Spec.IsTile g m t f ↔ m < 16 ∧ t < 8 ∧ f = agipdTile unit ag pg (quads.getD (m / 4) (0, 0)) m t) := by
  refine ⟨⟨.agipd, (List.range 16).map (fun p => (List.range 8).map (agipdTile unit ag pg (quads.getD (p / 4) (0, 0)) p))⟩, ?_, rfl,
    ⟨by simp [Spec.shape], ?_⟩, ?_, ?_, ?_⟩
  · unfold agipdQuads
    rw [overQuad_ok h]
  · intro m hm
    simp only [List.mem_map] at hm
    obtain ⟨p, -, rfl⟩ := hm
    simp [Spec.tiles]
  · exact tiles_of_map _ (fun m t _ _ => ⟨rfl, rfl⟩)
  · rintro rfl rowStep
    apply tiles_of_map (P := Spec.Exact (Det.agipd.pixelShape rowStep))
    intro m t _ _
    refine ⟨(0, if m / 4 < 2 then 1 else -1), (if m / 4 < 2 then -1 else 1, 0), ⟨?_, ?_, ?_⟩, ?_⟩
    · split <;> simp [Spec.UnitStep]
    · split <;> simp [Spec.UnitStep]
    · split <;> simp
    · split <;> simp_all [agipdTile, Det.pixelShape, Det.pixelSize]
  · intro m t f
    exact isTile_map (tile := fun p => agipdTile unit ag pg (quads.getD (p / 4) (0, 0)) p)

/-- C81: with fewer positions there is an IndexError. -/
theorem agipd_quads_fails (quads : List (K × K)) (unit ag pg : K) (h : quads.length < 4) :
    agipdQuads quads unit ag pg = .error .index := by
  unfold agipdQuads
  rw [overQuad_fails h]

/-- The direction of the tiles of a module of AGIPD along x, and of its fast scan along y is the opposite: the first two
quadrants go to higher x and lower y. -/
def Spec.agipdDir (p : Nat) : K := if p / 4 < 2 then 1 else -1

/-- C81: the tiles of AGIPD (positions in pixels). The first corner of the first tile of the first module of a quadrant is at the
given position; the next tile begins after the 64 pixels of the tile and the gap, and the next module is below by 128 pixels
and the gap. -/
theorem agipd_tile (ag pg : K) (quad : K × K) (p t : Nat) :
    let px : K := 2 / 10000
    agipdTile px ag pg quad p t =
      ⟨⟨quad.1 * px + Spec.agipdDir p * (t * (64 * px + ag * px)), quad.2 * px - ((p % 4 : Nat) : K) * (128 * px + pg * px), 0⟩,
       ⟨Spec.agipdDir p * px, 0, 0⟩, ⟨0, -Spec.agipdDir p * px, 0⟩, 64, 128⟩ := by
  have h : (if p / 4 < 2 then -1 else 1 : K) = -Spec.agipdDir p := by
    unfold Spec.agipdDir; split <;> simp
  simp only [agipdTile, Det.pixelSize, Det.ssPixels, Det.fsPixels, h]
  rw [show (if p / 4 < 2 then 1 else -1 : K) = Spec.agipdDir p from rfl]
  simp only [Frag.mk.injEq, Vec.mk.injEq, and_true, true_and, Nat.cast_ofNat]
  refine ⟨?_, ?_⟩ <;> field_simp

theorem agipd_inside (ag pg : K) (quad : K × K) {p t : Nat} {x y : K} (h : Spec.Inside (agipdTile (2 / 10000) ag pg quad p t) x y) :
    ∃ a b : K, 0 < a ∧ a < 64 ∧ 0 < b ∧ b < 128 ∧
      x = quad.1 * (2 / 10000) + Spec.agipdDir p * (t * (64 * (2 / 10000) + ag * (2 / 10000)) + a * (2 / 10000)) ∧
      y = quad.2 * (2 / 10000) - ((p % 4 : Nat) : K) * (128 * (2 / 10000) + pg * (2 / 10000)) - Spec.agipdDir p * (b * (2 / 10000)) := by
  rw [agipd_tile] at h
  obtain ⟨a, b, h1, h2, h3, h4, h5, h6⟩ := h
  simp only at h2 h4
  push_cast at h2 h4
  refine ⟨a, b, h1, h2, h3, h4, ?_, ?_⟩
  · rw [h5]; simp only [Spec.point]; ring
  · rw [h6]; simp only [Spec.point]; ring

theorem agipdDir_cases (p : Nat) : (Spec.agipdDir p : K) = 1 ∨ (Spec.agipdDir p : K) = -1 := by
  unfold Spec.agipdDir; split <;> simp

/-- C81: with gaps which are not negative, the tiles of a quadrant do not overlap. -/
theorem agipd_no_overlap (ag pg : K) (ha : 0 ≤ ag) (hb : 0 ≤ pg) (quad : K × K) {p t p' t' : Nat} (hq : p / 4 = p' / 4)
    (hne : (p, t) ≠ (p', t')) :
    Spec.Apart (agipdTile (2 / 10000) ag pg quad p t) (agipdTile (2 / 10000) ag pg quad p' t') := by
  rintro ⟨x, y, hi, hi'⟩
  obtain ⟨a, b, a1, a2, a3, a4, a5, a6⟩ := agipd_inside ag pg quad hi
  obtain ⟨a', b', b1, b2, b3, b4, b5, b6⟩ := agipd_inside ag pg quad hi'
  have hdir : (Spec.agipdDir p' : K) = Spec.agipdDir p := by unfold Spec.agipdDir; rw [hq]
  rw [hdir] at b5 b6
  have step : ∀ (n n' : Nat) (z : K), 0 ≤ z → n < n' → (n : K) * z + z ≤ (n' : K) * z := by
    intro n n' z h0 h
    have : ((n + 1 : Nat) : K) ≤ (n' : K) := by exact_mod_cast h
    have := mul_le_mul_of_nonneg_right this h0
    push_cast at this
    linarith
  have z1 : (0 : K) ≤ 64 * (2 / 10000) + ag * (2 / 10000) := by positivity
  have z2 : (0 : K) ≤ 128 * (2 / 10000) + pg * (2 / 10000) := by positivity
  have z3 : (0 : K) ≤ ag * (2 / 10000) := by positivity
  have z4 : (0 : K) ≤ pg * (2 / 10000) := by positivity
  by_cases ht : t = t'
  · subst ht
    have hpp : p % 4 ≠ p' % 4 := by
      intro h; apply hne; congr 1; omega
    rcases Nat.lt_or_gt_of_ne hpp with h | h
    · have := step _ _ _ z2 h
      rcases agipdDir_cases (K := K) p with d | d <;> rw [d] at a6 b6 <;> linarith
    · have := step _ _ _ z2 h
      rcases agipdDir_cases (K := K) p with d | d <;> rw [d] at a6 b6 <;> linarith
  · rcases Nat.lt_or_gt_of_ne ht with h | h
    · have := step _ _ _ z1 h
      rcases agipdDir_cases (K := K) p with d | d <;> rw [d] at a5 b5 <;> linarith
    · have := step _ _ _ z1 h
      rcases agipdDir_cases (K := K) p with d | d <;> rw [d] at a5 b5 <;> linarith

/-- C80 for AGIPD: only the corners are the same; the steps from pixel to pixel are multiplied by the change of the unit. Missing:
the steps (see `agipd_units_wrong`). -/
theorem agipd_units_partial (quad : K × K) (unit k : K) (hk : k ≠ 0) (ag pg : K) (p t : Nat) :
    let f := agipdTile unit ag pg quad p t
    agipdTile (unit * k) (ag / k) (pg / k) (quad.1 / k, quad.2 / k) p t =
      ⟨f.corner, ⟨f.ss.x * k, f.ss.y * k, f.ss.z * k⟩, ⟨f.fs.x * k, f.fs.y * k, f.fs.z * k⟩, f.ssPixels, f.fsPixels⟩ := by
  have hu : ∀ x : K, x / k * (unit * k) = x * unit := by
    intro x; field_simp
  simp only [agipdTile, hu, zero_mul, Frag.mk.injEq, Vec.mk.injEq, and_true, true_and]
  refine ⟨by ring, by ring⟩

/-- C80 is false for AGIPD: in another unit the geometry is another one, for every geometry. -/
theorem agipd_units_wrong (quads : List (K × K)) (h : 4 ≤ quads.length) (unit k : K) (hu : unit ≠ 0) (_hk : k ≠ 0) (hk1 : k ≠ 1)
    (ag pg : K) :
    agipdQuads (quads.map (fun q => (q.1 / k, q.2 / k))) (unit * k) (ag / k) (pg / k) ≠ agipdQuads quads unit ag pg := by
  intro hc
  obtain ⟨g, h1, -, -, -, -, h6⟩ := agipd_quads quads unit ag pg h
  obtain ⟨g', h1', -, -, -, -, h6'⟩ := agipd_quads (quads.map (fun q => (q.1 / k, q.2 / k))) (unit * k) (ag / k) (pg / k) (by simpa using h)
  rw [h1, h1'] at hc
  obtain rfl := Except.ok.inj hc
  have t1 := (h6 0 0 _).2 ⟨by decide, by decide, rfl⟩
  obtain ⟨-, -, e⟩ := (h6' 0 0 _).1 t1
  have := congrArg (fun f : Frag K => f.ss.x) e
  simp only [agipdTile] at this
  rw [if_pos (by decide)] at this
  simp only [one_mul] at this
  apply hk1
  have h2 : unit * (k - 1) = 0 := by rw [mul_sub, mul_one, ← this, sub_self]
  rcases mul_eq_zero.1 h2 with h3 | h3
  · exact absurd h3 hu
  · linarith

/-- So with positions in millimetres, as its documentation says, an AGIPD geometry cannot be assembled: its tiles look five times
as large as they are. -/
theorem agipd_millimetres_wrong (quads : List (K × K)) (h : 4 ≤ quads.length) (ag pg rowStep : K) (safe : Nat → Nat → Bool)
    (nan : Nat → V) (data : Stack V) (out : Option (Nat × Plane V)) :
    ∃ g, agipdQuads quads (1 / 1000) ag pg = .ok g ∧ g.positionFast rowStep safe nan data out = .error .assertion := by
  obtain ⟨g, h1, h2, h3, h4, h5, h6⟩ := agipd_quads quads (1 / 1000) ag pg h
  refine ⟨g, h1, assemble_not_aligned g rowStep safe nan data out ?_⟩
  intro hA
  have t1 := (h6 0 0 _).2 ⟨by decide, by decide, rfl⟩
  obtain ⟨mod, b1, b2⟩ := t1
  obtain ⟨c, ss, fs, hs⟩ := hA mod (List.mem_of_getElem? b1) _ (List.mem_of_getElem? b2)
  obtain ⟨-, -, -, s4, -, -, hal⟩ := hs
  rw [h2] at s4
  have e5 : (agipdTile (1 / 1000) ag pg (quads.getD (0 / 4) (0, 0)) 0 0).ss.x / (Det.agipd.pixelShape rowStep : K × K).1 = ((5 : Int) : K) := by
    simp only [agipdTile, Det.pixelShape, Det.pixelSize]
    norm_num
  rw [e5] at s4
  have h50 : Spec.Nearest ((5 : Int) : K) 5 := by unfold Spec.Nearest; norm_num
  have e := nearest_unique h50 s4
  obtain ⟨hu, -, -⟩ := hal
  unfold Spec.UnitStep at hu
  rcases hu with h | h | h | h <;> rw [h] at e <;> simp at e

end KD.Geo
