/- Lemmas for assembling images. -/
import Verif.Props.Tiles

set_option linter.unusedSimpArgs false
set_option linter.unusedSectionVars false

namespace KD.Geo

variable {V : Type} {K : Type} [Field K] [LinearOrder K] [IsStrictOrderedRing K] [FloorRing K]

/-- A loop over `enumerate(l)` keeps an invariant. -/
theorem foldE_zipIdx {α σ : Type} (P : Nat → σ → Prop) (f : σ → α × Nat → R σ) (l : List α) (s0 : σ) (h0 : P 0 s0)
    (hstep : ∀ (k : Nat) (a : α) (s : σ), l[k]? = some a → P k s → ∃ s', f s (a, k) = .ok s' ∧ P (k + 1) s') :
    ∃ s', foldE f s0 l.zipIdx = .ok s' ∧ P l.length s' := by
  have gen : ∀ (l' : List α) (k : Nat) (s : σ), P k s → (∀ i, l'[i]? = l[k + i]?) →
      ∃ s', foldE f s (l'.zipIdx k) = .ok s' ∧ P (k + l'.length) s' := by
    intro l'
    induction l' with
    | nil => intro k s hs _; exact ⟨s, rfl, by simpa using hs⟩
    | cons a l' ih =>
      intro k s hs hl
      have ha : l[k]? = some a := by have := hl 0; simpa using this.symm
      obtain ⟨s', h1, h2⟩ := hstep k a s ha hs
      obtain ⟨s'', h3, h4⟩ := ih (k + 1) s' h2 (fun i => by
        have := hl (i + 1)
        rw [List.getElem?_cons_succ] at this
        rw [this]; congr 1; omega)
      refine ⟨s'', ?_, ?_⟩
      · simp only [List.zipIdx_cons, foldE, h1]
        exact h3
      · rw [List.length_cons, show k + (l'.length + 1) = k + 1 + l'.length by omega]; exact h4
  obtain ⟨s', h1, h2⟩ := gen l 0 s0 h0 (fun i => by simp)
  exact ⟨s', h1, by simpa using h2⟩

theorem stride_ok (p : Plane V) (a b : Int) (ha : a = 1 ∨ a = -1) (hb : b = 1 ∨ b = -1) :
    ∃ q, p.stride a b = .ok q ∧ q.h = p.h ∧ q.w = p.w ∧
      ∀ y x, y < p.h → x < p.w →
        q.get y x = p.get (if a = 1 then y else p.h - 1 - y) (if b = 1 then x else p.w - 1 - x) := by
  have key : ∀ (a : Int) (n : Nat), (a = 1 ∨ a = -1) →
      ∃ l, slicePositions none none (some a) n = .ok l ∧ l.length = n ∧
        ∀ y, y < n → l.getD y 0 = if a = 1 then y else n - 1 - y := by
    intro a n h
    rcases h with rfl | rfl
    · refine ⟨_, slicePositions_fwd n, by simp, ?_⟩
      intro y hy
      simp [List.getD_eq_getElem?_getD, hy]
    · refine ⟨_, slicePositions_bwd n, by simp, ?_⟩
      intro y hy
      simp [List.getD_eq_getElem?_getD, hy]
  obtain ⟨r, hr, hrl, hrg⟩ := key a p.h ha
  obtain ⟨c, hc, hcl, hcg⟩ := key b p.w hb
  refine ⟨⟨r.length, c.length, fun i j => p.get (r.getD i 0) (c.getD j 0)⟩, ?_, hrl, hcl, ?_⟩
  · simp only [Plane.stride, hr, hc]
  · intro y x hy hx
    simp only [hrg y hy, hcg x hx]

/-- C73: in the transformed data of a tile, every pixel is at its cell, counted from the corner of the tile, and there is
nothing else. -/
theorem grid_cells {c ss fs : Int × Int} (h : Spec.AxisAligned ss fs) (p : Plane V) :
    ∃ q, (Grid.init c ss fs p.h p.w).transform p = .ok q ∧
      ((q.h : Int), (q.w : Int)) = (Grid.init c ss fs p.h p.w).dims ∧
      (Grid.init c ss fs p.h p.w).opp =
        ((Grid.init c ss fs p.h p.w).corner.1 + q.h, (Grid.init c ss fs p.h p.w).corner.2 + q.w) ∧
      (∀ i j, i < p.h → j < p.w → ∃ y x, y < q.h ∧ x < q.w ∧
        Spec.cell c ss fs i j =
          ((Grid.init c ss fs p.h p.w).corner.1 + y, (Grid.init c ss fs p.h p.w).corner.2 + x) ∧ q.get y x = p.get i j) ∧
      (∀ y x, y < q.h → x < q.w → ∃ i j, i < p.h ∧ j < p.w ∧
        Spec.cell c ss fs i j =
          ((Grid.init c ss fs p.h p.w).corner.1 + y, (Grid.init c ss fs p.h p.w).corner.2 + x) ∧ q.get y x = p.get i j) := by
  obtain ⟨s1, s2⟩ := ss
  obtain ⟨f1, f2⟩ := fs
  obtain ⟨c1, c2⟩ := c
  obtain ⟨hs, hf, ha⟩ := h
  simp only at ha
  by_cases hf0 : f1 = 0
  · -- fast scan along x
    have hs1 : s1 ≠ 0 := fun e => ha.1 e hf0
    have hs1' : (s1 = 1 ∨ s1 = -1) ∧ s2 = 0 := by
      rcases hs with e | e | e | e <;> simp only [Prod.mk.injEq] at e <;> omega
    have hf2' : f2 = 1 ∨ f2 = -1 := by
      rcases hf with e | e | e | e <;> simp only [Prod.mk.injEq] at e <;> omega
    obtain ⟨hs1', rfl⟩ := hs1'
    subst hf0
    obtain ⟨q, hq, hqh, hqw, hqg⟩ := stride_ok p s1 f2 hs1' hf2'
    refine ⟨q, ?_, ?_, ?_, ?_, ?_⟩
    · simp only [Grid.init, if_true, Grid.transform, Bool.false_eq_true, if_false]
      exact hq
    · simp only [Grid.init, if_true, hqh, hqw]
    · simp only [Grid.init, if_true, hqh, hqw]
    · intro i j hi hj
      refine ⟨if s1 = 1 then i else p.h - 1 - i, if f2 = 1 then j else p.w - 1 - j, ?_, ?_, ?_, ?_⟩
      · split <;> omega
      · split <;> omega
      · simp only [Spec.cell, Spec.vertex, Grid.init, if_true, Prod.mk.injEq]
        rcases hs1' with rfl | rfl <;> rcases hf2' with rfl | rfl <;>
          refine ⟨?_, ?_⟩ <;> simp <;> omega
      · rw [hqg _ _ (by split <;> omega) (by split <;> omega)]
        congr 1 <;> (split <;> omega)
    · intro y x hy hx
      rw [hqh] at hy
      rw [hqw] at hx
      refine ⟨if s1 = 1 then y else p.h - 1 - y, if f2 = 1 then x else p.w - 1 - x, ?_, ?_, ?_, hqg y x hy hx⟩
      · split <;> omega
      · split <;> omega
      · simp only [Spec.cell, Spec.vertex, Grid.init, if_true, Prod.mk.injEq]
        rcases hs1' with rfl | rfl <;> rcases hf2' with rfl | rfl <;>
          refine ⟨?_, ?_⟩ <;> simp <;> omega
  · -- fast scan along y
    have hs0 : s1 = 0 := ha.2 hf0
    have hf1' : (f1 = 1 ∨ f1 = -1) ∧ f2 = 0 := by
      rcases hf with e | e | e | e <;> simp only [Prod.mk.injEq] at e <;> omega
    have hs2' : s2 = 1 ∨ s2 = -1 := by
      rcases hs with e | e | e | e <;> simp only [Prod.mk.injEq] at e <;> omega
    obtain ⟨hf1', rfl⟩ := hf1'
    subst hs0
    obtain ⟨q, hq, hqh, hqw, hqg⟩ := stride_ok p.swapaxes f1 s2 hf1' hs2'
    simp only [Plane.swapaxes] at hqh hqw hqg
    refine ⟨q, ?_, ?_, ?_, ?_, ?_⟩
    · simp only [Grid.init, if_neg hf0, Grid.transform, if_true]
      exact hq
    · simp only [Grid.init, if_neg hf0, hqh, hqw]
    · simp only [Grid.init, if_neg hf0, hqh, hqw]
    · intro i j hi hj
      refine ⟨if f1 = 1 then j else p.w - 1 - j, if s2 = 1 then i else p.h - 1 - i, ?_, ?_, ?_, ?_⟩
      · split <;> omega
      · split <;> omega
      · simp only [Spec.cell, Spec.vertex, Grid.init, if_neg hf0, Prod.mk.injEq]
        rcases hf1' with rfl | rfl <;> rcases hs2' with rfl | rfl <;>
          refine ⟨?_, ?_⟩ <;> simp <;> omega
      · rw [hqg _ _ (by split <;> omega) (by split <;> omega)]
        congr 1 <;> (split <;> omega)
    · intro y x hy hx
      rw [hqh] at hy
      rw [hqw] at hx
      refine ⟨if s2 = 1 then x else p.h - 1 - x, if f1 = 1 then y else p.w - 1 - y, ?_, ?_, ?_, hqg y x hy hx⟩
      · split <;> omega
      · split <;> omega
      · simp only [Spec.cell, Spec.vertex, Grid.init, if_neg hf0, Prod.mk.injEq]
        rcases hf1' with rfl | rfl <;> rcases hs2' with rfl | rfl <;>
          refine ⟨?_, ?_⟩ <;> simp <;> omega

end KD.Geo
