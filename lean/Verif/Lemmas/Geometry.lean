/- Lemmas about two-dimensional arrays, slices and minima. -/
import Verif.Spec.Geometry
import Verif.Lemmas.Basic
import Mathlib.Data.List.Forall2
import Mathlib.Tactic.Linarith
import Mathlib.Tactic.Ring
import Mathlib.Tactic.FieldSimp
import Mathlib.Tactic.Positivity

set_option linter.unusedSimpArgs false

namespace KD.Geo

variable {V : Type} {K : Type} [Field K] [LinearOrder K] [IsStrictOrderedRing K] [FloorRing K]

theorem slicePositions_range {a b n : Nat} (hab : a ≤ b) (hbn : b ≤ n) :
    slicePositions (some (a : Int)) (some (b : Int)) none n = .ok (List.range' a (b - a)) := by
  have ha : sliceBound (a : Int) n false = a := by
    unfold sliceBound
    split
    · omega
    · split
      · simp; omega
      · rfl
  have hb : sliceBound (b : Int) n false = b := by
    unfold sliceBound
    split
    · omega
    · split
      · simp; omega
      · rfl
  have hd : decide (((none : Option Int).getD 1) < 0) = false := by decide
  unfold slicePositions
  simp only [hd, ha, hb]
  simp only [Option.getD_none, one_ne_zero, if_false, Bool.false_eq_true, mul_one]
  congr 1
  have hlen : (if (a : Int) < b then (((b : Int) - a - 1) / 1 + 1).toNat else 0) = b - a := by
    split <;> omega
  rw [hlen]
  apply List.ext_getElem?
  intro i
  rw [List.getElem?_map]
  by_cases hi : i < b - a
  · rw [List.getElem?_range hi, List.getElem?_range' hi]
    simp
    omega
  · rw [List.getElem?_eq_none (by simpa using hi), List.getElem?_eq_none (by simpa using hi)]
    rfl

theorem slicePositions_fwd (n : Nat) : slicePositions none none (some 1) n = .ok (List.range n) := by
  have hd : decide (((some 1 : Option Int).getD 1) < 0) = false := by decide
  unfold slicePositions
  simp only [hd]
  simp only [Option.getD_some, one_ne_zero, if_false, Bool.false_eq_true, mul_one]
  congr 1
  have hlen : (if (0 : Int) < n then (((n : Int) - 0 - 1) / 1 + 1).toNat else 0) = n := by
    split <;> omega
  rw [hlen]
  apply List.ext_getElem?
  intro i
  rw [List.getElem?_map]
  by_cases hi : i < n
  · rw [List.getElem?_range hi]; simp
  · rw [List.getElem?_eq_none (by simpa using hi)]; rfl

theorem slicePositions_bwd (n : Nat) :
    slicePositions none none (some (-1)) n = .ok ((List.range n).map (fun k => n - 1 - k)) := by
  have hd : decide (((some (-1) : Option Int).getD 1) < 0) = true := by decide
  unfold slicePositions
  simp only [hd]
  simp only [Option.getD_some, if_true]
  rw [if_neg (by decide)]
  congr 1
  have hlen : (if (-1 : Int) < (n : Int) - 1 then (((n : Int) - 1 - (-1) - 1) / (- (-1)) + 1).toNat else 0) = n := by
    rw [show (- (-1) : Int) = 1 from rfl, Int.ediv_one]
    split <;> omega
  rw [hlen]
  apply List.ext_getElem?
  intro i
  rw [List.getElem?_map, List.getElem?_map]
  by_cases hi : i < n
  · rw [List.getElem?_range hi]; simp; omega
  · rw [List.getElem?_eq_none (by simpa using hi)]; rfl

/-- Assigning a rectangle inside the array. -/
theorem assign_inside {out src : Plane V} {y x : Nat} (hy : y + src.h ≤ out.h) (hx : x + src.w ≤ out.w) :
    ∃ q, out.assign (y : Int) ((y + src.h : Nat) : Int) (x : Int) ((x + src.w : Nat) : Int) src = .ok q ∧
      q.h = out.h ∧ q.w = out.w ∧
      (∀ i j, y ≤ i → i < y + src.h → x ≤ j → j < x + src.w → q.get i j = src.get (i - y) (j - x)) ∧
      (∀ i j, ¬ (y ≤ i ∧ i < y + src.h ∧ x ≤ j ∧ j < x + src.w) → q.get i j = out.get i j) := by
  unfold Plane.assign
  rw [slicePositions_range (Nat.le_add_right _ _) hy]
  simp only
  rw [slicePositions_range (Nat.le_add_right _ _) hx]
  simp only [Nat.add_sub_cancel_left]
  rw [if_pos (by simp [broadcasts])]
  refine ⟨_, rfl, rfl, rfl, ?_, ?_⟩
  · intro i j h1 h2 h3 h4
    simp only
    rw [if_pos (by simp only [List.mem_range'_1]; omega)]
    have hidx : ∀ (a n k : Nat), a ≤ k → k < a + n → (if n = 1 then 0 else (List.range' a n).idxOf k) = k - a := by
      intro a n k h1 h2
      split
      · omega
      · have hk : (List.range' a n)[k - a]? = some k := by
          rw [List.getElem?_range' (by omega)]
          congr 1; omega
        have hlt : k - a < (List.range' a n).length := by simp; omega
        have hnd : (List.range' a n).Nodup := List.nodup_range'
        have := List.Nodup.idxOf_getElem hnd (k - a) hlt
        rw [List.getElem?_eq_getElem hlt] at hk
        rw [Option.some.inj hk] at this
        exact this
    rw [hidx y src.h i h1 h2, hidx x src.w j h3 h4]
  · intro i j h
    simp only
    rw [if_neg (by simp only [List.mem_range'_1]; omega)]

theorem listMin_le {α : Type} [LinearOrder α] (a : α) (l : List α) : listMin a l ≤ a ∧ ∀ b ∈ l, listMin a l ≤ b := by
  induction l generalizing a with
  | nil => simp [listMin]
  | cons b l ih =>
    obtain ⟨h1, h2⟩ := ih (min a b)
    refine ⟨le_trans h1 (min_le_left _ _), ?_⟩
    intro c hc
    rcases List.mem_cons.1 hc with rfl | hc
    · exact le_trans h1 (min_le_right _ _)
    · exact h2 c hc

theorem listMin_mem {α : Type} [LinearOrder α] (a : α) (l : List α) : listMin a l ∈ a :: l := by
  induction l generalizing a with
  | nil => simp [listMin]
  | cons b l ih =>
    have := ih (min a b)
    simp only [listMin]
    rcases List.mem_cons.1 this with h | h
    · rw [h]
      rcases min_choice a b with h | h <;> simp [h]
    · simp [h]

theorem le_listMax {α : Type} [LinearOrder α] (a : α) (l : List α) : a ≤ listMax a l ∧ ∀ b ∈ l, b ≤ listMax a l := by
  induction l generalizing a with
  | nil => simp [listMax]
  | cons b l ih =>
    obtain ⟨h1, h2⟩ := ih (max a b)
    refine ⟨le_trans (le_max_left _ _) h1, ?_⟩
    intro c hc
    rcases List.mem_cons.1 hc with rfl | hc
    · exact le_trans (le_max_right _ _) h1
    · exact h2 c hc

theorem listMax_mem {α : Type} [LinearOrder α] (a : α) (l : List α) : listMax a l ∈ a :: l := by
  induction l generalizing a with
  | nil => simp [listMax]
  | cons b l ih =>
    have := ih (max a b)
    simp only [listMax]
    rcases List.mem_cons.1 this with h | h
    · rw [h]
      rcases max_choice a b with h | h <;> simp [h]
    · simp [h]

theorem mapE_error_of {α β : Type} {f : α → R β} {l : List α} {e : PyErr} (h : mapE f l = .error e) :
    ∃ a ∈ l, f a = .error e := by
  induction l with
  | nil => simp [mapE] at h
  | cons a l ih =>
    simp only [mapE] at h
    cases ha : f a with
    | error e' =>
      rw [ha] at h
      simp only [Except.error.injEq] at h
      exact ⟨a, by simp, by rw [ha, h]⟩
    | ok b =>
      rw [ha] at h
      simp only at h
      cases hl : mapE f l with
      | error e' =>
        rw [hl] at h
        simp only [Except.error.injEq] at h
        obtain ⟨x, hx, hx'⟩ := ih (by rw [hl, h])
        exact ⟨x, by simp [hx], hx'⟩
      | ok bs => rw [hl] at h; simp at h

theorem mapE_getElem? {α β : Type} {f : α → R β} {l : List α} {r : List β} (h : mapE f l = .ok r) {i : Nat} {b : β}
    (hb : r[i]? = some b) : ∃ a, l[i]? = some a ∧ f a = .ok b := by
  rw [mapE_ok_iff] at h
  obtain ⟨hlt, hb'⟩ := List.getElem?_eq_some_iff.1 hb
  have hlt' : i < l.length := by rw [h.length_eq]; exact hlt
  refine ⟨l[i], List.getElem?_eq_getElem hlt', ?_⟩
  have := (List.forall₂_iff_get.1 h).2 i hlt' hlt
  simp only [List.get_eq_getElem] at this
  rw [this, hb']

/-- The rounding gives the nearest integer. -/
theorem around_nearest (x : K) : Spec.Nearest x (around x) := by
  have h0 := Int.floor_le x
  have h1 := Int.lt_floor_add_one x
  unfold Spec.Nearest around
  split
  · next h =>
    rw [abs_of_nonneg (by linarith)]
    exact ⟨by linarith, fun e => by linarith⟩
  · next h =>
    split
    · next h' =>
      push_cast
      rw [abs_of_nonpos (by linarith)]
      exact ⟨by linarith, fun e => by linarith⟩
    · next h' =>
      have he : x - (⌊x⌋ : K) = 1 / 2 := le_antisymm (not_lt.1 h') (not_lt.1 h)
      split
      · next h2 =>
        rw [he, abs_of_nonneg (by norm_num)]
        exact ⟨le_refl _, fun _ => h2⟩
      · next h2 =>
        push_cast
        rw [show x - ((⌊x⌋ : K) + 1) = - (1 / 2) by linarith, abs_neg, abs_of_nonneg (by norm_num)]
        exact ⟨le_refl _, fun _ => by omega⟩

/-- There is only one nearest integer. -/
theorem nearest_unique {x : K} {m n : Int} (hm : Spec.Nearest x m) (hn : Spec.Nearest x n) : m = n := by
  obtain ⟨a1, a2⟩ := hm
  obtain ⟨b1, b2⟩ := hn
  have key : ∀ {m n : Int}, |x - (m : K)| ≤ 1 / 2 → |x - (n : K)| ≤ 1 / 2 → m < n →
      n = m + 1 ∧ |x - (m : K)| = 1 / 2 ∧ |x - (n : K)| = 1 / 2 := by
    intro m n h1 h2 hlt
    rw [abs_le] at h1 h2
    have hmn : ((n - m : Int) : K) ≤ ((1 : Int) : K) := by push_cast; linarith
    have hle : n - m ≤ 1 := by exact_mod_cast hmn
    have hn' : n = m + 1 := by omega
    subst hn'
    push_cast at h2 ⊢
    have e : x - (m : K) = 1 / 2 := by linarith
    refine ⟨rfl, ?_, ?_⟩
    · rw [e, abs_of_nonneg (by norm_num)]
    · rw [show x - ((m : K) + 1) = - (1 / 2) by linarith, abs_neg, abs_of_nonneg (by norm_num)]
  rcases lt_trichotomy m n with h | h | h
  · obtain ⟨e, h1, h2⟩ := key a1 b1 h
    have := a2 h1
    have := b2 h2
    omega
  · exact h
  · obtain ⟨e, h1, h2⟩ := key b1 a1 h
    have := a2 h2
    have := b2 h1
    omega

theorem around_int (n : Int) : around (n : K) = n :=
  nearest_unique (around_nearest _) ⟨by simp, by simp⟩

end KD.Geo
