/- Helper lemmas for the detector interface. -/
import Verif.Spec.Components
import Verif.Lemmas.Basic
import Verif.Lemmas.OneTrain
import Verif.Lemmas.Stacking

set_option linter.unusedSimpArgs false

namespace KD
open Spec

variable {V : Type}

/-! ### Ranges and slices -/

theorem mem_arange {a b s n : Nat} (hs : 0 < s) : n ∈ arange a b s ↔ a ≤ n ∧ n < b ∧ (n - a) % s = 0 := by
  unfold arange
  rw [List.mem_range']
  constructor
  · rintro ⟨i, hi, rfl⟩
    have h1 : s * i < b - a := by
      have := (Nat.lt_div_iff_mul_lt hs).1 hi
      rw [Nat.mul_comm] at this
      omega
    refine ⟨by omega, by omega, ?_⟩
    rw [Nat.add_sub_cancel_left]
    exact Nat.mul_mod_right s i
  · rintro ⟨h1, h2, h3⟩
    have hd := Nat.div_add_mod (n - a) s
    refine ⟨(n - a) / s, ?_, by omega⟩
    rw [Nat.lt_div_iff_mul_lt hs, Nat.mul_comm]
    omega

theorem arange_one (a b : Nat) : arange a b 1 = List.range' a (b - a) := by
  unfold arange
  simp

theorem slStep_one {α : Type _} (l : List α) (a b : Nat) : slStep l a b 1 = sl l a b := by
  unfold slStep sl
  rw [arange_one]
  apply List.ext_getElem?
  intro i
  have key : ∀ (n a : Nat), a + n ≤ l.length → (List.range' a n).filterMap (fun i => l[i]?) = (l.drop a).take n := by
    intro n
    induction n with
    | zero => intro a _; simp
    | succ n ih =>
      intro a h
      rw [List.range'_succ, List.filterMap_cons]
      have h1 : a < l.length := by omega
      rw [List.getElem?_eq_getElem h1]
      simp only
      rw [ih (a + 1) (by omega), List.drop_eq_getElem_cons h1]
      rfl
  by_cases hb : a ≤ min b l.length
  · rw [key _ _ (by omega)]
    by_cases hl : b ≤ l.length
    · rw [Nat.min_eq_left hl]
    · rw [Nat.min_eq_right (by omega)]
      rw [List.take_of_length_le (by simp), List.take_of_length_le (by simp; omega)]
  · have : min b l.length - a = 0 := by omega
    rw [this]
    simp
    omega

theorem sl_getElem? {α : Type _} (l : List α) (a b i : Nat) : (sl l a b)[i]? = if a + i < b then l[a + i]? else none := by
  unfold sl
  rw [List.getElem?_take]
  split
  · rw [if_pos (by omega), List.getElem?_drop]
  · rw [if_neg (by omega)]

theorem mem_isin {ids desired : List Nat} {q : Nat} : q ∈ isinPositions ids desired ↔ ∃ p, ids[q]? = some p ∧ p ∈ desired := by
  unfold isinPositions
  rw [mem_nonzero, List.getElem?_map]
  cases ids[q]? <;> simp

/-! ### Normalised selections -/

theorem castU64_ok {libs : Libs} {i : Int} (h0 : 0 ≤ i) (h1 : i < 2 ^ 64) : castU64 libs i = .ok i.toNat := by
  unfold castU64
  rw [if_neg (by omega), if_pos h1]

/-- The numbers a list selects after conversion: those in it, and numbers from 2^63 on for the negative ones. -/
theorem castU64_mem {libs : Libs} {l : List Int} {ns : List Nat} (h : mapE (castU64 libs) l = .ok ns) {n : Nat}
    (hn : n < 2 ^ 63) : n ∈ ns ↔ (n : Int) ∈ l := by
  rw [mapE_mem h]
  unfold castU64
  constructor
  · rintro ⟨i, hi, hc⟩
    split at hc
    · split at hc
      · simp at hc
      · have := Except.ok.inj hc; omega
    · split at hc
      · have := Except.ok.inj hc
        have : i = (n : Int) := by omega
        exact this ▸ hi
      · simp at hc
  · intro hi
    refine ⟨n, hi, ?_⟩
    rw [if_neg (by omega), if_pos (by omega)]
    simp

theorem castU64_one {libs : Libs} {i : Int} {m : Nat} (h : castU64 libs i = .ok m) {n : Nat} (hn : n < 2 ^ 63) :
    n = m ↔ (n : Int) = i := by
  have := castU64_mem (libs := libs) (l := [i]) (ns := [m]) (by unfold mapE; rw [h]; rfl) hn
  simpa using this

/-! ### Runs of consecutive train IDs -/

/-- Put an element in front of the first piece. -/
def consHead {α : Type _} (x : α) : List (List α) → List (List α)
  | [] => []
  | c :: cs => (x :: c) :: cs

theorem npSplit_shift {α : Type _} (x : α) (is : List Nat) : ∀ (off : Nat) (l : List α), (∀ i ∈ is, off < i) →
    is.Pairwise (· < ·) →
    npSplit off (x :: l) is = consHead x (npSplit (off + 1) l is) := by
  cases is with
  | nil => intro off l _ _; rfl
  | cons i is =>
    intro off l h hp
    have hi := h i (by simp)
    simp only [npSplit]
    have e1 : i - off = (i - (off + 1)) + 1 := by omega
    rw [e1]
    simp only [List.take_succ_cons, List.drop_succ_cons, consHead]

theorem npSplit_ne {α : Type _} (is : List Nat) (off : Nat) (l : List α) : npSplit off l is ≠ [] := by
  cases is <;> simp [npSplit]

/-- The chunks as computed, from any offset. -/
def chunksFrom (off : Nat) (a : List Nat) : List (List Nat) :=
  npSplit off a ((nonzeroFrom off (List.zipWith (fun x y => decide (y ≠ x + 1)) a a.tail)).map (· + 1))

theorem chunksFrom_cons (off a b : Nat) (l : List Nat) :
    chunksFrom off (a :: b :: l) =
      if b = a + 1 then consHead a (chunksFrom (off + 1) (b :: l))
      else [a] :: chunksFrom (off + 1) (b :: l) := by
  unfold chunksFrom
  simp only [List.tail_cons, List.zipWith_cons_cons, nonzeroFrom]
  by_cases h : b = a + 1
  · rw [if_neg (by simp [h]), if_pos h]
    rw [npSplit_shift]
    · intro i hi
      simp only [List.mem_map] at hi
      obtain ⟨j, hj, rfl⟩ := hi
      have := (mem_nonzeroFrom.1 hj).1
      omega
    · exact (nonzeroFrom_pairwise _ _).map _ (fun _ _ h => by omega)
  · rw [if_pos (by simpa using h), if_neg h]
    simp only [List.map_cons, npSplit]
    rw [show off + 1 - off = 1 by omega]
    rfl

theorem chunksFrom_ne (off : Nat) (l : List Nat) : chunksFrom off l ≠ [] := npSplit_ne _ _ _

/-- All that is needed of the chunks of a non-empty list. -/
theorem chunksFrom_runs (l : List Nat) : ∀ (off a : Nat), RunsOf (a :: l) (chunksFrom off (a :: l)) ∧
    ∃ c cs, chunksFrom off (a :: l) = (a :: c) :: cs := by
  induction l with
  | nil =>
    intro off a
    have : chunksFrom off [a] = [[a]] := by simp [chunksFrom, nonzeroFrom, npSplit]
    rw [this]
    refine ⟨⟨by simp, by simp, ?_, ?_⟩, [], [], rfl⟩
    · intro r hr i x y hx hy
      rw [List.mem_singleton] at hr
      subst hr
      simp at hy
    · intro i r s x y hr hs
      simp at hs
  | cons b l ih =>
    intro off a
    obtain ⟨hr, c, cs, hc⟩ := ih (off + 1) b
    rw [chunksFrom_cons, hc]
    rw [hc] at hr
    obtain ⟨r1, r2, r3, r4⟩ := hr
    by_cases h : b = a + 1
    · rw [if_pos h]
      simp only [consHead]
      refine ⟨⟨?_, ?_, ?_, ?_⟩, b :: c, cs, rfl⟩
      · simpa using r1
      · intro r hr
        simp only [List.mem_cons] at hr
        rcases hr with rfl | hr
        · simp
        · exact r2 r (by simp [hr])
      · intro r hr i x y hx hy
        simp only [List.mem_cons] at hr
        rcases hr with rfl | hr
        · cases i with
          | zero => simp at hx hy; omega
          | succ i => exact r3 (b :: c) (by simp) i x y (by simpa using hx) (by simpa using hy)
        · exact r3 r (by simp [hr]) i x y hx hy
      · intro i r s x y hri hsi hrx hsy
        cases i with
        | zero =>
          simp at hri hsi
          subst hri
          exact r4 0 (b :: c) s x y (by simp) (by simpa using hsi) (by simpa using hrx) hsy
        | succ i => exact r4 (i + 1) r s x y (by simpa using hri) (by simpa using hsi) hrx hsy
    · rw [if_neg h]
      refine ⟨⟨?_, ?_, ?_, ?_⟩, [], _, rfl⟩
      · simpa using r1
      · intro r hr
        simp only [List.mem_cons] at hr
        rcases hr with rfl | hr
        · simp
        · exact r2 r (by simpa using hr)
      · intro r hr i x y hx hy
        simp only [List.mem_cons] at hr
        rcases hr with rfl | hr
        · simp at hy
        · exact r3 r (by simpa using hr) i x y hx hy
      · intro i r s x y hri hsi hrx hsy
        cases i with
        | zero =>
          simp at hri hsi
          subst hri; subst hsi
          simp at hrx hsy
          omega
        | succ i => exact r4 i r s x y (by simpa using hri) (by simpa using hsi) hrx hsy

theorem trainChunks_eq (l : List Nat) : trainChunks l = chunksFrom 0 l := rfl

theorem trainChunks_runs {l : List Nat} (h : l ≠ []) : RunsOf l (trainChunks l) := by
  cases l with
  | nil => exact absurd rfl h
  | cons a l => rw [trainChunks_eq]; exact (chunksFrom_runs l 0 a).1

theorem trainChunks_flatten (l : List Nat) : (trainChunks l).flatten = l := by
  cases l with
  | nil => rfl
  | cons a l => exact (trainChunks_runs (by simp)).all

/-- A chunk holds the numbers from its first to its last. -/
theorem run_mem {r : List Nat} (hr : ∀ (i a b : Nat), r[i]? = some a → r[i + 1]? = some b → b = a + 1) {c0 cl : Nat}
    (h0 : r[0]? = some c0) (hl : r.getLast? = some cl) (t : Nat) : t ∈ r ↔ c0 ≤ t ∧ t ≤ cl := by
  have hget : ∀ i, i < r.length → r[i]? = some (c0 + i) := by
    intro i
    induction i with
    | zero => intro _; simpa using h0
    | succ i ih =>
      intro hi
      have h1 := ih (by omega)
      have h2 : r[i + 1]? = some r[i + 1] := List.getElem?_eq_getElem hi
      rw [h2, hr i _ _ h1 h2]
      rfl
  have hlen : 0 < r.length := by
    rw [List.getElem?_eq_some_iff] at h0
    exact h0.1
  have hcl : cl = c0 + (r.length - 1) := by
    rw [List.getLast?_eq_getElem?, hget _ (by omega)] at hl
    exact (Option.some.inj hl).symm
  constructor
  · intro ht
    obtain ⟨i, hi⟩ := List.getElem?_of_mem ht
    have hi' : i < r.length := (List.getElem?_eq_some_iff.1 hi).1
    rw [hget i hi'] at hi
    have := Option.some.inj hi
    omega
  · rintro ⟨h1, h2⟩
    exact List.mem_of_getElem? ((hget (t - c0) (by omega)).trans (by congr 1; omega))

end KD
