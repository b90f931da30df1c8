/- Property C36: the indexes written to new files. -/
import Verif.Model.Writer
import Verif.Props.Series

set_option linter.unusedSimpArgs false

namespace KD
open Spec

variable {V : Type}

theorem npRepeat_count {T : List Nat} (hT : T.Nodup) (g : Nat → Nat) (a : Nat) :
    (npRepeat T (T.map g)).count a = if a ∈ T then g a else 0 := by
  induction T with
  | nil => simp [npRepeat]
  | cons t T ih =>
    rw [List.nodup_cons] at hT
    simp only [List.map_cons, npRepeat, List.count_append, ih hT.2, List.count_replicate, List.mem_cons, beq_iff_eq]
    by_cases h : a = t
    · subst h; simp [hT.1]
    · simp [h, Ne.symm h]

/-- A sorted list of labels is the increasing list of trains with each repeated as often as it occurs. -/
theorem npRepeat_labels {T L : List Nat} (hT : T.Pairwise (· < ·)) (hL : L.Pairwise (· ≤ ·)) (hs : ∀ t ∈ L, t ∈ T) :
    npRepeat T (T.map (fun t => L.count t)) = L := by
  have hn : T.Nodup := hT.imp (fun h => Nat.ne_of_lt h)
  apply List.Perm.eq_of_pairwise (le := fun a b => a ≤ b) (fun a b _ _ h1 h2 => Nat.le_antisymm h1 h2)
    (npRepeat_pairwise hT _) hL
  rw [List.perm_iff_count]
  intro a
  rw [npRepeat_count hn]
  split
  · rfl
  · next h => exact (List.count_eq_zero.2 (fun hm => h (hs a hm))).symm

theorem exclSums_length (acc : Nat) (ns : List Nat) : (exclSums acc ns).length = ns.length := by
  induction ns generalizing acc with
  | nil => rfl
  | cons n ns ih => simp [exclSums, ih]

theorem exclSums_head (acc : Nat) (ns : List Nat) : (exclSums acc ns).head? = if ns = [] then none else some acc := by
  cases ns <;> simp [exclSums]

theorem exclSums_contiguous (acc : Nat) (ns : List Nat) : Contiguous (exclSums acc ns) ns := by
  induction ns generalizing acc with
  | nil => intro i a n b h; simp [exclSums] at h
  | cons n ns ih =>
    intro i a m b h1 h2 h3
    cases i with
    | zero =>
      simp [exclSums] at h1 h2 h3
      cases ns with
      | nil => simp [exclSums] at h3
      | cons k ns => simp [exclSums] at h3; omega
    | succ i => exact ih (acc + n) i a m b (by simpa [exclSums] using h1) (by simpa using h2) (by simpa [exclSums] using h3)

theorem exclSums_bound (acc : Nat) (ns : List Nat) : InBounds (exclSums acc ns) ns (acc + ns.sum) := by
  induction ns generalizing acc with
  | nil => intro i a n h; simp [exclSums] at h
  | cons n ns ih =>
    intro i a m h1 h2
    cases i with
    | zero => simp [exclSums] at h1 h2; simp; omega
    | succ i =>
      have := ih (acc + n) i a m (by simpa [exclSums] using h1) (by simpa using h2)
      simp; omega

theorem npRepeat_length {α : Type _} (l : List α) : ∀ ns : List Nat, ns.length = l.length → (npRepeat l ns).length = ns.sum := by
  induction l with
  | nil => intro ns h; simp at h; subst h; rfl
  | cons a l ih =>
    intro ns h
    cases ns with
    | nil => simp at h
    | cons n ns => simp [npRepeat, ih ns (by simpa using h)]

theorem indexFor_counts {T L : List Nat} (hT : T.Pairwise (· < ·)) (hL : L.Pairwise (· ≤ ·)) (hs : ∀ t ∈ L, t ∈ T) :
    IndexFor T L (exclSums 0 (T.map (fun t => L.count t))) (T.map (fun t => L.count t)) := by
  have hrep := npRepeat_labels hT hL hs
  have hsum : (T.map (fun t => L.count t)).sum = L.length := by
    conv_rhs => rw [← hrep]
    exact (npRepeat_length T _ (by simp)).symm
  have hb := exclSums_bound 0 (T.map (fun t => L.count t))
  rw [Nat.zero_add, hsum] at hb
  refine ⟨by simp [exclSums_length], by simp, ?_, exclSums_contiguous _ _, ?_, hb, ?_⟩
  · intro h; rw [exclSums_head]; simp [h]
  · intro i t h; simp [h]
  · intro V rows hr t
    have l1 : (exclSums 0 (T.map (fun t => L.count t))).length = T.length := by simp [exclSums_length]
    have l2 : (T.map (fun t => L.count t)).length = T.length := by simp
    obtain ⟨z1, z2, z3⟩ := zip3_maps l1 l2
    obtain ⟨r1, -, -⟩ := contiguous_read rows (T.zip ((exclSums 0 (T.map (fun t => L.count t))).zip (T.map (fun t => L.count t)))) 0
      (by
        cases T with
        | nil => right; rfl
        | cons t T => left; rfl)
      (zip3_chain l1 l2 (exclSums_contiguous _ _)) (fun x hx => by rw [hr]; exact zip3_bound hb hx)
    rw [z1, z3, hrep, hsum] at r1
    have : slice rows 0 L.length = rows := by simp [slice, ← hr]
    rw [this] at r1
    rw [r1, indexEntries_filter, indexEntries]

/-- C36. The index made for instrument data, for labels in order. -/
theorem written_instrument_index {T L : List Nat} (hT : T.Pairwise (· < ·)) (hL : L.Pairwise (· ≤ ·))
    (hs : ∀ t ∈ L, t ∈ T) : ∃ firsts counts, generateIndex T L = .ok (firsts, counts) ∧ IndexFor T L firsts counts := by
  refine ⟨_, _, ?_, indexFor_counts hT hL hs⟩
  unfold generateIndex
  rw [if_pos]
  rw [List.all_eq_true]
  intro d _
  exact decide_eq_true (by rw [BitVec.le_def]; simp)

/-- C36. The index made for control data, for labels in order and without repetition (when there is no index for this
source yet); repeated labels are refused. -/
theorem written_control_index {T L : List Nat} (hT : T.Pairwise (· < ·)) (hL : L.Pairwise (· < ·))
    (hs : ∀ t ∈ L, t ∈ T) {w : WState V} {source : Str} (hw : w.indexes.get? source = none) :
    ∃ w' firsts counts, makeControlIndex T w source L = .ok w' ∧ w'.indexes.get? source = some (firsts, counts) ∧
      IndexFor T L firsts counts ∧ (∀ s, s ≠ source → w'.indexes.get? s = w.indexes.get? s) := by
  have hn : L.Nodup := hL.imp (fun h => Nat.ne_of_lt h)
  have hcount : T.map (fun t => if t ∈ L then 1 else 0) = T.map (fun t => L.count t) := by
    apply List.map_congr_left
    intro t _
    rw [List.Nodup.count hn]
  refine ⟨{ w with
    indexes := w.indexes.set source (exclSums 0 (T.map (fun t => L.count t)), T.map (fun t => L.count t)),
    sources := setAdd w.sources (ch! "CONTROL/" ++ source) },
    exclSums 0 (T.map (fun t => L.count t)), T.map (fun t => L.count t), ?_, ?_, ?_, ?_⟩
  · unfold makeControlIndex
    rw [hw]
    simp only
    rw [if_neg (by rw [hn.dedup]; simp), hcount]
  · simp [Dict.get?_set]
  · exact indexFor_counts hT (hL.imp (fun h => Nat.le_of_lt h)) hs
  · intro s h; simp [Dict.get?_set, Ne.symm h]

/-- C36. Control data with two entries for one train is refused. -/
theorem control_index_duplicates {T L : List Nat} {w : WState V} {source : Str} (hw : w.indexes.get? source = none)
    (hL : ¬ L.Nodup) : makeControlIndex T w source L = .error .assertion := by
  unfold makeControlIndex
  rw [hw]
  simp only
  rw [if_pos]
  intro h
  exact hL (List.dedup_eq_self.1 ((List.dedup_sublist L).eq_of_length h))

example : ∃ firsts counts, generateIndex [1, 2, 5] [1, 1, 5] = .ok (firsts, counts) ∧ IndexFor [1, 2, 5] [1, 1, 5] firsts counts :=
  written_instrument_index (by decide) (by decide) (by decide)

example : generateIndex [1, 2, 5] [1, 1, 5] = .ok ([0, 2, 2], [2, 0, 1]) := by decide

/-- The check for labels out of order never fails, since the differences are unsigned. For such labels the
index is wrong: here the last entry (20) belongs to train 2 and entry 12 to train 3, but the index gives train 2 entry 12. -/
theorem index_order_unchecked (T L : List Nat) : ∃ ix, generateIndex T L = .ok ix := by
  unfold generateIndex
  rw [if_pos (by rw [List.all_eq_true]; intro d _; exact decide_eq_true (by rw [BitVec.le_def]; simp))]
  exact ⟨_, rfl⟩

theorem index_out_of_order_wrong :
    generateIndex [1, 2, 3] [1, 1, 3, 2] = .ok ([0, 2, 3], [2, 1, 1]) ∧
    indexEntries [1, 2, 3] [0, 2, 3] [2, 1, 1] [10, 11, 12, 20] 2 = [12] := by decide

end KD
