/-
Properties C18 to C21, C23: selecting trains by ID and by index, and finding runs of selected trains.
-/
import Verif.Lemmas.Trains
import Verif.Lemmas.Regions

namespace KD
open Spec

/-! ### C23: contiguous regions -/

/-- C23. For a non-empty mask, the regions are exactly the maximal runs of selected positions, in increasing order. -/
theorem contiguousRegions_exact (m : List Bool) (hm : m ≠ []) :
    ∃ rs, contiguousRegions m = .ok rs ∧ rs.Pairwise (fun r s => r.2 < s.1) ∧
      ∀ a b, (a, b) ∈ rs ↔ IsMaximalRun m a b := by
  refine ⟨runs none 0 m, contiguousRegions_eq_runs m hm, (runs_pairwise m 0).1, fun a b => ?_⟩
  rw [(mem_runs m m 0 (Nat.zero_le _) (by simp)).1 (.inl rfl)]
  simp

example : contiguousRegions [true, false, true, true] = .ok [(0, 1), (2, 4)] := by decide

/-- C23. The regions cover exactly the selected positions. -/
theorem contiguousRegions_cover (m : List Bool) (rs : List (Nat × Nat)) (h : contiguousRegions m = .ok rs) (i : Nat) :
    m[i]? = some true ↔ ∃ r ∈ rs, r.1 ≤ i ∧ i < r.2 := by
  have hm : m ≠ [] := by rintro rfl; simp [contiguousRegions] at h
  obtain ⟨rs', h1, -, h3⟩ := contiguousRegions_exact m hm
  have : rs' = rs := by simpa [h] using h1.symm
  subst this
  constructor
  · intro hi
    have hlt : i < m.length := (List.getElem?_eq_some_iff.1 hi).1
    -- extend the run around i to both sides
    have left : ∀ k, k ≤ i → (∀ j, i - k ≤ j → j ≤ i → m[j]? = some true) →
        ∃ a, a ≤ i ∧ (∀ j, a ≤ j → j ≤ i → m[j]? = some true) ∧ (a = 0 ∨ m[a - 1]? = some false) := by
      intro k hk
      induction hn : i - k generalizing k with
      | zero => intro h; exact ⟨0, by omega, by simpa using h, .inl rfl⟩
      | succ n ih =>
        intro h
        cases hv : m[n]? with
        | none => rw [List.getElem?_eq_none_iff] at hv; omega
        | some v =>
          cases v
          · exact ⟨n + 1, by omega, h, .inr (by simpa using hv)⟩
          · refine ih (k + 1) (by omega) (by omega) (fun j h1 h2 => ?_)
            rcases Nat.eq_or_lt_of_le h1 with h3 | h3
            · rw [← h3]; exact hv
            · exact h j (by omega) h2
    have right : ∀ k, ∀ b, b + k = m.length → i < b → (∀ j, i ≤ j → j < b → m[j]? = some true) →
        ∃ b, i < b ∧ b ≤ m.length ∧ (∀ j, i ≤ j → j < b → m[j]? = some true) ∧
          (b = m.length ∨ m[b]? = some false) := by
      intro k
      induction k with
      | zero => intro b hb h1 h2; exact ⟨b, h1, by omega, h2, .inl (by omega)⟩
      | succ k ih =>
        intro b hb h1 h2
        cases hv : m[b]? with
        | none => rw [List.getElem?_eq_none_iff] at hv; omega
        | some v =>
          cases v
          · exact ⟨b, h1, by omega, h2, .inr hv⟩
          · refine ih (b + 1) (by omega) (by omega) (fun j h3 h4 => ?_)
            rcases Nat.lt_or_ge j b with h5 | h5
            · exact h2 j h3 h5
            · have : j = b := by omega
              subst this; exact hv
    obtain ⟨a, ha1, ha2, ha3⟩ := left 0 (by omega) (fun j h1 h2 => by
      have : j = i := by omega
      subst this; exact hi)
    obtain ⟨b, hb1, hb2, hb3, hb4⟩ := right (m.length - (i + 1)) (i + 1) (by omega) (by omega) (fun j h1 h2 => by
      have : j = i := by omega
      subst this; exact hi)
    refine ⟨(a, b), (h3 a b).2 ⟨by omega, hb2, fun j h1 h2 => ?_, ha3, hb4⟩, ha1, hb1⟩
    rcases Nat.le_total j i with h | h
    · exact ha2 j h1 h
    · exact hb3 j h h2
  · rintro ⟨⟨a, b⟩, hr, h1, h2⟩
    exact ((h3 a b).1 hr).2.2.1 i h1 h2

/-- The only case without an answer: an empty mask is an IndexError. -/
theorem contiguousRegions_empty : contiguousRegions [] = .error .index := rfl

/-! ### C19: slicing by index -/

/-- C19. `select_trains(by_index[start:stop:step])` with a positive (or absent) step keeps the trains at the positions
which Python's slice rules select, in order. -/
theorem select_trains_by_index_slice_up (ts : List Nat) (start stop step : Option Int) (hst : 0 < step.getD 1) :
    ∃ ps : List Nat, selectTrainIds ts (.indexSlice start stop step) = .ok (ps.filterMap (fun i => ts[i]?)) ∧
      ps.Pairwise (· < ·) ∧ ∀ p, p ∈ ps ↔ InSliceUp start stop (step.getD 1) ts.length p := by
  obtain ⟨ps, h1, h2, h3⟩ := slicePositions_up start stop step ts.length hst
  exact ⟨ps, by simp [selectTrainIds, pySlice, h1], h2, h3⟩

example : selectTrainIds [10, 20, 30, 40, 50] (.indexSlice (some (-4)) none (some 2)) = .ok [20, 40] := by decide

/-- C19, negative steps: the selected positions in decreasing order. -/
theorem select_trains_by_index_slice_down (ts : List Nat) (start stop : Option Int) (step : Int) (hst : step < 0) :
    ∃ ps : List Nat, selectTrainIds ts (.indexSlice start stop (some step)) = .ok (ps.filterMap (fun i => ts[i]?)) ∧
      ps.Pairwise (· > ·) ∧ ∀ p, p ∈ ps ↔ InSliceDown start stop step ts.length p := by
  obtain ⟨ps, h1, h2, h3⟩ := slicePositions_down start stop step ts.length hst
  exact ⟨ps, by simp [selectTrainIds, pySlice, h1], h2, h3⟩

example : selectTrainIds [10, 20, 30, 40, 50] (.indexSlice none (some 0) (some (-2))) = .ok [50, 30] := by decide

/-- C19. A zero step is a ValueError. -/
theorem select_trains_by_index_slice_zero (ts : List Nat) (start stop : Option Int) :
    selectTrainIds ts (.indexSlice start stop (some 0)) = .error .value := by
  simp [selectTrainIds, pySlice, slicePositions_zero]

/-! ### C18: slicing by train ID -/

/-- C18 (partial: bounds which are plain Python integers must not lie in a gap, see
`select_trains_by_id_gap_type_error`). `select_trains(by_id[a:b])` keeps exactly the trains with
`a <= ID < b`, in order (every `step`-th of them if a step is given). -/
theorem select_trains_by_id_slice_partial (ts : List Nat) (hs : ts.Pairwise (· < ·)) (hne : ts ≠ [])
    (start stop : Option TidBound) (step : Option Int) (hstep : 0 < step.getD 1)
    (hstart : ∀ b, start = some b → b.numpy = true ∨ ¬ InGap ts b.val)
    (hstop : ∀ b, stop = some b → b.numpy = true ∨ ¬ InGap ts b.val)
    (hsok : ∀ b, start = some b → ∃ t ∈ ts, b.val ≤ (t : Int))
    (heok : ∀ b, stop = some b → ∃ t ∈ ts, (t : Int) ≤ b.val) :
    selectTrainIds ts (.idSlice start stop step) =
      .ok (everyNth (step.getD 1).toNat
        (ts.filter (fun t => InIdRange (start.map TidBound.val) (stop.map TidBound.val) t))) := by
  have h1 : ∃ o, tidToSliceIx start ts false = .ok o := by
    cases start with
    | none => exact ⟨none, rfl⟩
    | some b =>
      have := tidToSliceIx_ok hs hne false b (hstart b rfl)
      obtain ⟨t, ht, hle⟩ := hsok b rfl
      have hno : ¬ ∀ t ∈ ts, (t : Int) < b.val := fun h => by have := h t ht; omega
      simpa [if_neg hno] using this
  have h2 : ∃ o, tidToSliceIx stop ts true = .ok o := by
    cases stop with
    | none => exact ⟨none, rfl⟩
    | some b =>
      have := tidToSliceIx_ok hs hne true b (hstop b rfl)
      obtain ⟨t, ht, hle⟩ := heok b rfl
      have hno : ¬ ∀ t ∈ ts, b.val < (t : Int) := fun h => by have := h t ht; omega
      simpa [if_neg hno] using this
  obtain ⟨o1, ho1⟩ := h1
  obtain ⟨o2, ho2⟩ := h2
  simp only [selectTrainIds, ho1, ho2, pySlice]
  obtain ⟨ps, hps, hpw, hmem⟩ := slicePositions_up (o1.map Int.ofNat) (o2.map Int.ofNat) step ts.length hstep
  simp only [hps, Except.ok.injEq]
  have hA := tidToSliceIx_start hs ho1
  have hB := tidToSliceIx_stop hs ho2
  have hF : ts.filter (fun t => InIdRange (start.map TidBound.val) (stop.map TidBound.val) t) =
      sl ts (o1.getD 0) (o2.getD ts.length) := by
    apply filter_eq_sl _ _ hs
    intro j hj
    rw [decide_eq_true_eq]
    exact and_congr (hA j hj).symm (hB j hj).symm
  rw [hF]
  apply eq_of_pairwise_lt (filterMap_getElem_pairwise hs hpw)
  · exact everyNth_pairwise (hs.sublist ((List.take_sublist _ _).trans (List.drop_sublist _ _)))
  intro t
  rw [mem_everyNth]
  simp only [List.mem_filterMap, hmem]
  have hk : ((step.getD 1).toNat : Int) = step.getD 1 := Int.toNat_of_nonneg (by omega)
  -- positions in the slice, spelled out
  have hpos : ∀ p, InSliceUp (o1.map Int.ofNat) (o2.map Int.ofNat) (step.getD 1) ts.length p ↔
      p < ts.length ∧ o1.getD 0 ≤ p ∧ (p - o1.getD 0) % (step.getD 1).toNat = 0 ∧ p < o2.getD ts.length := by
    intro p
    exact inSliceUp_nat o1 o2 _ hstep ts.length p
  constructor
  · rintro ⟨p, hp, he⟩
    obtain ⟨a, b, c, d⟩ := (hpos p).1 hp
    refine ⟨p - o1.getD 0, ?_, c⟩
    simp only [sl, List.getElem?_take, List.getElem?_drop]
    rw [if_pos (by omega)]
    have : o1.getD 0 + (p - o1.getD 0) = p := by omega
    rw [this]; exact he
  · rintro ⟨q, hq, hmod⟩
    simp only [sl, List.getElem?_take, List.getElem?_drop] at hq
    split at hq
    · have hlt := (List.getElem?_eq_some_iff.1 hq).1
      refine ⟨o1.getD 0 + q, (hpos _).2 ⟨hlt, by omega, ?_, by omega⟩, hq⟩
      have : o1.getD 0 + q - o1.getD 0 = q := by omega
      rw [this]; exact hmod
    · simp at hq

example : selectTrainIds [10, 20, 30, 40] (.idSlice (some ⟨15, true⟩) (some ⟨40, false⟩) none) = .ok [20, 30] := by
  decide

example : ¬ InGap [10, 20, 30, 40] 40 := by simp [InGap]

/-- C18, the common form without a step. -/
theorem select_trains_by_id_range_partial (ts : List Nat) (hs : ts.Pairwise (· < ·)) (hne : ts ≠ [])
    (start stop : Option TidBound)
    (hstart : ∀ b, start = some b → b.numpy = true ∨ ¬ InGap ts b.val)
    (hstop : ∀ b, stop = some b → b.numpy = true ∨ ¬ InGap ts b.val)
    (hsok : ∀ b, start = some b → ∃ t ∈ ts, b.val ≤ (t : Int))
    (heok : ∀ b, stop = some b → ∃ t ∈ ts, (t : Int) ≤ b.val) :
    selectTrainIds ts (.idSlice start stop none) =
      .ok (ts.filter (fun t => InIdRange (start.map TidBound.val) (stop.map TidBound.val) t)) := by
  rw [select_trains_by_id_slice_partial ts hs hne start stop none (by decide) hstart hstop hsok heok]
  simp only [Option.getD_none]
  exact congrArg Except.ok (everyNth_one _)

/-- C18, errors: ValueError if the range ends before the first train or starts after the last
(with the start examined first; the other bound must not be a Python integer in a gap). -/
theorem select_trains_by_id_value_error (ts : List Nat) (hs : ts.Pairwise (· < ·)) (hne : ts ≠ [])
    (start stop : Option TidBound) (step : Option Int)
    (hstart : ∀ b, start = some b → b.numpy = true ∨ ¬ InGap ts b.val)
    (hout : (∃ b, start = some b ∧ ∀ t ∈ ts, (t : Int) < b.val) ∨
      (∃ b, stop = some b ∧ ∀ t ∈ ts, b.val < (t : Int))) :
    selectTrainIds ts (.idSlice start stop step) = .error .value := by
  have key : (∃ b, start = some b ∧ ∀ t ∈ ts, (t : Int) < b.val) ∨ ∃ o, tidToSliceIx start ts false = .ok o := by
    cases start with
    | none => exact .inr ⟨none, rfl⟩
    | some b =>
      by_cases h : ∀ t ∈ ts, (t : Int) < b.val
      · exact .inl ⟨b, rfl, h⟩
      · have := tidToSliceIx_ok hs hne false b (hstart b rfl)
        exact .inr (by simpa [if_neg h] using this)
  have hpos : 0 < ts.length := List.length_pos_iff.2 hne
  rcases key with ⟨b, rfl, hb⟩ | ⟨o, ho⟩
  · have hng : ¬ InGap ts b.val := fun h => by
      obtain ⟨-, ⟨t, ht, hlt⟩, -⟩ := h
      have := hb t ht; omega
    have := tidToSliceIx_ok hs hne false b (.inr hng)
    simp only [Bool.false_eq_true, if_false, if_pos hb] at this
    simp [selectTrainIds, this]
  · have hstop : ∃ b, stop = some b ∧ ∀ t ∈ ts, b.val < (t : Int) := by
      rcases hout with ⟨b, rfl, hb⟩ | h
      · have hng : ¬ InGap ts b.val := fun h => by
          obtain ⟨-, ⟨t, ht, hlt⟩, -⟩ := h
          have := hb t ht; omega
        have := tidToSliceIx_ok hs hne false b (.inr hng)
        simp only [Bool.false_eq_true, if_false, if_pos hb] at this
        rw [this] at ho; simp at ho
      · exact h
    obtain ⟨b, rfl, hb⟩ := hstop
    have hng : ¬ InGap ts b.val := fun h => by
      obtain ⟨⟨t, ht, hlt⟩, -⟩ := h
      have := hb t ht; omega
    have := tidToSliceIx_ok hs hne true b (.inr hng)
    simp only [if_true, if_pos hb] at this
    simp [selectTrainIds, ho, this]

example : selectTrainIds [10, 20, 30] (.idSlice none (some ⟨5, false⟩) none) = .error .value := by decide
example : selectTrainIds [10, 20, 30] (.idSlice (some ⟨31, false⟩) none none) = .error .value := by decide

theorem tidToSliceIx_gap {ts : List Nat} (hs : ts.Pairwise (· < ·)) {b : TidBound} (stop : Bool) (hnp : b.numpy = false)
    (hgap : InGap ts b.val) : tidToSliceIx (some b) ts stop = .error .type := by
  obtain ⟨⟨t1, ht1, hlt1⟩, ⟨t2, ht2, hlt2⟩, hall⟩ := hgap
  have hne : ts ≠ [] := List.ne_nil_of_mem ht1
  have hpos : 0 < ts.length := List.length_pos_iff.2 hne
  obtain ⟨f, hf⟩ : ∃ f, ts.head? = some f := by cases ts <;> simp_all
  obtain ⟨l, hl⟩ : ∃ l, ts.getLast? = some l := ⟨_, List.getLast?_eq_some_getLast hne⟩
  have hf' : ts[0] = f := by
    cases ts with
    | nil => simp at hpos
    | cons a t => simpa using hf
  have hl' : ts[ts.length - 1]'(by omega) = l := by
    rw [List.getLast?_eq_some_getLast hne] at hl
    rw [← List.getLast_eq_getElem hne]; simpa using hl
  have h1 : ¬ b.val < f := by
    obtain ⟨j, hj, rfl⟩ := List.getElem_of_mem ht1
    have := sorted_lt hs hj hpos
    omega
  have h2 : ¬ b.val > l := by
    obtain ⟨j, hj, rfl⟩ := List.getElem_of_mem ht2
    have := sorted_lt hs (show ts.length - 1 < ts.length by omega) hj
    omega
  simp [tidToSliceIx, indexOf?_none.2 hall, hf, hl, h1, h2, hnp]

/-- C18 fails in the code as it is: a range starting at a missing ID given as a plain Python integer
raises TypeError, for every list of trains with a gap. -/
theorem select_trains_by_id_gap_type_error (ts : List Nat) (hs : ts.Pairwise (· < ·)) (b : TidBound)
    (stop : Option TidBound) (step : Option Int) (hnp : b.numpy = false) (hgap : InGap ts b.val) :
    selectTrainIds ts (.idSlice (some b) stop step) = .error .type := by
  simp [selectTrainIds, tidToSliceIx_gap hs false hnp hgap]

example : selectTrainIds [10, 20, 30] (.idSlice (some ⟨15, false⟩) none none) = .error .type := by decide

/-- C18, all cases. The start is examined first: ValueError if it is after all trains, TypeError if it is a plain Python
integer in a gap. Then the stop: ValueError if it is before all trains, TypeError if it is a plain Python integer in a gap.
In all other cases the trains in the range are selected. -/
theorem select_trains_by_id_outcome (ts : List Nat) (hs : ts.Pairwise (· < ·)) (hne : ts ≠ [])
    (start stop : Option TidBound) (step : Option Int) (hstep : 0 < step.getD 1) :
    (StartsAfter ts start → selectTrainIds ts (.idSlice start stop step) = .error .value) ∧
    (PlainGap ts start → selectTrainIds ts (.idSlice start stop step) = .error .type) ∧
    (¬ StartsAfter ts start → ¬ PlainGap ts start →
      (EndsBefore ts stop → selectTrainIds ts (.idSlice start stop step) = .error .value) ∧
      (PlainGap ts stop → selectTrainIds ts (.idSlice start stop step) = .error .type) ∧
      (¬ EndsBefore ts stop → ¬ PlainGap ts stop → selectTrainIds ts (.idSlice start stop step) =
        .ok (everyNth (step.getD 1).toNat
          (ts.filter (fun t => InIdRange (start.map TidBound.val) (stop.map TidBound.val) t))))) := by
  have plain : ∀ {o : Option TidBound}, ¬ PlainGap ts o → ∀ b, o = some b → b.numpy = true ∨ ¬ InGap ts b.val := by
    intro o h b hb
    by_cases hn : b.numpy = true
    · exact Or.inl hn
    · exact Or.inr (fun hg => h ⟨b, hb, by simpa using hn, hg⟩)
  refine ⟨?_, ?_, fun h1 h2 => ⟨?_, ?_, fun h3 h4 => ?_⟩⟩
  · rintro ⟨b, rfl, hb⟩
    refine select_trains_by_id_value_error ts hs hne _ stop step ?_ (Or.inl ⟨b, rfl, hb⟩)
    rintro b' hb'
    obtain rfl := Option.some.inj hb'
    right
    rintro ⟨-, ⟨t, ht, hlt⟩, -⟩
    have := hb t ht
    omega
  · rintro ⟨b, rfl, hn, hg⟩
    exact select_trains_by_id_gap_type_error ts hs b stop step hn hg
  · rintro h
    exact select_trains_by_id_value_error ts hs hne start stop step (plain h2) (Or.inr h)
  · rintro ⟨b, rfl, hn, hg⟩
    have hok : ∃ o, tidToSliceIx start ts false = .ok o := by
      cases start with
      | none => exact ⟨none, rfl⟩
      | some x =>
        have h := tidToSliceIx_ok hs hne false x (plain h2 x rfl)
        have hno : ¬ ∀ t ∈ ts, (t : Int) < x.val := fun h => h1 ⟨x, rfl, h⟩
        simpa [if_neg hno] using h
    obtain ⟨o, ho⟩ := hok
    simp [selectTrainIds, ho, tidToSliceIx_gap hs true hn hg]
  · refine select_trains_by_id_slice_partial ts hs hne start stop step hstep (plain h2) (plain h4) ?_ ?_
    · rintro b rfl
      by_contra hc
      simp only [not_exists, not_and, not_le] at hc
      exact h1 ⟨b, rfl, hc⟩
    · rintro b rfl
      by_contra hc
      simp only [not_exists, not_and, not_le] at hc
      exact h3 ⟨b, rfl, hc⟩

/-- All cases occur. -/
example : StartsAfter [10, 20, 30] (some ⟨31, false⟩) ∧ PlainGap [10, 20, 30] (some ⟨15, false⟩) ∧
    EndsBefore [10, 20, 30] (some ⟨9, true⟩) ∧ ¬ PlainGap [10, 20, 30] (some ⟨15, true⟩) := by
  refine ⟨⟨_, rfl, by decide⟩, ⟨_, rfl, rfl, by decide, by decide, by decide⟩, ⟨_, rfl, by decide⟩, ?_⟩
  rintro ⟨x, hx, hn, -⟩
  obtain rfl := Option.some.inj hx
  simp at hn

/-- C18. A step of zero is a ValueError, unless a bound gives another one. -/
theorem select_trains_by_id_zero (ts : List Nat) (start stop : Option TidBound) (o1 o2 : Option Nat)
    (h1 : tidToSliceIx start ts false = .ok o1) (h2 : tidToSliceIx stop ts true = .ok o2) :
    selectTrainIds ts (.idSlice start stop (some 0)) = .error .value := by
  simp [selectTrainIds, h1, h2, pySlice, slicePositions_zero]

/-! ### C20: a list of train IDs -/

/-- C20. `by_id[list]` keeps the listed IDs present in the data, each once, in increasing order;
ValueError exactly when none is present. -/
theorem select_trains_by_id_list (ts : List Nat) (ids : List Int) :
    (selectTrainIds ts (.idList ids) = .error .value ↔ ∀ t ∈ ts, (t : Int) ∉ ids) ∧
    ((∃ t ∈ ts, (t : Int) ∈ ids) → ∃ r, selectTrainIds ts (.idList ids) = .ok r ∧
      r.Pairwise (· < ·) ∧ ∀ t, t ∈ r ↔ t ∈ ts ∧ (t : Int) ∈ ids) := by
  have hm : ∀ t, t ∈ sortedSet (ts.filter (fun (t : Nat) => (t : Int) ∈ ids)) ↔ t ∈ ts ∧ (t : Int) ∈ ids := by
    intro t; rw [mem_sortedSet]; simp
  simp only [selectTrainIds]
  constructor
  · split
    · next h =>
      simp only [true_iff]
      intro t ht hti
      rw [List.isEmpty_iff] at h
      have := (hm t).2 ⟨ht, hti⟩
      rw [h] at this; simp at this
    · next h =>
      simp only [reduceCtorEq, false_iff]
      intro hall
      apply h
      rw [List.isEmpty_iff, List.eq_nil_iff_forall_not_mem]
      intro t ht
      exact hall t ((hm t).1 ht).1 ((hm t).1 ht).2
  · rintro ⟨t, ht, hti⟩
    refine ⟨_, if_neg ?_, sortedSet_pairwise _, hm⟩
    rw [List.isEmpty_iff]
    intro h
    have := (hm t).2 ⟨ht, hti⟩
    rw [h] at this; simp at this

example : selectTrainIds [10, 20, 30] (.idList [30, 5, 10, 30]) = .ok [10, 30] := by decide

/-! ### C21: a list of train indexes -/

/-- C21. `by_index[list]` succeeds exactly when all positions are in range; then it keeps the trains at those positions,
sorted (a repeated position gives a repeated train, see C38). The only error is IndexError. -/
theorem select_trains_by_index_list (ts : List Nat) (ixs : List Int) :
    ((∀ i ∈ ixs, -(ts.length : Int) ≤ i ∧ i < ts.length) →
      ∃ picked r, selectTrainIds ts (.indexList ixs) = .ok r ∧
        List.Forall₂ (fun i t => ts[(fromEnd ts.length i).toNat]? = some t) ixs picked ∧
        r.Perm picked ∧ r.Pairwise (· ≤ ·)) ∧
    ((∃ i ∈ ixs, ¬ (-(ts.length : Int) ≤ i ∧ i < ts.length)) →
      selectTrainIds ts (.indexList ixs) = .error .index) := by
  constructor
  · intro hall
    have hok : ∀ i ∈ ixs, ∃ t, pyIndex ts i = .ok t := by
      intro i hi
      cases h : pyIndex ts i with
      | ok t => exact ⟨t, rfl⟩
      | error e => exact absurd (hall i hi) (pyIndex_error_iff.1 ⟨e, h⟩)
    obtain ⟨picked, hp⟩ := mapE_exists_ok hok
    refine ⟨picked, picked.insertionSort (· ≤ ·), by simp [selectTrainIds, hp], ?_,
      List.perm_insertionSort _ _, List.pairwise_insertionSort _ _⟩
    exact (mapE_ok_iff.1 hp).imp (fun i t h => (pyIndex_ok_iff.1 h).2)
  · rintro ⟨i, hi, hout⟩
    obtain ⟨e, he⟩ := pyIndex_error_iff.2 hout
    obtain ⟨e', he'⟩ := mapE_error_iff.2 ⟨i, hi, e, he⟩
    have hidx : ∀ l : List Int, ∀ e, mapE (pyIndex ts) l = .error e → e = .index := by
      intro l
      induction l with
      | nil => intro e h; simp at h
      | cons a l ih =>
        intro e h
        simp only [mapE] at h
        split at h
        · next e2 h2 =>
          simp at h; subst h
          rw [pyIndex_def] at h2
          split at h2
          · simpa using h2.symm
          · exact (nth_error_iff.1 h2).2
        · split at h
          · next e2 h2 => simp at h; subst h; exact ih _ h2
          · simp at h
    have := hidx ixs e' he'
    subst this
    simp [selectTrainIds, he']

example : selectTrainIds [10, 20, 30] (.indexList [-1, 0]) = .ok [10, 30] := by decide
example : selectTrainIds [10, 20, 30] (.indexList [0, 3]) = .error .index := by decide

/-- Any other argument is a TypeError (reader.py:971-972). -/
theorem select_trains_other (ts : List Nat) : selectTrainIds ts .other = .error .type := rfl

end KD
