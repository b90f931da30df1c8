/- Property C54: what is made of a pulse selection. -/
import Verif.Lemmas.DetArray

set_option linter.unusedSimpArgs false

namespace KD
open Spec

theorem getD_good {b : Bound} {x : Int} (h : GoodBound b) : b.getD x = some (boundValue b x) := by
  cases b <;> simp_all [GoodBound, Bound.getD, boundValue]

theorem getD_bad {b : Bound} {x : Int} (h : ¬ GoodBound b) : b.getD x = none := by
  cases b <;> simp_all [GoodBound, Bound.getD]

/-- C54. A slice of pulses is refused with TypeError if a bound is neither None nor an integer, otherwise with ValueError
if the step is below 1, otherwise with NotImplementedError if a bound is negative; any other slice is accepted. -/
theorem pulse_slice_refused (libs : Libs) (id : Bool) (start stop step : Bound) :
    let r := checkPulses libs (.by_ id (.slice start stop step))
    let good := GoodBound start ∧ GoodBound stop ∧ GoodBound step
    let negative := boundValue start 0 < 0 ∨ boundValue stop 0 < 0
    (r = .error .type ↔ ¬ good) ∧
    (r = .error .value ↔ good ∧ boundValue step 1 < 1) ∧
    (r = .error .notImplemented ↔ good ∧ ¬ boundValue step 1 < 1 ∧ negative) ∧
    ((∃ ps, r = .ok ps) ↔ good ∧ ¬ boundValue step 1 < 1 ∧ ¬ negative) := by
  have hstop : boundValue stop (maxPulses : Int) < 0 ↔ boundValue stop 0 < 0 := by
    cases stop <;> simp [boundValue, maxPulses]
  intro r good negative
  by_cases h1 : GoodBound start
  · by_cases h2 : GoodBound stop
    · by_cases h3 : GoodBound step
      · have hg : good := ⟨h1, h2, h3⟩
        have hr : r = if boundValue step 1 < 1 then .error .value
            else if negative then .error .notImplemented
            else .ok ⟨id, .slice (boundValue start 0).toNat (boundValue stop maxPulses).toNat (boundValue step 1).toNat⟩ := by
          show checkPulses libs _ = _
          simp only [checkPulses, getD_good h1, getD_good h2, getD_good h3, hstop]
          rfl
        rw [hr]
        by_cases e1 : boundValue step 1 < 1
        · simp [e1, hg]
        · by_cases e2 : negative
          · simp [e1, hg, e2]
          · simp [e1, hg, e2]
      · have hg : ¬ good := fun h => h3 h.2.2
        have hr : r = .error .type := by
          show checkPulses libs _ = _
          simp only [checkPulses, getD_good h1, getD_good h2, getD_bad h3]
        rw [hr]; simp [hg]
    · have hg : ¬ good := fun h => h2 h.2.1
      have hr : r = .error .type := by
        show checkPulses libs _ = _
        simp only [checkPulses, getD_good h1, getD_bad h2]
      rw [hr]; simp [hg]
  · have hg : ¬ good := fun h => h1 h.1
    have hr : r = .error .type := by
      show checkPulses libs _ = _
      simp only [checkPulses, getD_bad h1]
    rw [hr]; simp [hg]

example : checkPulses ⟨true, true⟩ (.by_ true (.slice .none (.int 5) (.int 0))) = .error .value ∧
    checkPulses ⟨true, true⟩ (.by_ false (.slice (.int (-1)) .none .none)) = .error .notImplemented ∧
    checkPulses ⟨true, true⟩ (.by_ false (.slice .none .other .none)) = .error .type ∧
    checkPulses ⟨true, true⟩ (.by_ false (.slice .none .none (.int 2))) = .ok ⟨false, .slice 0 2700 2⟩ := by decide

/-- The numbers below 2700 wanted by a normalised slice are those in the slice given. -/
theorem checkPulses_slice {libs : Libs} {id : Bool} {start stop step : Bound} {ps : Pulses}
    (h : checkPulses libs (.by_ id (.slice start stop step)) = .ok ps) :
    ∃ a b s, ps = ⟨id, .slice a b s⟩ ∧ 0 < s ∧
      ∀ n < 2700, (a ≤ n ∧ n < b ∧ (n - a) % s = 0) ↔ InSlice start stop step n := by
  obtain ⟨⟨g1, g2, g3⟩, h1, h2⟩ := (pulse_slice_refused libs id start stop step).2.2.2.1 ⟨ps, h⟩
  have hstop : ¬ boundValue stop (maxPulses : Int) < 0 := by
    intro hc
    apply h2
    right
    cases stop <;> simp_all [boundValue, maxPulses]
  have h2' : ¬ boundValue start 0 < 0 := fun hc => h2 (Or.inl hc)
  simp only [checkPulses, getD_good g1, getD_good g2, getD_good g3] at h
  rw [if_neg h1, if_neg (by tauto)] at h
  obtain rfl := Except.ok.inj h
  refine ⟨_, _, _, rfl, by omega, fun n hn => ?_⟩
  unfold InSlice
  have e3 : (∀ b, stop = .int b → (n : Int) < b) ↔ (n : Int) < boundValue stop maxPulses := by
    cases stop
    · simp [boundValue, maxPulses]; omega
    · simp [boundValue]
    · simp [GoodBound] at g2
  rw [e3]
  generalize boundValue start 0 = a at *
  generalize boundValue stop maxPulses = b at *
  generalize boundValue step 1 = s at *
  obtain ⟨a, rfl⟩ := Int.eq_ofNat_of_zero_le (show 0 ≤ a by omega)
  obtain ⟨b, rfl⟩ := Int.eq_ofNat_of_zero_le (show 0 ≤ b by omega)
  obtain ⟨s, rfl⟩ := Int.eq_ofNat_of_zero_le (show 0 ≤ s by omega)
  simp only [Int.toNat_natCast]
  constructor
  · rintro ⟨e1, e2, e3⟩
    refine ⟨by omega, by omega, ?_⟩
    rw [← Int.ofNat_sub e1]
    norm_cast
  · rintro ⟨e1, e2, e3⟩
    have e1 : a ≤ n := by omega
    rw [← Int.ofNat_sub e1] at e3
    exact ⟨e1, by omega, by norm_cast at e3⟩

/-- C54. A slice of pulses which is accepted becomes one with integer bounds which means the same for the pulses 0 to 2699. -/
theorem pulse_slice_normalised {libs : Libs} {id : Bool} {start stop step : Bound} {ps : Pulses}
    (h : checkPulses libs (.by_ id (.slice start stop step)) = .ok ps) :
    ∃ a b s : Nat, ps = ⟨id, .slice a b s⟩ ∧ 0 < s ∧
      ∀ n < 2700, InSlice (.int a) (.int b) (.int s) n ↔ InSlice start stop step n := by
  obtain ⟨a, b, s, h1, h2, h3⟩ := checkPulses_slice h
  refine ⟨a, b, s, h1, h2, fun n hn => ?_⟩
  rw [← h3 n hn]
  unfold InSlice
  simp only [boundValue, Bound.int.injEq, forall_eq']
  constructor
  · rintro ⟨e1, e2, e3⟩
    have e1 : a ≤ n := by omega
    rw [← Int.ofNat_sub e1] at e3
    exact ⟨e1, by omega, by norm_cast at e3⟩
  · rintro ⟨e1, e2, e3⟩
    refine ⟨by omega, by omega, ?_⟩
    rw [← Int.ofNat_sub e1]
    norm_cast

/-- C54. Pulse numbers which are not negative (and fit in 64 bits) are taken as they are: a list, or a single one. -/
theorem pulse_list_normalised (libs : Libs) (id : Bool) (l : List Int) (h : ∀ i ∈ l, 0 ≤ i ∧ i < 2 ^ 64) :
    checkPulses libs (.by_ id (.list l)) = .ok ⟨id, .list (l.map Int.toNat)⟩ ∧
    ∀ i, l = [i] → checkPulses libs (.by_ id (.int i)) = .ok ⟨id, .list [i.toNat]⟩ := by
  have hm : mapE (castU64 libs) l = .ok (l.map Int.toNat) :=
    mapE_ok_of_forall (fun i hi => castU64_ok (h i hi).1 (h i hi).2)
  refine ⟨by simp only [checkPulses, hm], ?_⟩
  rintro i rfl
  have := h i (by simp)
  simp only [checkPulses, castU64_ok this.1 this.2]

/-- C54, in part: a negative pulse number is refused, if numpy refuses to convert negative integers to unsigned ones
(otherwise see `pulse_negative_wrong`). Missing: with older versions of numpy it is not refused. -/
theorem pulse_negative_refused_partial (libs : Libs) (hs : libs.strictInts = true) (id : Bool) (l : List Int)
    (h : ∃ i ∈ l, i < 0) (hsmall : ∀ i ∈ l, i < 2 ^ 64) : checkPulses libs (.by_ id (.list l)) = .error .overflow ∧
    ∀ i, l = [i] → checkPulses libs (.by_ id (.int i)) = .error .overflow := by
  have key : ∀ l : List Int, (∃ i ∈ l, i < 0) → (∀ i ∈ l, i < 2 ^ 64) → mapE (castU64 libs) l = .error .overflow := by
    intro l
    induction l with
    | nil => simp
    | cons a l ih =>
      rintro ⟨i, hi, hneg⟩ hsm
      by_cases ha : a < 0
      · simp only [mapE, castU64, if_pos ha, hs, true_or, if_true]
      · have hi' : i ∈ l := by
          simp only [List.mem_cons] at hi
          rcases hi with rfl | hi
          · exact absurd hneg ha
          · exact hi
        have ha2 := hsm a (by simp)
        simp only [mapE, castU64_ok (libs := libs) (show 0 ≤ a by omega) ha2,
          ih ⟨i, hi', hneg⟩ (fun j hj => hsm j (by simp [hj]))]
  refine ⟨by simp only [checkPulses, key l h hsmall], ?_⟩
  rintro i rfl
  obtain ⟨j, hj, hneg⟩ := h
  rw [List.mem_singleton] at hj
  subst hj
  simp only [checkPulses, castU64, if_pos hneg, hs, true_or, if_true]

example : checkPulses ⟨true, true⟩ (.by_ true (.list [3, -1])) = .error .overflow :=
  (pulse_negative_refused_partial _ rfl true [3, -1] ⟨-1, by simp, by omega⟩ (by simp)).1

/-- C54 is wrong with versions of numpy in which negative integers wrap around: the check for negative pulse numbers comes
after the conversion to unsigned integers, so -1 is accepted, and means 18446744073709551615. -/
theorem pulse_negative_wrong :
    checkPulses ⟨false, true⟩ (.by_ true (.list [-1])) = .ok ⟨true, .list [18446744073709551615]⟩ := by decide

/-- A number which cannot be made a 64-bit unsigned integer by this version of numpy: too large, too far below zero, or below zero if
negative numbers do not wrap around. -/
def Spec.NoU64 (libs : Libs) (i : Int) : Prop := 2 ^ 64 ≤ i ∨ i < -2 ^ 63 ∨ (libs.strictInts = true ∧ i < 0)

/-- C54, lists and single numbers, in all cases: OverflowError if a number cannot be made a 64-bit unsigned integer; otherwise each
number is taken modulo 2^64 (so that only negative ones change). -/
theorem pulse_list_exact (libs : Libs) (id : Bool) (l : List Int) :
    ((∃ i ∈ l, Spec.NoU64 libs i) → checkPulses libs (.by_ id (.list l)) = .error .overflow) ∧
    ((∀ i ∈ l, ¬ Spec.NoU64 libs i) → checkPulses libs (.by_ id (.list l)) = .ok ⟨id, .list (l.map (fun i => (i % 2 ^ 64).toNat))⟩) ∧
    ∀ i, checkPulses libs (.by_ id (.int i)) = checkPulses libs (.by_ id (.list [i])) := by
  have h1 : ∀ i, Spec.NoU64 libs i → castU64 libs i = .error .overflow := by
    intro i h
    unfold Spec.NoU64 at h
    unfold castU64
    by_cases hi : i < 0
    · rw [if_pos hi, if_pos]
      rcases h with h | h | h
      · omega
      · exact Or.inr h
      · exact Or.inl h.1
    · rw [if_neg hi, if_neg]
      rcases h with h | h | h <;> omega
  have h2 : ∀ i, ¬ Spec.NoU64 libs i → castU64 libs i = .ok (i % 2 ^ 64).toNat := by
    intro i h
    unfold Spec.NoU64 at h
    push Not at h
    unfold castU64
    by_cases hi : i < 0
    · rw [if_pos hi, if_neg]
      · congr 2
        omega
      · rintro (h' | h')
        · have := h.2.2 h'; omega
        · omega
    · rw [if_neg hi, if_pos h.1]
      congr 2
      omega
  have key : ∀ l : List Int, (∃ i ∈ l, Spec.NoU64 libs i) → mapE (castU64 libs) l = .error .overflow := by
    intro l
    induction l with
    | nil => simp
    | cons a l ih =>
      rintro ⟨i, hi, hn⟩
      by_cases ha : Spec.NoU64 libs a
      · simp only [mapE, h1 a ha]
      · rcases List.mem_cons.1 hi with rfl | hi
        · exact absurd hn ha
        · simp only [mapE, h2 a ha, ih ⟨i, hi, hn⟩]
  refine ⟨fun h => by simp only [checkPulses, key l h], fun h => ?_, fun i => ?_⟩
  · simp only [checkPulses]
    rw [mapE_ok_of_forall (fun i hi => h2 i (h i hi))]
  · by_cases hi : Spec.NoU64 libs i
    · simp only [checkPulses, mapE, h1 i hi]
    · simp only [checkPulses, mapE, h2 i hi]

example : checkPulses ⟨false, true⟩ (.by_ true (.list [3, 2 ^ 64])) = .error .overflow ∧
    checkPulses ⟨false, true⟩ (.by_ false (.int (-2))) = .ok ⟨false, .list [2 ^ 64 - 2]⟩ := by decide

/-- C54. Anything else than `by_id[...]` or `by_index[...]` is refused with TypeError. -/
theorem pulse_other_refused (libs : Libs) : checkPulses libs .other = .error .type := rfl

/-- C54. An accepted selection asks for the pulses the user asks for: for frame number `k` with the pulse ID `p`, both below
2700. -/
theorem checkPulses_asked {libs : Libs} {arg : PulseArg} {ps : Pulses} (h : checkPulses libs arg = .ok ps) {k p : Nat}
    (hk : k < 2700) (hp : p < 2700) : AskedSet ps k p ↔ Asked arg k p := by
  have red : AskedSet ps k p ↔ (if ps.byId then p else k) ∈ ps.set.desired := by
    unfold AskedSet
    constructor
    · rintro (h1 | h1)
      · rw [h1]
        simp only [PulseSet.desired]
        rw [mem_arange (by omega)]
        refine ⟨by omega, ?_, by omega⟩
        unfold maxPulses
        split <;> omega
      · exact h1
    · exact Or.inr
  rw [red]
  cases arg with
  | other => simp [checkPulses] at h
  | by_ id val =>
    cases val with
    | slice start stop step =>
      obtain ⟨a, b, s, rfl, hs, hin⟩ := checkPulses_slice h
      simp only [PulseSet.desired, Asked]
      rw [mem_arange hs]
      exact hin _ (by split <;> omega)
    | int i =>
      simp only [checkPulses] at h
      split at h
      · simp at h
      · rename_i n hn
        obtain rfl := Except.ok.inj h
        simp only [PulseSet.desired, Asked, List.mem_singleton]
        exact castU64_one hn (by split <;> omega)
    | list l =>
      simp only [checkPulses] at h
      split at h
      · simp at h
      · rename_i ns hn
        obtain rfl := Except.ok.inj h
        simp only [PulseSet.desired, Asked]
        exact castU64_mem hn (by split <;> omega)

end KD
