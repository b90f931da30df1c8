/- Property C41 for large numbers: what validation reports about an index although it compares numbers as doubles. -/
import Verif.Props.Validation
import Verif.Spec.Doubles

namespace KD
open Spec

theorem double_small {n : Nat} (h : n < 2 ^ 53) : IsDouble n := ⟨n, 0, h, by simp⟩

/-- Rounding to a double gives the nearest one, ties to even. -/
theorem f64_nearest (n : Nat) : NearestDouble n (f64Nat n) := by
  by_cases hs : n < 2 ^ 53
  · rw [f64Nat_small hs]
    refine ⟨double_small hs, fun m _ => by simp [apart], fun m _ hm h => ?_⟩
    simp only [apart] at h
    omega
  · have hlog : 53 ≤ n.log2 := (Nat.le_log2 (by omega)).2 (by omega)
    have hle : 2 ^ n.log2 ≤ n := Nat.log2_self_le (by omega)
    have hlt : n < 2 ^ (n.log2 + 1) := Nat.lt_log2_self
    obtain ⟨e, he⟩ : ∃ e, n.log2 = e + 52 := ⟨n.log2 - 52, by omega⟩
    have hP : 0 < 2 ^ e := by positivity
    rw [he] at hle hlt
    rw [show e + 52 + 1 = e + 53 by omega, Nat.pow_add] at hlt
    rw [Nat.pow_add] at hle
    have hq1 : 2 ^ 52 ≤ n / 2 ^ e := by
      rw [Nat.le_div_iff_mul_le hP, Nat.mul_comm]; exact hle
    have hq2 : n / 2 ^ e < 2 ^ 53 := by
      rw [Nat.div_lt_iff_lt_mul hP, Nat.mul_comm]; exact hlt
    have hdiv := Nat.div_add_mod n (2 ^ e)
    have hmod := Nat.mod_lt n hP
    have hval : f64Nat n = (if 2 * (n % 2 ^ e) > 2 ^ e ∨ (2 * (n % 2 ^ e) = 2 ^ e ∧ n / 2 ^ e % 2 = 1) then n / 2 ^ e + 1
        else n / 2 ^ e) * 2 ^ e := by
      unfold f64Nat
      rw [if_neg hs, he]
      rfl
    generalize n / 2 ^ e = q at *
    generalize n % 2 ^ e = r at *
    -- doubles are on one side
    have hside : ∀ m, IsDouble m → m ≤ q * 2 ^ e ∨ (q + 1) * 2 ^ e ≤ m := by
      rintro m ⟨k, j, hk, rfl⟩
      by_cases hj : e ≤ j
      · obtain ⟨i, rfl⟩ := Nat.exists_eq_add_of_le hj
        rw [Nat.pow_add, Nat.mul_comm (2 ^ e), ← Nat.mul_assoc]
        by_cases hc : k * 2 ^ i ≤ q
        · exact .inl (Nat.mul_le_mul_right _ hc)
        · exact .inr (Nat.mul_le_mul_right _ (by omega))
      · left
        have h1 : 2 ^ j * 2 ≤ 2 ^ e := by
          rw [← Nat.pow_succ]; exact Nat.pow_le_pow_right (by omega) (by omega)
        have h2 : k * 2 ^ j ≤ 2 ^ 53 * 2 ^ j := Nat.mul_le_mul_right _ (by omega)
        have h3 : 2 ^ 53 * 2 ^ j = 2 ^ 52 * (2 ^ j * 2) := by ring
        have h4 : 2 ^ 52 * (2 ^ j * 2) ≤ 2 ^ 52 * 2 ^ e := Nat.mul_le_mul_left _ h1
        have h5 : 2 ^ 52 * 2 ^ e ≤ q * 2 ^ e := Nat.mul_le_mul_right _ hq1
        omega
    have hd1 : IsDouble (q * 2 ^ e) := ⟨q, e, hq2, rfl⟩
    have hd2 : IsDouble ((q + 1) * 2 ^ e) := by
      by_cases hc : q + 1 < 2 ^ 53
      · exact ⟨q + 1, e, hc, rfl⟩
      · have : q + 1 = 2 ^ 53 := by omega
        exact ⟨1, 53 + e, by norm_num, by rw [this, Nat.pow_add]; ring⟩
    have hn : n = q * 2 ^ e + r := by rw [← hdiv]; ring
    have hq' : (q + 1) * 2 ^ e = q * 2 ^ e + 2 ^ e := by ring
    rw [hval]
    split
    next hup =>
      refine ⟨hd2, fun m hm => ?_, fun m hm hne heq => ?_⟩
      · rcases hside m hm with h | h <;> simp only [apart] <;> omega
      · have htie : q % 2 = 1 := by
          rcases hside m hm with h | h <;> simp only [apart] at heq <;> omega
        by_cases hc : q + 1 < 2 ^ 53
        · exact ⟨q + 1, e, by omega, hc, by omega, rfl⟩
        · refine ⟨2 ^ 52, e + 1, Nat.le_refl _, by norm_num, by norm_num, ?_⟩
          have : q + 1 = 2 ^ 53 := by omega
          rw [this, Nat.pow_succ]; ring
    next hup =>
      refine ⟨hd1, fun m hm => ?_, fun m hm hne heq => ?_⟩
      · rcases hside m hm with h | h <;> simp only [apart] <;> omega
      · have htie : q % 2 = 0 := by
          rcases hside m hm with h | h <;> simp only [apart] at heq <;> omega
        exact ⟨q, e, hq1, hq2, htie, rfl⟩

/-- Rounding keeps the order. -/
theorem f64_mono {a b : Nat} (h : a ≤ b) : f64Nat a ≤ f64Nat b := by
  rcases Nat.lt_or_eq_of_le h with h | rfl
  · have h1 := (f64_nearest a).nearest _ (f64_nearest b).double
    have h2 := (f64_nearest b).nearest _ (f64_nearest a).double
    simp only [apart] at h1 h2
    omega
  · exact Nat.le_refl _

theorem gap_true {b e : Nat} (hb : b < 2 ^ 63) :
    (f64Int (toInt64 b) - f64Int (e : Int) > 0 ↔ f64Nat e < f64Nat b) ∧
    (f64Int (toInt64 b) - f64Int (e : Int) < 0 ↔ f64Nat b < f64Nat e) := by
  unfold toInt64 f64Int
  rw [if_pos hb, if_neg (by omega), if_neg (by omega), Int.natAbs_natCast, Int.natAbs_natCast]
  omega

/-- C41, one index, with numbers of any size that fits in 64 bits (and starts of trains in 63): a gap or overlap which is reported
is there; the others are between numbers which are the same double. -/
theorem index_report_true {dataset : Str} {firsts counts : List Nat} {ps : List Problem} (hlen : firsts.length = counts.length)
    (hf : ∀ a ∈ firsts, a < 2 ^ 63)
    (hend : ∀ (i a n : Nat), firsts[i]? = some a → counts[i]? = some n → a + n < 2 ^ 64)
    (h : checkIndexContiguous dataset firsts counts = .ok ps) :
    (∀ n pos a c b, .gaps dataset n pos a c b ∈ ps → GapAt firsts counts pos) ∧
    (∀ n pos a c b, .overlaps dataset n pos a c b ∈ ps → OverlapAt firsts counts pos) ∧
    ((∃ n pos a c b, .gaps dataset n pos a c b ∈ ps) ∨ (∃ n pos a c b, .overlaps dataset n pos a c b ∈ ps) ∨
      ∀ (i a n b : Nat), firsts[i]? = some a → counts[i]? = some n → firsts[i + 1]? = some b →
        ∃ d, NearestDouble (a + n) d ∧ NearestDouble b d) := by
  have hne : firsts ≠ [] := by rintro rfl; simp [checkIndexContiguous] at h
  obtain ⟨f0, fs, rfl⟩ := List.exists_cons_of_ne_nil hne
  unfold checkIndexContiguous at h
  simp only at h
  rw [indexGaps_ok hlen] at h
  generalize hgs : List.zipWith (fun (b e : Nat) => f64Int (toInt64 b) - f64Int (e : Int))
      ((f0 :: fs).drop 1) (List.zipWith addU64 (f0 :: fs) counts).dropLast = gs at h
  have hget : ∀ (i : Nat) (g : Int), gs[i]? = some g ↔ i + 1 < counts.length ∧ ∃ a n b, (f0 :: fs)[i]? = some a ∧
      counts[i]? = some n ∧ (f0 :: fs)[i + 1]? = some b ∧
      g = f64Int (toInt64 b) - f64Int ((addU64 a n : Nat) : Int) := by
    intro i g; rw [← hgs]; exact getElem?_gaps
  have hgs' : ∀ (i : Nat) g, gs[i]? = some g → i + 1 < counts.length := fun i g hg => ((hget i g).1 hg).1
  obtain ⟨p1, a1, a2, a3⟩ := gapProblem_ok (p := fun g : Int => decide (g > 0)) (mk := Problem.gaps dataset) hlen hgs'
  obtain ⟨p2, b1, b2, b3⟩ := gapProblem_ok (p := fun g : Int => decide (g < 0)) (mk := Problem.overlaps dataset) hlen hgs'
  simp only at h
  rw [a1] at h
  simp only at h
  rw [b1] at h
  obtain rfl := Except.ok.inj h
  refine ⟨?_, ?_, ?_⟩
  · intro n pos a c b hm
    simp only [List.mem_append, a2, b2] at hm
    rcases hm with (h | ⟨p', rest, a', c', b', h1, h3, h4, h5, h2⟩) | ⟨_, _, _, _, _, _, _, _, _, h⟩
    · split at h <;> simp at h
    · obtain ⟨-, -, rfl, rfl, rfl, rfl⟩ := Problem.gaps.inj h2
      obtain ⟨g, hg, hp⟩ := mem_positions.1 (show pos ∈ positions _ gs by rw [h1]; simp)
      obtain ⟨-, a', n', b', ha, hn, hb, rfl⟩ := (hget pos g).1 hg
      rw [addU64_small (hend pos a' n' ha hn)] at hp
      have := (gap_true (b := b') (e := a' + n') (hf b' (List.mem_of_getElem? hb))).1.1 (by simpa using hp)
      refine ⟨a', n', b', ha, hn, hb, ?_⟩
      by_contra hc
      have := f64_mono (a := b') (b := a' + n') (by omega)
      omega
    · simp at h
  · intro n pos a c b hm
    simp only [List.mem_append, a2, b2] at hm
    rcases hm with (h | ⟨_, _, _, _, _, _, _, _, _, h⟩) | ⟨p', rest, a', c', b', h1, h3, h4, h5, h2⟩
    · split at h <;> simp at h
    · simp at h
    · obtain ⟨-, -, rfl, rfl, rfl, rfl⟩ := Problem.overlaps.inj h2
      obtain ⟨g, hg, hp⟩ := mem_positions.1 (show pos ∈ positions _ gs by rw [h1]; simp)
      obtain ⟨-, a', n', b', ha, hn, hb, rfl⟩ := (hget pos g).1 hg
      rw [addU64_small (hend pos a' n' ha hn)] at hp
      have := (gap_true (b := b') (e := a' + n') (hf b' (List.mem_of_getElem? hb))).2.1 (by simpa using hp)
      refine ⟨a', n', b', ha, hn, hb, ?_⟩
      by_contra hc
      have := f64_mono (a := a' + n') (b := b') (by omega)
      omega
  · by_cases h1 : p1 = []
    · by_cases h2 : p2 = []
      · right; right
        intro i a n b ha hn hb
        refine ⟨f64Nat b, ?_, f64_nearest b⟩
        have hi : i + 1 < counts.length := by have := (List.getElem?_eq_some_iff.1 hb).1; omega
        have hg := (hget i _).2 ⟨hi, a, n, b, ha, hn, hb, rfl⟩
        have e1 := a3.1 h1 i _ hg
        have e2 := b3.1 h2 i _ hg
        have := gap_true (b := b) (e := a + n) (hf b (List.mem_of_getElem? hb))
        rw [addU64_small (hend i a n ha hn)] at e1 e2
        simp only [decide_eq_false_iff_not] at e1 e2
        rw [this.1] at e1
        rw [this.2] at e2
        have : f64Nat b = f64Nat (a + n) := by omega
        rw [this]; exact f64_nearest _
      · right; left
        obtain ⟨x, hx⟩ := List.exists_mem_of_ne_nil p2 h2
        obtain ⟨pos, rest, a, n, b, -, -, -, -, rfl⟩ := (b2 x).1 hx
        exact ⟨_, _, _, _, _, List.mem_append.2 (.inr hx)⟩
    · left
      obtain ⟨x, hx⟩ := List.exists_mem_of_ne_nil p1 h1
      obtain ⟨pos, rest, a, n, b, -, -, -, -, rfl⟩ := (a2 x).1 hx
      exact ⟨_, _, _, _, _, List.mem_append.2 (.inl (List.mem_append.2 (.inr hx)))⟩

/-- A gap after 2^53 which is found, as the next double is not further away. -/
example : checkIndexContiguous (ch! "X") [0, 9007199254740995] [9007199254740993, 0] =
    .ok [.gaps (ch! "X") 1 0 0 9007199254740993 9007199254740995] := by decide

end KD
