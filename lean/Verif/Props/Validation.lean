/- Properties C40-C42: validating one file. -/
import Verif.Model.Validation
import Verif.Spec.Validation
import Verif.Props.Writer

set_option linter.unusedSimpArgs false

namespace KD
open Spec

variable {V : Type}

/-! ### Positions -/

theorem mem_positions {α : Type _} {p : α → Bool} {l : List α} {i : Nat} :
    i ∈ positions p l ↔ ∃ a, l[i]? = some a ∧ p a = true := by
  unfold positions
  rw [List.mem_filter, List.mem_range]
  constructor
  · rintro ⟨h1, h2⟩
    rw [List.getElem?_eq_getElem h1] at h2
    exact ⟨_, List.getElem?_eq_getElem h1, h2⟩
  · rintro ⟨a, h1, h2⟩
    refine ⟨(List.getElem?_eq_some_iff.1 h1).1, ?_⟩
    rw [h1]; exact h2

theorem positions_sorted {α : Type _} (p : α → Bool) (l : List α) : (positions p l).Pairwise (· < ·) :=
  List.Pairwise.filter _ List.pairwise_lt_range

theorem pairwise_lt_iff_next {l : List Nat} :
    l.Pairwise (· < ·) ↔ ∀ i a b, l[i]? = some a → l[i + 1]? = some b → a < b := by
  induction l with
  | nil => simp
  | cons x l ih =>
    rw [List.pairwise_cons, ih]
    constructor
    · rintro ⟨h1, h2⟩ i a b ha hb
      cases i with
      | zero =>
        simp at ha hb
        subst ha
        exact h1 b (List.mem_of_getElem? hb)
      | succ i => exact h2 i a b (by simpa using ha) (by simpa using hb)
    · intro h
      have h2 : ∀ i a b, l[i]? = some a → l[i + 1]? = some b → a < b := fun i a b ha hb =>
        h (i + 1) a b (by simpa using ha) (by simpa using hb)
      refine ⟨?_, h2⟩
      intro y hy
      cases l with
      | nil => simp at hy
      | cons z l =>
        have hz : x < z := h 0 x z (by simp) (by simp)
        rcases List.mem_cons.1 hy with rfl | hy
        · exact hz
        · have := ih.2 h2
          rw [List.pairwise_cons] at this
          exact lt_trans hz (this.1 y hy)

/-! ### C42 -/

theorem zerosAtEnd_iff {tids : List Nat} :
    ZerosAtEnd tids ↔ ¬ (0 ∈ tids ∧ (tids.drop (tids.idxOf 0)).all (fun t => t == 0) = false) := by
  constructor
  · rintro ⟨ids, n, rfl, h0⟩ ⟨-, h⟩
    rw [List.idxOf_append_of_notMem h0, List.drop_append, List.drop_of_length_le (by omega)] at h
    rw [List.all_eq_false] at h
    obtain ⟨x, hx, hne⟩ := h
    have : x ∈ List.replicate n 0 := by
      rw [List.nil_append] at hx
      exact List.mem_of_mem_drop hx
    rw [List.eq_of_mem_replicate this] at hne
    simp at hne
  · intro h
    by_cases h0 : 0 ∈ tids
    · have hall : (tids.drop (tids.idxOf 0)).all (fun t => t == 0) = true := by
        by_contra hc
        exact h ⟨h0, by simpa using hc⟩
      refine ⟨tids.take (tids.idxOf 0), (tids.drop (tids.idxOf 0)).length, ?_, ?_⟩
      · conv_lhs => rw [← List.take_append_drop (tids.idxOf 0) tids]
        congr 1
        rw [List.eq_replicate_iff]
        refine ⟨rfl, ?_⟩
        intro b hb
        simpa using List.all_eq_true.1 hall b hb
      · intro hm
        exact absurd ((List.mem_take_iff_idxOf_lt h0).1 hm) (lt_irrefl _)
    · exact ⟨tids, 0, by simp, h0⟩


theorem getElem?_pair {l : List Nat} {i a b : Nat} :
    (l.zip (l.drop 1))[i]? = some (a, b) ↔ l[i]? = some a ∧ l[i + 1]? = some b := by
  rw [List.getElem?_zip_eq_some]
  simp [List.getElem?_drop, Nat.add_comm 1 i]

/-- C42. Zeros before other train IDs are reported exactly when there are some, train IDs out of order exactly when
they do not strictly increase (with the first place where they do not), and nothing else is. -/
theorem train_id_check_exact {h : H5File V} {tids : List Nat} (ht : h.trainId = some tids) :
    ∃ ps, checkTrainIds h = .ok ps ∧ (ps = [] ↔ ZerosAtEnd tids ∧ StrictlyIncreasing tids) ∧
      (.zeros ∈ ps ↔ ¬ ZerosAtEnd tids) ∧
      ((∃ pos a b, .notIncreasing pos a b ∈ ps) ↔ ¬ StrictlyIncreasing tids) ∧
      (∀ p ∈ ps, p = .zeros ∨ ∃ pos a b, p = .notIncreasing pos a b ∧
        (tids.filter (fun t => t ≠ 0))[pos]? = some a ∧ (tids.filter (fun t => t ≠ 0))[pos + 1]? = some b ∧ b ≤ a ∧
        ∀ i < pos, ∀ x y, (tids.filter (fun t => t ≠ 0))[i]? = some x →
          (tids.filter (fun t => t ≠ 0))[i + 1]? = some y → x < y) := by
  unfold checkTrainIds
  rw [ht]
  simp only [need]
  have hnz : tids.filter (fun t => t != 0) = tids.filter (fun t => decide (t ≠ 0)) := by
    apply List.filter_congr
    intro x _
    cases x <;> simp
  rw [hnz]
  unfold StrictlyIncreasing
  generalize tids.filter (fun t => decide (t ≠ 0)) = nz
  have hinc : nz.Pairwise (· < ·) ↔ positions (fun x : Nat × Nat => decide (x.2 ≤ x.1)) (nz.zip (nz.drop 1)) = [] := by
    rw [pairwise_lt_iff_next, List.eq_nil_iff_forall_not_mem]
    constructor
    · intro h i hi
      obtain ⟨⟨a, b⟩, h1, h2⟩ := mem_positions.1 hi
      rw [getElem?_pair] at h1
      have := h i a b h1.1 h1.2
      simp at h2; omega
    · intro h i a b ha hb
      by_contra hc
      exact h i (mem_positions.2 ⟨(a, b), getElem?_pair.2 ⟨ha, hb⟩, by simp; omega⟩)
  have hz := zerosAtEnd_iff (tids := tids)
  generalize hzero : (if 0 ∈ tids ∧ (tids.drop (tids.idxOf 0)).all (fun t => t == 0) = false then [Problem.zeros]
    else []) = Z
  have hZ : (Z = [] ↔ ZerosAtEnd tids) ∧ (Problem.zeros ∈ Z ↔ ¬ ZerosAtEnd tids) ∧ ∀ p ∈ Z, p = .zeros := by
    rw [hz, ← hzero]
    split
    next hh => exact ⟨⟨fun h => by simp at h, fun h => absurd hh h⟩, ⟨fun _ h => h hh, fun _ => by simp⟩, by simp⟩
    next hh => exact ⟨⟨fun _ => hh, fun _ => rfl⟩, ⟨fun h => by simp at h, fun h => absurd hh h⟩, by simp⟩
  obtain ⟨z1, z2, z3⟩ := hZ
  refine ⟨_, rfl, ?_, ?_, ?_, ?_⟩
  · rw [List.append_eq_nil_iff, z1, hinc]
    refine and_congr Iff.rfl ?_
    split <;> simp_all
  · rw [List.mem_append, z2]
    constructor
    · rintro (h | h)
      · exact h
      · split at h <;> simp at h
    · exact Or.inl
  · rw [hinc]
    constructor
    · rintro ⟨pos, a, b, h⟩ hc
      rcases List.mem_append.1 h with h | h
      · simpa using z3 _ h
      · rw [hc] at h; simp at h
    · intro h
      obtain ⟨pos, rest, he⟩ := List.exists_cons_of_ne_nil h
      rw [he]
      exact ⟨pos, _, _, List.mem_append.2 (Or.inr (List.mem_singleton.2 rfl))⟩
  · intro p hp
    rcases List.mem_append.1 hp with hp | hp
    · exact Or.inl (z3 p hp)
    · right
      split at hp
      · simp at hp
      next pos rest he =>
      have hm : pos ∈ positions (fun x : Nat × Nat => decide (x.2 ≤ x.1)) (nz.zip (nz.drop 1)) := by rw [he]; simp
      obtain ⟨⟨a, b⟩, h1, h2⟩ := mem_positions.1 hm
      rw [getElem?_pair] at h1
      rw [List.mem_singleton] at hp
      refine ⟨pos, a, b, ?_, h1.1, h1.2, by simpa using h2, ?_⟩
      · rw [hp, List.getD_eq_getElem?_getD, List.getD_eq_getElem?_getD, h1.1, h1.2]; rfl
      · intro i hi x y hx hy
        by_contra hc
        have hm' := mem_positions (p := fun x : Nat × Nat => decide (x.2 ≤ x.1)).2 ⟨(x, y), getElem?_pair.2 ⟨hx, hy⟩,
          by simp; omega⟩
        rw [he] at hm'
        have hs := positions_sorted (fun x : Nat × Nat => decide (x.2 ≤ x.1)) (nz.zip (nz.drop 1))
        rw [he, List.pairwise_cons] at hs
        rcases List.mem_cons.1 hm' with rfl | hm'
        · omega
        · have := hs.1 i hm'; omega

example : (checkTrainIds (V := Nat) { exFile with trainId := some [5, 6, 0, 7, 7, 8, 8, 0] }) =
    .ok [.zeros, .notIncreasing 2 7 7] := by decide

/-! ### C41 -/

theorem f64Nat_small {n : Nat} (h : n < 2 ^ 53) : f64Nat n = n := by
  unfold f64Nat; rw [if_pos h]

/-- Rounding to a double keeps numbers of at least 53 bits that large. -/
theorem f64Nat_large {n : Nat} (h : 2 ^ 53 ≤ n) : 2 ^ 53 ≤ f64Nat n := by
  unfold f64Nat
  rw [if_neg (by omega)]
  have hlog : 53 ≤ n.log2 := (Nat.le_log2 (by omega)).2 h
  have hle : 2 ^ n.log2 ≤ n := Nat.log2_self_le (by omega)
  have hq : 2 ^ 52 ≤ n / 2 ^ (n.log2 - 52) := by
    rw [Nat.le_div_iff_mul_le (by positivity), ← Nat.pow_add]
    have : 52 + (n.log2 - 52) = n.log2 := by omega
    rw [this]; exact hle
  have he : 2 ≤ 2 ^ (n.log2 - 52) := by
    calc 2 = 2 ^ 1 := rfl
      _ ≤ 2 ^ (n.log2 - 52) := Nat.pow_le_pow_right (by omega) (by omega)
  have : 2 ^ 53 ≤ (n / 2 ^ (n.log2 - 52)) * 2 ^ (n.log2 - 52) := by
    calc 2 ^ 53 = 2 ^ 52 * 2 := by norm_num
      _ ≤ _ := Nat.mul_le_mul hq he
  simp only
  split
  · rw [Nat.add_mul]; omega
  · exact this

/-- The sign of a gap is right when the end of the train is an exact double. -/
theorem gap_sign {b e : Nat} (hb : b < 2 ^ 64) (he : e < 2 ^ 53) :
    (f64Int (toInt64 b) - f64Int (e : Int) > 0 ↔ e < b ∧ b < 2 ^ 63) ∧
    (f64Int (toInt64 b) - f64Int (e : Int) < 0 ↔ b < e ∨ 2 ^ 63 ≤ b) := by
  have h1 : f64Int (e : Int) = e := by
    unfold f64Int
    rw [if_neg (by omega), Int.natAbs_natCast, f64Nat_small he]
  rw [h1]
  unfold toInt64 f64Int
  by_cases hb' : b < 2 ^ 63
  · rw [if_pos hb', if_neg (by omega), Int.natAbs_natCast]
    by_cases hb2 : b < 2 ^ 53
    · rw [f64Nat_small hb2]; omega
    · have := f64Nat_large (n := b) (by omega)
      omega
  · rw [if_neg hb', if_pos (by push_cast; omega)]
    have hpos : 0 < f64Nat ((b : Int) - 2 ^ 64).natAbs := by
      by_cases hs : ((b : Int) - 2 ^ 64).natAbs < 2 ^ 53
      · rw [f64Nat_small hs]; omega
      · have := f64Nat_large (n := ((b : Int) - 2 ^ 64).natAbs) (by omega)
        omega
    push_cast at *
    omega

theorem indexGaps_ok {firsts counts : List Nat} (h : firsts.length = counts.length) :
    indexGaps firsts counts = .ok (List.zipWith (fun (b e : Nat) => f64Int (toInt64 b) - f64Int (e : Int))
      (firsts.drop 1) (List.zipWith addU64 firsts counts).dropLast) := by
  unfold indexGaps
  rw [zipBroad_eq h]
  simp only
  rw [zipBroad_eq (by simp [h])]

theorem getElem?_gaps {firsts counts : List Nat} {i : Nat} {g : Int} :
    (List.zipWith (fun (b e : Nat) => f64Int (toInt64 b) - f64Int (e : Int))
      (firsts.drop 1) (List.zipWith addU64 firsts counts).dropLast)[i]? = some g ↔
    i + 1 < counts.length ∧ ∃ a n b, firsts[i]? = some a ∧ counts[i]? = some n ∧ firsts[i + 1]? = some b ∧
      g = f64Int (toInt64 b) - f64Int ((addU64 a n : Nat) : Int) := by
  rw [List.getElem?_zipWith_eq_some]
  simp only [List.getElem?_drop, Nat.add_comm 1 i, List.getElem?_dropLast, List.length_zipWith]
  constructor
  · rintro ⟨b, e, hb, he, rfl⟩
    split at he
    next hlt =>
      rw [List.getElem?_zipWith_eq_some] at he
      obtain ⟨a, n, ha, hn, rfl⟩ := he
      exact ⟨by omega, a, n, b, ha, hn, hb, rfl⟩
    · simp at he
  · rintro ⟨h0, a, n, b, ha, hn, hb, rfl⟩
    refine ⟨b, addU64 a n, hb, ?_, rfl⟩
    have := (List.getElem?_eq_some_iff.1 hb).1
    rw [if_pos (by omega), List.getElem?_zipWith_eq_some]
    exact ⟨a, n, ha, hn, rfl⟩

theorem addU64_small {a n : Nat} (h : a + n < 2 ^ 64) : addU64 a n = a + n := Nat.mod_eq_of_lt h

theorem gapProblem_ok {p : Int → Bool} {mk : Nat → Nat → Nat → Nat → Nat → Problem} {firsts counts : List Nat}
    {gs : List Int} (hlen : firsts.length = counts.length) (hgs : ∀ (i : Nat) g, gs[i]? = some g → i + 1 < counts.length) :
    ∃ ps, gapProblem p mk firsts counts gs = .ok ps ∧
      (∀ x, x ∈ ps ↔ ∃ pos rest a n b, positions p gs = pos :: rest ∧ firsts[pos]? = some a ∧ counts[pos]? = some n ∧
        firsts[pos + 1]? = some b ∧ x = mk (rest.length + 1) pos a n b) ∧
      (ps = [] ↔ ∀ (i : Nat) g, gs[i]? = some g → p g = false) := by
  unfold gapProblem
  cases hp : positions p gs with
  | nil =>
    refine ⟨[], rfl, ?_, ?_⟩
    · intro x; simp
    · refine ⟨fun _ i g hg => ?_, fun _ => rfl⟩
      by_contra hc
      have hm : i ∈ positions p gs := mem_positions.2 ⟨g, hg, by simpa using hc⟩
      rw [hp] at hm; simp at hm
  | cons pos rest =>
    have hm : pos ∈ positions p gs := by rw [hp]; simp
    obtain ⟨g, hg, hpg⟩ := mem_positions.1 hm
    have hlt := hgs pos g hg
    have e1 : firsts[pos]? = some firsts[pos] := List.getElem?_eq_getElem (by omega)
    have e2 : counts[pos]? = some counts[pos] := List.getElem?_eq_getElem (by omega)
    have e3 : firsts[pos + 1]? = some firsts[pos + 1] := List.getElem?_eq_getElem (by omega)
    simp only [nth, e1, e2, e3]
    refine ⟨[mk (rest.length + 1) pos firsts[pos] counts[pos] firsts[pos + 1]], rfl, ?_, ?_⟩
    · intro x
      rw [List.mem_singleton]
      constructor
      · intro hx; exact ⟨pos, rest, _, _, _, rfl, e1, e2, e3, hx⟩
      · rintro ⟨pos', rest', a, n, b, he, h1, h2, h3, hx⟩
        obtain ⟨rfl, rfl⟩ := List.cons.inj he
        rw [e1] at h1; rw [e2] at h2; rw [e3] at h3
        rw [hx, Option.some.inj h1, Option.some.inj h2, Option.some.inj h3]
    · refine ⟨fun h => by simp at h, fun h => ?_⟩
      rw [h pos g hg] at hpg; simp at hpg

/-- C41, one index: with numbers below 2^53, the report says whether the index starts at 0, whether there are gaps,
whether there are overlaps, how many, where the first one is and what the index has there. -/
theorem index_report_exact {dataset : Str} {firsts counts : List Nat} (hne : firsts ≠ [])
    (hlen : firsts.length = counts.length) (hf : ∀ a ∈ firsts, a < 2 ^ 53)
    (hend : ∀ (i a n : Nat), firsts[i]? = some a → counts[i]? = some n → a + n < 2 ^ 53) :
    ∃ ps, checkIndexContiguous dataset firsts counts = .ok ps ∧
      (.start dataset ∈ ps ↔ firsts.head? ≠ some 0) ∧
      (∀ n pos a c b, .gaps dataset n pos a c b ∈ ps ↔ (∃ rest, (pos :: rest).Pairwise (· < ·) ∧ n = (pos :: rest).length ∧
        ∀ i, i ∈ pos :: rest ↔ GapAt firsts counts i) ∧
        firsts[pos]? = some a ∧ counts[pos]? = some c ∧ firsts[pos + 1]? = some b) ∧
      (∀ n pos a c b, .overlaps dataset n pos a c b ∈ ps ↔ (∃ rest, (pos :: rest).Pairwise (· < ·) ∧
        n = (pos :: rest).length ∧ ∀ i, i ∈ pos :: rest ↔ OverlapAt firsts counts i) ∧
        firsts[pos]? = some a ∧ counts[pos]? = some c ∧ firsts[pos + 1]? = some b) := by
  obtain ⟨f0, fs, rfl⟩ := List.exists_cons_of_ne_nil hne
  unfold checkIndexContiguous
  simp only
  rw [indexGaps_ok hlen]
  generalize hgs : List.zipWith (fun (b e : Nat) => f64Int (toInt64 b) - f64Int (e : Int))
      ((f0 :: fs).drop 1) (List.zipWith addU64 (f0 :: fs) counts).dropLast = gs
  have hget : ∀ (i : Nat) (g : Int), gs[i]? = some g ↔ i + 1 < counts.length ∧ ∃ a n b, (f0 :: fs)[i]? = some a ∧
      counts[i]? = some n ∧ (f0 :: fs)[i + 1]? = some b ∧
      g = f64Int (toInt64 b) - f64Int ((addU64 a n : Nat) : Int) := by
    intro i g; rw [← hgs]; exact getElem?_gaps
  have hpos : ∀ i, i ∈ positions (fun g : Int => decide (g > 0)) gs ↔ GapAt (f0 :: fs) counts i := by
    intro i
    rw [mem_positions]
    constructor
    · rintro ⟨g, hg, hp⟩
      obtain ⟨-, a, n, b, ha, hn, hb, rfl⟩ := (hget i g).1 hg
      refine ⟨a, n, b, ha, hn, hb, ?_⟩
      have he := hend i a n ha hn
      rw [addU64_small (by omega)] at hp
      have := (gap_sign (b := b) (e := a + n) (by have := hf b (List.mem_of_getElem? hb); omega) he).1.1 (by simpa using hp)
      exact this.1
    · rintro ⟨a, n, b, ha, hn, hb, hlt⟩
      refine ⟨_, (hget i _).2 ⟨?_, a, n, b, ha, hn, hb, rfl⟩, ?_⟩
      · have := (List.getElem?_eq_some_iff.1 hb).1; omega
      have he := hend i a n ha hn
      have hb' := hf b (List.mem_of_getElem? hb)
      rw [addU64_small (by omega)]
      simpa using (gap_sign (b := b) (e := a + n) (by omega) he).1.2 ⟨hlt, by omega⟩
  have hneg : ∀ i, i ∈ positions (fun g : Int => decide (g < 0)) gs ↔ OverlapAt (f0 :: fs) counts i := by
    intro i
    rw [mem_positions]
    constructor
    · rintro ⟨g, hg, hp⟩
      obtain ⟨-, a, n, b, ha, hn, hb, rfl⟩ := (hget i g).1 hg
      refine ⟨a, n, b, ha, hn, hb, ?_⟩
      have he := hend i a n ha hn
      have hb' := hf b (List.mem_of_getElem? hb)
      rw [addU64_small (by omega)] at hp
      have := (gap_sign (b := b) (e := a + n) (by omega) he).2.1 (by simpa using hp)
      omega
    · rintro ⟨a, n, b, ha, hn, hb, hlt⟩
      refine ⟨_, (hget i _).2 ⟨?_, a, n, b, ha, hn, hb, rfl⟩, ?_⟩
      · have := (List.getElem?_eq_some_iff.1 hb).1; omega
      have he := hend i a n ha hn
      have hb' := hf b (List.mem_of_getElem? hb)
      rw [addU64_small (by omega)]
      simpa using (gap_sign (b := b) (e := a + n) (by omega) he).2.2 (Or.inl hlt)
  have huniq : ∀ {p : Int → Bool} {Q : Nat → Prop}, (∀ i, i ∈ positions p gs ↔ Q i) → ∀ n pos,
      (∃ pos' rest, positions p gs = pos' :: rest ∧ n = rest.length + 1 ∧ pos = pos') ↔
      ∃ rest, (pos :: rest).Pairwise (· < ·) ∧ n = (pos :: rest).length ∧ ∀ i, i ∈ pos :: rest ↔ Q i := by
    intro p Q hQ n pos
    constructor
    · rintro ⟨pos', rest, h1, h2, rfl⟩
      refine ⟨rest, h1 ▸ positions_sorted p gs, by simpa using h2, fun i => by rw [← h1]; exact hQ i⟩
    · rintro ⟨rest, h1, h2, h3⟩
      refine ⟨pos, rest, ?_, by simpa using h2, rfl⟩
      refine List.Perm.eq_of_pairwise (le := (· < ·)) ?_ (positions_sorted p gs) h1 ?_
      · intro a b _ _ h1 h2; omega
      · refine (List.perm_ext_iff_of_nodup ((positions_sorted p gs).imp (fun h => Nat.ne_of_lt h))
          (h1.imp (fun h => Nat.ne_of_lt h))).2 (fun i => by rw [hQ, h3])
  have hgs' : ∀ (i : Nat) g, gs[i]? = some g → i + 1 < counts.length := fun i g hg => ((hget i g).1 hg).1
  obtain ⟨p1, a1, a2, -⟩ := gapProblem_ok (p := fun g : Int => decide (g > 0)) (mk := Problem.gaps dataset) hlen hgs'
  obtain ⟨p2, b1, b2, -⟩ := gapProblem_ok (p := fun g : Int => decide (g < 0)) (mk := Problem.overlaps dataset) hlen hgs'
  simp only
  rw [a1]
  simp only
  rw [b1]
  refine ⟨_, rfl, ?_, ?_, ?_⟩
  · simp only [List.mem_append, a2, b2]
    constructor
    · rintro ((h | ⟨_, _, _, _, _, _, _, _, _, h⟩) | ⟨_, _, _, _, _, _, _, _, _, h⟩)
      · split at h
        next hh => simpa using hh
        · simp at h
      · simp at h
      · simp at h
    · intro h
      left; left
      rw [if_pos (by simpa using h)]; simp
  · intro n pos a c b
    rw [← huniq hpos n pos]
    simp only [List.mem_append, a2, b2]
    constructor
    · rintro ((h | ⟨p', rest, a', c', b', h1, h3, h4, h5, h2⟩) | ⟨_, _, _, _, _, _, _, _, _, h⟩)
      · split at h <;> simp at h
      · obtain ⟨-, hn, rfl, rfl, rfl, rfl⟩ := Problem.gaps.inj h2
        exact ⟨⟨pos, rest, h1, hn, rfl⟩, h3, h4, h5⟩
      · simp at h
    · rintro ⟨⟨p', rest, h1, rfl, rfl⟩, h3, h4, h5⟩
      exact Or.inl (Or.inr ⟨_, rest, _, _, _, h1, h3, h4, h5, rfl⟩)
  · intro n pos a c b
    rw [← huniq hneg n pos]
    simp only [List.mem_append, a2, b2]
    constructor
    · rintro ((h | ⟨_, _, _, _, _, _, _, _, _, h⟩) | ⟨p', rest, a', c', b', h1, h3, h4, h5, h2⟩)
      · split at h <;> simp at h
      · simp at h
      · obtain ⟨-, hn, rfl, rfl, rfl, rfl⟩ := Problem.overlaps.inj h2
        exact ⟨⟨pos, rest, h1, hn, rfl⟩, h3, h4, h5⟩
    · rintro ⟨⟨p', rest, h1, rfl, rfl⟩, h3, h4, h5⟩
      exact Or.inr ⟨_, rest, _, _, _, h1, h3, h4, h5, rfl⟩

/-- The check of one index, without assumptions on the sizes of the numbers. -/
theorem checkIndexContiguous_nil {dataset : Str} {firsts counts : List Nat} (hne : firsts ≠ [])
    (hlen : firsts.length = counts.length) :
    ∃ ps, checkIndexContiguous dataset firsts counts = .ok ps ∧ (ps = [] ↔ firsts.head? = some 0 ∧
      ∀ (i a n b : Nat), firsts[i]? = some a → counts[i]? = some n → firsts[i + 1]? = some b →
        f64Int (toInt64 b) - f64Int ((addU64 a n : Nat) : Int) = 0) := by
  obtain ⟨f0, fs, rfl⟩ := List.exists_cons_of_ne_nil hne
  unfold checkIndexContiguous
  simp only
  rw [indexGaps_ok hlen]
  obtain ⟨p1, a1, -, a2⟩ := gapProblem_ok (p := fun g : Int => decide (g > 0)) (mk := Problem.gaps dataset) hlen
    (fun i g hg => (getElem?_gaps.1 hg).1)
  obtain ⟨p2, b1, -, b2⟩ := gapProblem_ok (p := fun g : Int => decide (g < 0)) (mk := Problem.overlaps dataset) hlen
    (fun i g hg => (getElem?_gaps.1 hg).1)
  simp only
  rw [a1]
  simp only
  rw [b1]
  refine ⟨_, rfl, ?_⟩
  rw [List.append_eq_nil_iff, List.append_eq_nil_iff, a2, b2]
  constructor
  · rintro ⟨⟨h1, h2⟩, h3⟩
    refine ⟨?_, ?_⟩
    · split at h1
      · simp at h1
      next h => simpa using h
    · intro i a n b ha hn hb
      have hi : i + 1 < counts.length := by have := (List.getElem?_eq_some_iff.1 hb).1; omega
      have hg := getElem?_gaps.2 ⟨hi, a, n, b, ha, hn, hb, rfl⟩
      have h2 := h2 i _ hg
      have h3 := h3 i _ hg
      rw [decide_eq_false_iff_not] at h2 h3
      omega
  · rintro ⟨h1, h2⟩
    refine ⟨⟨?_, ?_⟩, ?_⟩
    · rw [if_neg (by simpa using h1)]
    · intro i g hg
      obtain ⟨-, a, n, b, ha, hn, hb, rfl⟩ := getElem?_gaps.1 hg
      rw [h2 i a n b ha hn hb]; rfl
    · intro i g hg
      obtain ⟨-, a, n, b, ha, hn, hb, rfl⟩ := getElem?_gaps.1 hg
      rw [h2 i a n b ha hn hb]; rfl

theorem h5path_noslash (s : Str) : h5path ('/' :: s) = h5path s := by
  unfold h5path; simp [splitCh]

theorem checkKey_eq {f : FileAccess V} {source key : Str} {firsts counts : List Nat} {size : Nat}
    (hp : FieldParts f source key firsts counts size) (hlen : firsts.length = counts.length) :
    ∃ ps, f.checkKey source key = .ok ps ∧
      (ps = [] ↔ ∀ (i a n : Nat), firsts[i]? = some a → counts[i]? = some n → addU64 a n ≤ size) := by
  obtain ⟨h1, ds, h2, rfl⟩ := hp
  unfold FileAccess.checkKey
  have hd : need (f.file.datasets.get? (h5path (ch! "INSTRUMENT/" ++ source ++ ch! "/" ++ replaceCh '.' '/' key))) =
      .ok ds := by
    rw [← h2]
    unfold FileAccess.dataset
    rw [← h5path_noslash]
    rfl
  simp only
  rw [show (partition '.' key).1 = groupName true key from rfl, h1, hd]
  simp only
  rw [zipBroad_eq hlen]
  simp only
  by_cases h : (List.zipWith addU64 firsts counts).any (fun e => decide (e > ds.rows.length)) = true
  · rw [if_pos h]
    refine ⟨_, rfl, ⟨fun h => by simp at h, fun hall => ?_⟩⟩
    rw [List.any_eq_true] at h
    obtain ⟨e, he, hgt⟩ := h
    obtain ⟨i, hi⟩ := List.mem_iff_getElem?.1 he
    rw [List.getElem?_zipWith_eq_some] at hi
    obtain ⟨a, n, ha, hn, rfl⟩ := hi
    have := hall i a n ha hn
    simp at hgt; omega
  · rw [if_neg h]
    refine ⟨_, rfl, ⟨fun _ => ?_, fun _ => rfl⟩⟩
    intro i a n ha hn
    by_contra hc
    apply h
    rw [List.any_eq_true]
    exact ⟨addU64 a n, List.mem_iff_getElem?.2 ⟨i, List.getElem?_zipWith_eq_some.2 ⟨a, n, ha, hn, rfl⟩⟩, by simp; omega⟩

theorem checkGroup_eq {f : FileAccess V} {source group : Str} {firsts counts : List Nat}
    (hp : f.getIndex source group = .ok (firsts, counts)) (hlen : firsts.length = f.trainIds.length)
    (hlen2 : counts.length = f.trainIds.length) (hne : f.trainIds ≠ []) :
    ∃ ps, f.checkGroup source group = .ok ps ∧ (ps = [] ↔ firsts.head? = some 0 ∧
      ∀ (i a n b : Nat), firsts[i]? = some a → counts[i]? = some n → firsts[i + 1]? = some b →
        f64Int (toInt64 b) - f64Int ((addU64 a n : Nat) : Int) = 0) := by
  have hf : firsts ≠ [] := by
    rintro rfl
    exact hne (List.eq_nil_of_length_eq_zero hlen.symm)
  obtain ⟨ps, h1, h2⟩ := checkIndexContiguous_nil (dataset := ch! "INDEX/" ++ source ++ ch! "/" ++ group) hf
    (hlen.trans hlen2.symm)
  unfold FileAccess.checkGroup
  simp only
  rw [hp]
  simp only
  rw [h1, if_neg (not_not.2 (hlen.trans hlen2.symm)), if_neg (not_not.2 hlen)]
  exact ⟨_, rfl, by simpa using h2⟩

theorem mapE_flatten_nil {α β : Type _} {f : α → R (List β)} {P : α → Prop} {l : List α}
    (h : ∀ a ∈ l, ∃ ps, f a = .ok ps ∧ (ps = [] ↔ P a)) :
    ∃ pss, mapE f l = .ok pss ∧ (pss.flatten = [] ↔ ∀ a ∈ l, P a) := by
  induction l with
  | nil => exact ⟨[], rfl, by simp⟩
  | cons a l ih =>
    obtain ⟨ps, h1, h2⟩ := h a (by simp)
    obtain ⟨pss, h3, h4⟩ := ih (fun b hb => h b (by simp [hb]))
    refine ⟨ps :: pss, by simp only [mapE, h1, h3], ?_⟩
    rw [List.flatten_cons, List.append_eq_nil_iff, h2, h4]
    simp

/-- Validation of the indexes of a file, without assumptions on the sizes of numbers. -/
theorem checkIndices_eq {f : FileAccess V} (hr : FieldsReadable f) (hne : f.trainIds ≠ []) :
    ∃ ps, f.checkIndices = .ok ps ∧ (ps = [] ↔ ∀ source ∈ f.instrumentSources, ∀ keys, f.getKeys source = .ok keys →
      ∀ key ∈ keys, ∀ firsts counts size, FieldParts f source key firsts counts size →
        (∀ (i a n : Nat), firsts[i]? = some a → counts[i]? = some n → addU64 a n ≤ size) ∧
        firsts.head? = some 0 ∧
        ∀ (i a n b : Nat), firsts[i]? = some a → counts[i]? = some n → firsts[i + 1]? = some b →
          f64Int (toInt64 b) - f64Int ((addU64 a n : Nat) : Int) = 0) := by
  have hs : ∀ source ∈ f.instrumentSources, ∃ ps, f.checkSource source = .ok ps ∧ (ps = [] ↔
      ∀ keys, f.getKeys source = .ok keys →
      ∀ key ∈ keys, ∀ firsts counts size, FieldParts f source key firsts counts size →
        (∀ (i a n : Nat), firsts[i]? = some a → counts[i]? = some n → addU64 a n ≤ size) ∧
        firsts.head? = some 0 ∧
        ∀ (i a n b : Nat), firsts[i]? = some a → counts[i]? = some n → firsts[i + 1]? = some b →
          f64Int (toInt64 b) - f64Int ((addU64 a n : Nat) : Int) = 0) := by
    intro source hsrc
    obtain ⟨keys, hk, hfields⟩ := hr source hsrc
    have hA : ∀ key ∈ keys, ∃ ps, f.checkKey source key = .ok ps ∧ (ps = [] ↔ ∀ firsts counts size,
        FieldParts f source key firsts counts size →
        ∀ (i a n : Nat), firsts[i]? = some a → counts[i]? = some n → addU64 a n ≤ size) := by
      intro key hkey
      obtain ⟨firsts, counts, size, hp, h1, h2⟩ := hfields key hkey
      obtain ⟨ps, h3, h4⟩ := checkKey_eq hp (h1.trans h2.symm)
      refine ⟨ps, h3, h4.trans ⟨fun h firsts' counts' size' hp' => ?_, fun h => h _ _ _ hp⟩⟩
      obtain ⟨e1, ds, e2, e3⟩ := hp
      obtain ⟨e1', ds', e2', e3'⟩ := hp'
      rw [e1] at e1'; rw [e2] at e2'
      obtain ⟨rfl, rfl⟩ := Prod.mk.inj (Except.ok.inj e1')
      obtain rfl := Except.ok.inj e2'
      rw [← e3', e3]; exact h
    have hB : ∀ group ∈ (keys.map (fun k => (partition '.' k).1)).dedup, ∃ ps, f.checkGroup source group = .ok ps ∧
        (ps = [] ↔ ∀ firsts counts, f.getIndex source group = .ok (firsts, counts) →
          firsts.head? = some 0 ∧
          ∀ (i a n b : Nat), firsts[i]? = some a → counts[i]? = some n → firsts[i + 1]? = some b →
            f64Int (toInt64 b) - f64Int ((addU64 a n : Nat) : Int) = 0) := by
      intro group hg
      obtain ⟨key, hkey, rfl⟩ := List.mem_map.1 (List.mem_dedup.1 hg)
      obtain ⟨firsts, counts, size, hp, h1, h2⟩ := hfields key hkey
      obtain ⟨ps, h3, h4⟩ := checkGroup_eq hp.1 h1 h2 hne
      refine ⟨ps, h3, h4.trans ⟨fun h firsts' counts' hp' => ?_, fun h => h _ _ hp.1⟩⟩
      have e1 := hp.1
      rw [show groupName true key = (partition '.' key).1 from rfl, hp'] at e1
      obtain ⟨rfl, rfl⟩ := Prod.mk.inj (Except.ok.inj e1)
      exact h
    obtain ⟨pss, a1, a2⟩ := mapE_flatten_nil hA
    obtain ⟨qss, b1, b2⟩ := mapE_flatten_nil hB
    refine ⟨pss.flatten ++ qss.flatten, ?_, ?_⟩
    · unfold FileAccess.checkSource
      rw [hk]
      simp only
      rw [a1]
      simp only
      rw [b1]
    · rw [List.append_eq_nil_iff, a2, b2]
      constructor
      · rintro ⟨h1, h2⟩ keys' hk' key hkey firsts counts size hp
        rw [hk] at hk'
        obtain rfl := Except.ok.inj hk'
        refine ⟨h1 key hkey firsts counts size hp, ?_⟩
        exact h2 (groupName true key) (List.mem_dedup.2 (List.mem_map.2 ⟨key, hkey, rfl⟩)) firsts counts hp.1
      · intro h
        refine ⟨fun key hkey firsts counts size hp => (h keys hk key hkey firsts counts size hp).1, ?_⟩
        intro group hg firsts counts hi
        obtain ⟨key, hkey, rfl⟩ := List.mem_map.1 (List.mem_dedup.1 hg)
        obtain ⟨firsts', counts', size, hp, -, -⟩ := hfields key hkey
        have e1 := hp.1
        rw [show groupName true key = (partition '.' key).1 from rfl, hi] at e1
        obtain ⟨rfl, rfl⟩ := Prod.mk.inj (Except.ok.inj e1)
        exact (h keys hk key hkey _ _ _ hp).2
  obtain ⟨pss, h1, h2⟩ := mapE_flatten_nil hs
  refine ⟨pss.flatten, ?_, h2⟩
  unfold FileAccess.checkIndices
  rw [h1]

theorem gap_zero {b e : Nat} (hb : b < 2 ^ 64) (he : e < 2 ^ 53) :
    f64Int (toInt64 b) - f64Int (e : Int) = 0 ↔ b = e := by
  obtain ⟨h1, h2⟩ := gap_sign hb he
  constructor
  · intro h
    rw [h] at h1 h2
    simp at h1 h2
    omega
  · intro h
    have : ¬ (f64Int (toInt64 b) - f64Int (e : Int) > 0) := fun hh => by have := h1.1 hh; omega
    have : ¬ (f64Int (toInt64 b) - f64Int (e : Int) < 0) := fun hh => by have := h2.1 hh; omega
    omega

/-- C41, partial. For a file with one index entry for each train: validation reports no problem with the indexes
exactly when all of them start at 0, are contiguous and stay within the data. Missing from the full property: numbers
which overflow the arithmetic used (`NumbersFit`), for which it is false (`validation_overflow_wrong`,
`validation_rounding_wrong`). -/
theorem index_validation_partial {f : FileAccess V} (hr : FieldsReadable f) (hne : f.trainIds ≠ [])
    (hfit : NumbersFit f) :
    ∃ ps, f.checkIndices = .ok ps ∧ (ps = [] ↔ ∀ source ∈ f.instrumentSources, ∀ keys, f.getKeys source = .ok keys →
      ∀ key ∈ keys, ∀ firsts counts size, FieldParts f source key firsts counts size →
        GoodIndex firsts counts size) := by
  obtain ⟨ps, h1, h2⟩ := checkIndices_eq hr hne
  refine ⟨ps, h1, h2.trans ?_⟩
  constructor
  · intro h source hs keys hk key hkey firsts counts size hp
    obtain ⟨g1, g2, g3⟩ := h source hs keys hk key hkey firsts counts size hp
    obtain ⟨n1, n2⟩ := hfit source hs keys hk key hkey firsts counts size hp
    have hin : InBounds firsts counts size := by
      intro i a n ha hn
      have := g1 i a n ha hn
      rwa [addU64_small (n2 i a n ha hn)] at this
    refine ⟨g2, ?_, hin⟩
    intro i a n b ha hn hb
    have he := hin i a n ha hn
    have h0 := g3 i a n b ha hn hb
    rw [addU64_small (n2 i a n ha hn)] at h0
    obtain ⟨keys', hk', hf'⟩ := hr source hs
    rw [hk] at hk'
    obtain rfl := Except.ok.inj hk'
    obtain ⟨firsts', counts', size', hp', l1, l2⟩ := hf' key hkey
    have e1 := hp'.1
    rw [hp.1] at e1
    obtain ⟨rfl, rfl⟩ := Prod.mk.inj (Except.ok.inj e1)
    have hlb := (List.getElem?_eq_some_iff.1 hb).1
    have hnb : ∃ m, counts[i + 1]? = some m := ⟨_, List.getElem?_eq_getElem (by omega)⟩
    obtain ⟨m, hm⟩ := hnb
    have := n2 (i + 1) b m hb hm
    exact (gap_zero (by omega) (by omega)).1 h0
  · intro h source hs keys hk key hkey firsts counts size hp
    obtain ⟨g1, g2, g3⟩ := h source hs keys hk key hkey firsts counts size hp
    obtain ⟨n1, n2⟩ := hfit source hs keys hk key hkey firsts counts size hp
    refine ⟨fun i a n ha hn => ?_, g1, fun i a n b ha hn hb => ?_⟩
    · rw [addU64_small (n2 i a n ha hn)]; exact g3 i a n ha hn
    · have he := g3 i a n ha hn
      rw [addU64_small (n2 i a n ha hn), gap_zero (by have := g2 i a n b ha hn hb; omega) (by omega)]
      exact g2 i a n b ha hn hb

/-- C41 is false when the end of a train overflows 64 bits: a count of 2^64 - 3 passes validation. -/
theorem validation_overflow_wrong :
    let f := exInst (ch! "a") [1, 2] [0, 5] [5, 2 ^ 64 - 3] [1, 2, 3, 4, 5]
    f.getIndex (ch! "D:o") (ch! "data") = .ok ([0, 5], [5, 18446744073709551613]) ∧
    f.runChecks = .ok [] := ⟨by decide, by decide⟩

/-- Differences are computed with doubles: an overlap is not found above 2^53. -/
theorem validation_rounding_wrong :
    checkIndexContiguous (ch! "X") [0, 9007199254740992] [9007199254740993, 0] = .ok [] := by decide

/-- C41, numbers of entries. When the check of an index returns, it reports different numbers of `first` and `count`, and a number
of entries which is not the number of trains. It returns whenever there are some entries, and as many of `first` as of `count`;
it raises IndexError if there are none, and ValueError if the two numbers differ and none of them is 1. -/
theorem lengths_report {f : FileAccess V} {source group : Str} {firsts counts : List Nat}
    (hp : f.getIndex source group = .ok (firsts, counts)) :
    (∀ ps, f.checkGroup source group = .ok ps →
      ((∃ d a b, .lengths d a b ∈ ps) ↔ firsts.length ≠ counts.length) ∧
      ((∃ d a b, .entries d a b ∈ ps) ↔ firsts.length ≠ f.trainIds.length) ∧
      (∀ d a b, .lengths d a b ∈ ps → d = ch! "INDEX/" ++ source ++ ch! "/" ++ group ∧ a = firsts.length ∧ b = counts.length) ∧
      (∀ d a b, .entries d a b ∈ ps → d = ch! "INDEX/" ++ source ++ ch! "/" ++ group ∧ a = firsts.length ∧
        b = f.trainIds.length)) ∧
    (firsts ≠ [] → firsts.length = counts.length → ∃ ps, f.checkGroup source group = .ok ps) ∧
    (firsts = [] → f.checkGroup source group = .error .index) ∧
    (firsts ≠ [] → firsts.length ≠ counts.length → firsts.length ≠ 1 → counts.length ≠ 1 →
      f.checkGroup source group = .error .value) := by
  have hcg : f.checkGroup source group = match checkIndexContiguous (ch! "INDEX/" ++ source ++ ch! "/" ++ group) firsts counts with
      | .error e => .error e
      | .ok p3 => .ok ((if firsts.length ≠ counts.length then
          [.lengths (ch! "INDEX/" ++ source ++ ch! "/" ++ group) firsts.length counts.length] else []) ++
          (if firsts.length ≠ f.trainIds.length then
            [.entries (ch! "INDEX/" ++ source ++ ch! "/" ++ group) firsts.length f.trainIds.length] else []) ++ p3) := by
    unfold FileAccess.checkGroup
    simp only
    rw [hp]
    rfl
  generalize ch! "INDEX/" ++ source ++ ch! "/" ++ group = path at hcg ⊢
  rw [hcg]
  refine ⟨?_, ?_, ?_, ?_⟩
  · intro ps hps
    cases hc : checkIndexContiguous path firsts counts with
    | error e => rw [hc] at hps; simp at hps
    | ok p3 =>
      rw [hc] at hps
      obtain rfl := Except.ok.inj hps
      have h3 : ∀ x ∈ p3, (∀ d a b, x ≠ .lengths d a b) ∧ ∀ d a b, x ≠ .entries d a b := by
        intro x hx
        unfold checkIndexContiguous at hc
        cases firsts with
        | nil => simp at hc
        | cons f0 fs =>
          simp only at hc
          have hgap : ∀ {p : Int → Bool} {mk : Nat → Nat → Nat → Nat → Nat → Problem} {gs ps},
              gapProblem p mk (f0 :: fs) counts gs = .ok ps → ∀ x ∈ ps, ∃ a b c d e, x = mk a b c d e := by
            intro p mk gs ps h x hx
            unfold gapProblem at h
            split at h
            · obtain rfl := Except.ok.inj h; simp at hx
            · split at h
              · obtain rfl := Except.ok.inj h
                exact ⟨_, _, _, _, _, List.mem_singleton.1 hx⟩
              · simp at h
          split at hc
          · simp at hc
          split at hc
          · simp at hc
          next p1 h1 =>
          split at hc
          · simp at hc
          next p2 h2 =>
          obtain rfl := Except.ok.inj hc
          rcases List.mem_append.1 hx with hx | hx
          · rcases List.mem_append.1 hx with hx | hx
            · split at hx
              · obtain rfl := List.mem_singleton.1 hx; simp
              · simp at hx
            · obtain ⟨_, _, _, _, _, rfl⟩ := hgap h1 x hx; simp
          · obtain ⟨_, _, _, _, _, rfl⟩ := hgap h2 x hx; simp
      have m1 : ∀ d a b, .lengths d a b ∈ (if firsts.length ≠ counts.length then
          [Problem.lengths path firsts.length counts.length] else []) ++
          (if firsts.length ≠ f.trainIds.length then [.entries path firsts.length f.trainIds.length] else []) ++ p3 ↔
          firsts.length ≠ counts.length ∧ d = path ∧ a = firsts.length ∧ b = counts.length := by
        intro d a b
        simp only [List.mem_append]
        constructor
        · rintro ((h | h) | h)
          · split at h
            next hne =>
              obtain ⟨h1, h2, h3⟩ := Problem.lengths.inj (List.mem_singleton.1 h)
              exact ⟨hne, h1, h2, h3⟩
            · simp at h
          · split at h <;> simp at h
          · exact absurd rfl ((h3 _ h).1 d a b)
        · rintro ⟨hne, rfl, rfl, rfl⟩
          left; left; rw [if_pos hne]; simp
      have m2 : ∀ d a b, .entries d a b ∈ (if firsts.length ≠ counts.length then
          [Problem.lengths path firsts.length counts.length] else []) ++
          (if firsts.length ≠ f.trainIds.length then [.entries path firsts.length f.trainIds.length] else []) ++ p3 ↔
          firsts.length ≠ f.trainIds.length ∧ d = path ∧ a = firsts.length ∧ b = f.trainIds.length := by
        intro d a b
        simp only [List.mem_append]
        constructor
        · rintro ((h | h) | h)
          · split at h <;> simp at h
          · split at h
            next hne =>
              obtain ⟨h1, h2, h3⟩ := Problem.entries.inj (List.mem_singleton.1 h)
              exact ⟨hne, h1, h2, h3⟩
            · simp at h
          · exact absurd rfl ((h3 _ h).2 d a b)
        · rintro ⟨hne, rfl, rfl, rfl⟩
          left; right; rw [if_pos hne]; simp
      refine ⟨⟨fun ⟨d, a, b, h⟩ => ((m1 d a b).1 h).1, fun h => ⟨_, _, _, (m1 _ _ _).2 ⟨h, rfl, rfl, rfl⟩⟩⟩,
        ⟨fun ⟨d, a, b, h⟩ => ((m2 d a b).1 h).1, fun h => ⟨_, _, _, (m2 _ _ _).2 ⟨h, rfl, rfl, rfl⟩⟩⟩,
        fun d a b h => ((m1 d a b).1 h).2, fun d a b h => ((m2 d a b).1 h).2⟩
  · intro hne hlen
    obtain ⟨ps, h1, -⟩ := checkIndexContiguous_nil (dataset := path) hne hlen
    rw [h1]
    exact ⟨_, rfl⟩
  · rintro rfl
    rfl
  · intro hne hlen h1 h2
    obtain ⟨f0, fs, rfl⟩ := List.exists_cons_of_ne_nil hne
    have hz : zipBroad addU64 (f0 :: fs) counts = .error .value := by
      unfold zipBroad
      rw [if_neg hlen]
      split
      next x h => simp_all
      next y h => simp at h2
      · rfl
    unfold checkIndexContiguous indexGaps
    simp only
    rw [hz]

/-- numpy uses the single entry of `count` for all trains: the difference is reported, unless a gap is to be described at another
place than the first. -/
example : (exInst (ch! "a") [1, 2, 3] [0, 1, 2] [1] [10, 20, 30]).runChecks = .ok [.lengths (ch! "INDEX/D:o/data") 3 1] ∧
    (exInst (ch! "a") [1, 2, 3] [0, 1, 3] [1] [10, 20, 30, 40]).runChecks = .error .index ∧
    (exInst (ch! "a") [1, 2, 3] [0] [1, 1] [10, 20, 30]).runChecks =
      .ok [.lengths (ch! "INDEX/D:o/data") 1 2, .entries (ch! "INDEX/D:o/data") 1 3] := ⟨by decide, by decide, by decide⟩

/-- Without trains, validation fails with IndexError. With different numbers of `first` and `count` it fails with
ValueError, before it could report that. -/
theorem validation_crashes :
    (exInst (ch! "a") [] [] [] []).runChecks = .error .index ∧
    (exInst (ch! "a") [1, 2, 3] [0, 1] [1, 1, 1] [10, 20, 30]).runChecks = .error .value := ⟨by decide, by decide⟩

theorem foldl_max {l : List Nat} : ∀ {m : Nat}, m ≤ l.foldl max m ∧ (∀ x ∈ l, x ≤ l.foldl max m) ∧
    (l.foldl max m = m ∨ l.foldl max m ∈ l) := by
  induction l with
  | nil => intro m; simp
  | cons a l ih =>
    intro m
    obtain ⟨h1, h2, h3⟩ := ih (m := max m a)
    rw [List.foldl_cons]
    refine ⟨by omega, ?_, ?_⟩
    · intro x hx
      rcases List.mem_cons.1 hx with rfl | hx
      · omega
      · exact h2 x hx
    · rcases h3 with h | h
      · rcases Nat.le_total m a with hm | hm
        · right; rw [h, Nat.max_eq_right hm]; simp
        · left; rw [h, Nat.max_eq_left hm]
      · right; exact List.mem_cons_of_mem _ h

/-- C41, one dataset: an index which refers to data outside of it is reported with the largest end of a train. -/
theorem outside_report_exact {f : FileAccess V} {source key : Str} {firsts counts : List Nat} {size : Nat}
    (hp : FieldParts f source key firsts counts size) (hlen : firsts.length = counts.length)
    (hfit : ∀ (i a n : Nat), firsts[i]? = some a → counts[i]? = some n → a + n < 2 ^ 64) :
    (InBounds firsts counts size → f.checkKey source key = .ok []) ∧
    (¬ InBounds firsts counts size → ∃ m,
      f.checkKey source key = .ok [.outside (ch! "INSTRUMENT/" ++ source ++ ch! "/" ++ replaceCh '.' '/' key) m size] ∧
      size < m ∧ (∃ i a n : Nat, firsts[i]? = some a ∧ counts[i]? = some n ∧ m = a + n) ∧
      ∀ (i a n : Nat), firsts[i]? = some a → counts[i]? = some n → a + n ≤ m) := by
  obtain ⟨ps, h1, h2⟩ := checkKey_eq hp hlen
  constructor
  · intro hin
    have : ps = [] := h2.2 (fun i a n ha hn => by rw [addU64_small (hfit i a n ha hn)]; exact hin i a n ha hn)
    rw [h1, this]
  · intro hout
    have hne : ps ≠ [] := fun h => hout (fun i a n ha hn => by
      have := h2.1 h i a n ha hn
      rwa [addU64_small (hfit i a n ha hn)] at this)
    obtain ⟨e1, ds, e2, rfl⟩ := hp
    have hd : need (f.file.datasets.get? (h5path (ch! "INSTRUMENT/" ++ source ++ ch! "/" ++ replaceCh '.' '/' key))) =
        .ok ds := by
      rw [← e2]
      unfold FileAccess.dataset
      rw [← h5path_noslash]
      rfl
    have hck := h1
    unfold FileAccess.checkKey at hck ⊢
    simp only at hck ⊢
    rw [show (partition '.' key).1 = groupName true key from rfl, e1, hd] at hck ⊢
    simp only at hck ⊢
    rw [zipBroad_eq hlen] at hck ⊢
    simp only at hck ⊢
    have hany : (List.zipWith addU64 firsts counts).any (fun e => decide (e > ds.rows.length)) = true := by
      by_contra hc
      rw [if_neg hc] at hck
      exact hne (Except.ok.inj hck).symm
    rw [if_pos hany]
    refine ⟨_, rfl, ?_⟩
    obtain ⟨-, m1, m2⟩ := foldl_max (l := List.zipWith addU64 firsts counts) (m := 0)
    rw [List.any_eq_true] at hany
    obtain ⟨e, he, hgt⟩ := hany
    have hgt : ds.rows.length < e := by simpa using hgt
    have hbig := m1 e he
    have hget : ∀ (i a n : Nat), firsts[i]? = some a → counts[i]? = some n →
        (List.zipWith addU64 firsts counts)[i]? = some (a + n) := by
      intro i a n ha hn
      rw [List.getElem?_zipWith_eq_some]
      exact ⟨a, n, ha, hn, addU64_small (hfit i a n ha hn)⟩
    refine ⟨by unfold maxOf; omega, ?_, ?_⟩
    · rcases m2 with m2 | m2
      · omega
      · obtain ⟨i, hi⟩ := List.mem_iff_getElem?.1 m2
        have hi' := hi
        rw [List.getElem?_zipWith_eq_some] at hi'
        obtain ⟨a, n, ha, hn, -⟩ := hi'
        rw [hget i a n ha hn] at hi
        exact ⟨i, a, n, ha, hn, (Option.some.inj hi).symm⟩
    · intro i a n ha hn
      exact m1 _ (List.mem_of_getElem? (hget i a n ha hn))

example : (exInst (ch! "a") [1, 2, 3] [0, 1, 4] [2, 1, 5] [1, 2, 3]).runChecks =
    .ok [.outside (ch! "INSTRUMENT/D:o/data/y") 9 3, .gaps (ch! "INDEX/D:o/data") 1 1 1 1 4,
      .overlaps (ch! "INDEX/D:o/data") 1 0 0 2 1] := by decide

/-- The conditions of C41 hold for valid fields with small numbers. -/
example : (exInst (ch! "a") [1, 2, 3] [0, 2, 3] [2, 1, 0] [1, 2, 3]).validate = .ok none := by decide

/-! ### C40 -/

/-- C40. A file written by `write` (under the conditions of `write_read_partial`, and for datasets with less than 2^53
entries) passes validation without problems. -/
theorem written_file_valid {c : DC V} {h : H5File V} (name : Str) (hw : Writable c) (hwr : c.write = .ok h)
    (hkeys : ∀ s ∈ c.allSources, ∃ k, Available c s k) (hsize : ∀ p ∈ h.datasets, p.2.rows.length < 2 ^ 53) :
    ∃ f, FileAccess.init name h none = .ok f ∧ f.runChecks = .ok [] ∧ f.validate = .ok none := by
  obtain ⟨f, h1, h2, h3, h4, h5, h6⟩ := write_read_partial name hw hwr hkeys
    (fun p hp => by have := hsize p hp; omega)
  have hfile : f.file = h ∧ ∃ tids, h.trainId = some tids ∧ tids.filter (fun t => t != 0) = f.trainIds := by
    unfold FileAccess.init at h1
    simp only at h1
    split at h1
    · simp at h1
    next tids ht =>
    split at h1
    · simp at h1
    next cs is _ =>
    obtain rfl := Except.ok.inj h1
    refine ⟨rfl, tids, ?_, rfl⟩
    unfold need at ht
    split at ht
    next a ha => rw [ha, Except.ok.inj ht]
    · simp at ht
  obtain ⟨hf, -⟩ := hfile
  have htid : h.trainId = some c.trainIds := by
    obtain ⟨Fs, w, -, -, hfin⟩ := write_ok hwr
    unfold WState.finish at hfin
    split at hfin
    · simp at hfin
    · obtain rfl := Except.ok.inj hfin; rfl
  have hrun : f.runChecks = .ok [] := by
    obtain ⟨qs, t1, t2, -⟩ := train_id_check_exact htid
    have hq : qs = [] := t2.2 ⟨⟨c.trainIds, 0, by simp, hw.nonzero⟩, hw.trains.filter _⟩
    subst hq
    have hfield : ∀ s ∈ f.instrumentSources, ∀ keys, f.getKeys s = .ok keys → ∀ k ∈ keys, HasField c true s k := by
      intro s hs keys hk k hkey
      have hs' := (h4 s).1 hs
      obtain ⟨ks, g1, -, g3⟩ := h5 s (by unfold DC.allSources; simp [hs'])
      rw [hk] at g1
      obtain rfl := Except.ok.inj g1
      exact ⟨by simpa using hs', ((g3 k).1 hkey).2⟩
    have hci : f.checkIndices = .ok [] := by
      by_cases hne : f.trainIds = []
      · have : f.instrumentSources = [] := by
          rw [List.eq_nil_iff_forall_not_mem]
          intro s hs
          have hs' := (h4 s).1 hs
          obtain ⟨k, hk⟩ := hkeys s (by unfold DC.allSources; simp [hs'])
          exact (h6 true s k ⟨by simpa using hs', hk.2⟩).1.someTrain hne
        unfold FileAccess.checkIndices
        rw [this]; rfl
      · have hparts : ∀ s k, HasField c true s k → ∃ firsts counts size, FieldParts f s k firsts counts size ∧
            firsts.length = f.trainIds.length ∧ counts.length = f.trainIds.length ∧ size < 2 ^ 53 ∧
            GoodIndex firsts counts size := by
          intro s k hF
          obtain ⟨hv, hz, -, -⟩ := h6 true s k hF
          obtain ⟨firsts, counts, ds, d1, d2, d3, d4, d5, d6⟩ := hv.data
          obtain ⟨firsts', counts', z1, z2⟩ := hz
          rw [d1] at z1
          obtain ⟨rfl, rfl⟩ := Prod.mk.inj (Except.ok.inj z1)
          refine ⟨firsts, counts, _, ⟨d1, ds, d2, rfl⟩, d3, d4, ?_, ⟨z2, d5, d6⟩⟩
          unfold FileAccess.dataset need at d2
          split at d2
          next a ha =>
            rw [hf] at ha
            obtain rfl := Except.ok.inj d2
            exact hsize _ (Dict.mem_of_get? ha)
          · simp at d2
        have huniq : ∀ {s k firsts counts size firsts' counts' size'}, FieldParts f s k firsts counts size →
            FieldParts f s k firsts' counts' size' → firsts' = firsts ∧ counts' = counts ∧ size' = size := by
          rintro s k firsts counts size firsts' counts' size' ⟨e1, ds, e2, e3⟩ ⟨e1', ds', e2', e3'⟩
          rw [e1] at e1'; rw [e2] at e2'
          obtain ⟨rfl, rfl⟩ := Prod.mk.inj (Except.ok.inj e1')
          obtain rfl := Except.ok.inj e2'
          exact ⟨rfl, rfl, e3'.symm.trans e3⟩
        obtain ⟨ps, c1, c2⟩ := index_validation_partial (f := f) (fun s hs => by
          have hs' := (h4 s).1 hs
          obtain ⟨ks, g1, -, g3⟩ := h5 s (by unfold DC.allSources; simp [hs'])
          refine ⟨ks, g1, fun k hk => ?_⟩
          obtain ⟨a, b, d, e1, e2, e3, -⟩ := hparts s k (hfield s hs ks g1 k hk)
          exact ⟨a, b, d, e1, e2, e3⟩) hne (fun s hs keys hk k hkey firsts counts size hp => by
          obtain ⟨a, b, d, e1, e2, e3, e4, e5⟩ := hparts s k (hfield s hs keys hk k hkey)
          obtain ⟨rfl, rfl, rfl⟩ := huniq e1 hp
          refine ⟨e4, fun i a n ha hn => ?_⟩
          have := e5.inBounds i a n ha hn
          omega)
        have : ps = [] := c2.2 (fun s hs keys hk k hkey firsts counts size hp => by
          obtain ⟨a, b, d, e1, e2, e3, e4, e5⟩ := hparts s k (hfield s hs keys hk k hkey)
          obtain ⟨rfl, rfl, rfl⟩ := huniq e1 hp
          exact e5)
        rw [c1, this]
    unfold FileAccess.runChecks
    rw [hci]
    simp only
    rw [hf, t1]
    rfl
  refine ⟨f, h1, hrun, ?_⟩
  unfold FileAccess.validate
  rw [hrun]

example : (match readBack exWrite with | .ok f => f.validate | .error e => .error e) = .ok none := by decide

end KD
