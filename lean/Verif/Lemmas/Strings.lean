/- Helper lemmas for strings and HDF5 paths. -/
import Verif.Model.FileAccess
import Verif.Lemmas.Basic

namespace KD

theorem splitCh_ne_nil (sep : Char) (s : Str) : splitCh sep s ≠ [] := by
  cases s with
  | nil => simp [splitCh]
  | cons c cs =>
    simp only [splitCh]
    split
    · simp
    · split <;> simp

theorem splitCh_append (sep : Char) (a b : Str) :
    splitCh sep (a ++ sep :: b) = splitCh sep a ++ splitCh sep b := by
  induction a with
  | nil => simp [splitCh]
  | cons c a ih =>
    simp only [List.cons_append, splitCh, ih]
    split
    · simp
    · cases h : splitCh sep a with
      | nil => exact absurd h (splitCh_ne_nil sep a)
      | cons x t => simp

theorem splitCh_notMem {sep : Char} {s : Str} (h : sep ∉ s) : splitCh sep s = [s] := by
  induction s with
  | nil => rfl
  | cons c s ih =>
    simp only [List.mem_cons, not_or] at h
    simp only [splitCh, ih h.2]
    rw [if_neg (Ne.symm h.1)]

theorem splitCh_joinCh {sep : Char} {ps : List Str} (hne : ps ≠ []) (h : ∀ p ∈ ps, sep ∉ p) :
    splitCh sep (joinCh sep ps) = ps := by
  induction ps with
  | nil => exact absurd rfl hne
  | cons p ps ih =>
    cases ps with
    | nil => simpa [joinCh] using splitCh_notMem (h p (by simp))
    | cons q ps =>
      rw [joinCh, splitCh_append, ih (by simp) (fun x hx => h x (by simp [hx])),
        splitCh_notMem (h p (by simp))]
      rfl

theorem h5path_append (a b : Str) : h5path (a ++ '/' :: b) = h5path a ++ h5path b := by
  simp [h5path, splitCh_append]

theorem h5path_nil : h5path [] = [] := rfl

theorem h5path_slash (b : Str) : h5path ('/' :: b) = h5path b := by
  have := h5path_append [] b
  simpa [h5path_nil] using this

theorem h5path_single {s : Str} (h : '/' ∉ s) (hne : s ≠ []) : h5path s = [s] := by
  simp [h5path, splitCh_notMem h, hne]

/-- Components which can name an HDF5 object. -/
def PlainComponent (p : Str) : Prop := p ≠ [] ∧ '/' ∉ p

theorem h5path_joinCh {ps : List Str} (h : ∀ p ∈ ps, PlainComponent p) : h5path (joinCh '/' ps) = ps := by
  cases ps with
  | nil => rfl
  | cons p ps =>
    rw [h5path, splitCh_joinCh (by simp) (fun q hq => (h q hq).2)]
    apply List.filter_eq_self.2
    intro q hq
    simpa [List.isEmpty_iff] using (h q hq).1

theorem h5path_plain (s : Str) : ∀ p ∈ h5path s, p ≠ [] := by
  intro p hp
  simp [h5path] at hp
  exact hp.2

theorem replaceCh_append (a b : Char) (s t : Str) :
    replaceCh a b (s ++ t) = replaceCh a b s ++ replaceCh a b t := by simp [replaceCh]

theorem replaceCh_notMem {a b : Char} {s : Str} (h : a ∉ s) : replaceCh a b s = s := by
  unfold replaceCh
  conv_rhs => rw [← List.map_id s]
  apply List.map_congr_left
  intro c hc
  have : c ≠ a := fun e => h (e ▸ hc)
  simp [this]

theorem replaceCh_back {a b : Char} {s : Str} (h : b ∉ s) : replaceCh b a (replaceCh a b s) = s := by
  unfold replaceCh
  rw [List.map_map]
  conv_rhs => rw [← List.map_id s]
  apply List.map_congr_left
  intro c hc
  have : c ≠ b := fun e => h (e ▸ hc)
  by_cases hca : c = a
  · simp [hca]
  · simp [hca, this]

theorem mem_joinCh {sep x : Char} {ps : List Str} (h : x ∈ joinCh sep ps) : x = sep ∨ ∃ p ∈ ps, x ∈ p := by
  induction ps with
  | nil => simp [joinCh] at h
  | cons p ps ih =>
    cases ps with
    | nil => right; exact ⟨p, by simp, by simpa [joinCh] using h⟩
    | cons q ps =>
      simp only [joinCh, List.mem_append, List.mem_cons] at h
      rcases h with h | h | h
      · right; exact ⟨p, by simp, h⟩
      · left; exact h
      · rcases ih h with h | ⟨r, hr, h⟩
        · left; exact h
        · right; exact ⟨r, by simp [hr], h⟩

theorem joinCh_replace {a b : Char} (ps : List Str) (h : ∀ p ∈ ps, a ∉ p) :
    replaceCh a b (joinCh a ps) = joinCh b ps := by
  induction ps with
  | nil => rfl
  | cons p ps ih =>
    have hp := replaceCh_notMem (b := b) (h p (by simp))
    cases ps with
    | nil => simpa [joinCh] using hp
    | cons q ps =>
      have := ih (fun x hx => h x (by simp [hx]))
      rw [joinCh, replaceCh_append, hp, joinCh]
      congr 1
      simp only [replaceCh, List.map_cons, if_true] at this ⊢
      rw [this]

/-! ### partition -/

theorem partition_notMem {sep : Char} {s : Str} (h : sep ∉ s) : partition sep s = (s, []) := by
  induction s with
  | nil => rfl
  | cons c s ih =>
    simp only [List.mem_cons, not_or] at h
    simp [partition, Ne.symm h.1, ih h.2]

theorem partition_append {sep : Char} {a b : Str} (h : sep ∉ a) : partition sep (a ++ sep :: b) = (a, b) := by
  induction a with
  | nil => simp [partition]
  | cons c a ih =>
    simp only [List.mem_cons, not_or] at h
    simp [partition, Ne.symm h.1, ih h.2]

theorem partition_fst_notMem (sep : Char) (s : Str) : sep ∉ (partition sep s).1 := by
  induction s with
  | nil => simp [partition]
  | cons c s ih =>
    simp only [partition]
    split
    · simp
    · next h => simp [Ne.symm h, ih]

theorem partition_eq (sep : Char) (s : Str) :
    s = (partition sep s).1 ++ sep :: (partition sep s).2 ∨ s = (partition sep s).1 ∧ (partition sep s).2 = [] := by
  induction s with
  | nil => simp [partition]
  | cons c s ih =>
    by_cases h : c = sep
    · left; simp [partition, h]
    · simp only [partition, if_neg h]
      rcases ih with ih | ih
      · left; simpa using ih
      · right; simpa using ih

/-- The text of a number has only digits. -/
theorem natStr_digit {n : Nat} {c : Char} (h : c ∈ natStr n) : c.isDigit = true :=
  Nat.isDigit_of_mem_toDigits (by decide) (by decide) h

/-- Different numbers have different texts. -/
theorem natStr_inj {m n : Nat} (h : natStr m = natStr n) : m = n := by
  have := congrArg (fun l => Nat.ofDigitChars 10 l 0) h
  simpa [natStr, Nat.ofDigitChars_ten_toDigits] using this

/-- A number ends where the digits end. -/
theorem num_split {m n : Nat} {c c' : Char} {r r' : Str} (hc : c.isDigit = false) (hc' : c'.isDigit = false)
    (h : natStr m ++ c :: r = natStr n ++ c' :: r') : m = n ∧ c = c' ∧ r = r' := by
  have hd : ∀ k, ∀ a ∈ natStr k, Char.isDigit a = true := fun k a ha => natStr_digit ha
  have h1 := congrArg (List.takeWhile Char.isDigit) h
  rw [List.takeWhile_append_of_pos (hd m), List.takeWhile_append_of_pos (hd n)] at h1
  simp only [List.takeWhile_cons, hc, hc', Bool.false_eq_true, if_false, List.append_nil] at h1
  obtain rfl := natStr_inj h1
  simpa using h

end KD
