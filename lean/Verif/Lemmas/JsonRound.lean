/- Reading what was written. -/
import Verif.Lemmas.Json

namespace KD
open Spec

/-! ### Strings -/

theorem hexValue_digit {n : Nat} (h : n < 16) : hexValue (hexDigit n) = some n := by
  have : ∀ k : Fin 16, hexValue (hexDigit k.1) = some k.1 := by decide
  exact this ⟨n, h⟩

theorem scanUnit_uEscape {n : Nat} (h : n < 65536) (r : Str) :
    ∃ t, uEscape n = '\\' :: t ∧ scanUnit '\\' (t ++ r) = some ((n, true), r) := by
  refine ⟨_, rfl, ?_⟩
  simp only [scanUnit, if_true, List.cons_append, List.nil_append, hexFour]
  rw [hexValue_digit (Nat.mod_lt _ (by decide)), hexValue_digit (Nat.mod_lt _ (by decide)), hexValue_digit (Nat.mod_lt _ (by decide)),
    hexValue_digit (Nat.mod_lt _ (by decide))]
  have : n / 4096 % 16 * 4096 + n / 256 % 16 * 256 + n / 16 % 16 * 16 + n % 16 = n := by omega
  simp only [this]

/-- A character below 65536 is read as it was written. -/
theorem scanUnit_jsonChar {n : Nat} (h : n < 65536) :
    ∃ c t b, jsonChar n = c :: t ∧ c ≠ '"' ∧ ∀ r, scanUnit c (t ++ r) = some ((n, b), r) := by
  unfold jsonChar
  split
  next h1 => subst h1; exact ⟨_, _, _, rfl, by decide, fun r => rfl⟩
  split
  next h1 => subst h1; exact ⟨_, _, _, rfl, by decide, fun r => rfl⟩
  split
  next h1 => subst h1; exact ⟨_, _, _, rfl, by decide, fun r => rfl⟩
  split
  next h1 => subst h1; exact ⟨_, _, _, rfl, by decide, fun r => rfl⟩
  split
  next h1 => subst h1; exact ⟨_, _, _, rfl, by decide, fun r => rfl⟩
  split
  next h1 => subst h1; exact ⟨_, _, _, rfl, by decide, fun r => rfl⟩
  split
  next h1 => subst h1; exact ⟨_, _, _, rfl, by decide, fun r => rfl⟩
  split
  next h34 h92 _ _ _ _ _ h1 =>
    have hv : Nat.isValidChar n := Or.inl (by omega)
    have hn : (Char.ofNat n).toNat = n := by
      unfold Char.ofNat; rw [dif_pos hv]; rfl
    refine ⟨_, _, false, rfl, fun hc => ?_, fun r => ?_⟩
    · rw [hc] at hn; exact h34 hn.symm
    · unfold scanUnit
      rw [if_neg (fun hc => h92 (by rw [hc] at hn; exact hn.symm)), hn, if_neg (by omega)]
      rfl
  · exact ⟨_, _, true, rfl, by decide, fun r => by obtain ⟨t, h1, h2⟩ := scanUnit_uEscape h r; obtain ⟨-, rfl⟩ := List.cons.inj h1; exact h2⟩

theorem jsonChar_big {n : Nat} (h : 65536 ≤ n) :
    jsonChar n = uEscape (0xd800 + (n - 0x10000) / 1024 % 1024) ++ uEscape (0xdc00 + (n - 0x10000) % 1024) := by
  unfold jsonChar
  rw [if_neg (by omega), if_neg (by omega), if_neg (by omega), if_neg (by omega), if_neg (by omega), if_neg (by omega), if_neg (by omega),
    if_neg (by omega), if_neg (by omega)]

theorem hasPair_cons {n : Nat} {s : List Nat} (h : HasPair s) : HasPair (n :: s) := by
  obtain ⟨a, x, y, b, rfl, h⟩ := h
  exact ⟨n :: a, x, y, b, rfl, h⟩

/-- The two halves of a large character. -/
theorem big_parts {n : Nat} (h : 65536 ≤ n) (hn : n < 0x110000) :
    ∃ hi lo, jsonChar n = uEscape hi ++ uEscape lo ∧ hi < 65536 ∧ lo < 65536 ∧ isHigh hi = true ∧ isLow lo = true ∧ isLow hi = false ∧
      0x10000 + (hi - 0xd800) * 1024 + (lo - 0xdc00) = n := by
  refine ⟨_, _, jsonChar_big h, by omega, by omega, ?_, ?_, ?_, by omega⟩
  · unfold isHigh; rw [Bool.and_eq_true, decide_eq_true_eq, decide_eq_true_eq]; omega
  · unfold isLow; rw [Bool.and_eq_true, decide_eq_true_eq, decide_eq_true_eq]; omega
  · unfold isLow; rw [Bool.and_eq_false_iff, decide_eq_false_iff_not, decide_eq_false_iff_not]; omega

/-- The characters of a string are read as they were written. -/
theorem scanUnits_jsonStr {s : List Nat} (hs : JsonString s) :
    ∃ us, (∀ n rest, (s.flatMap jsonChar).length + 1 ≤ n → scanUnits n (s.flatMap jsonChar ++ '"' :: rest) = some (us, rest)) ∧
      joinUnits us = s ∧ ∀ w ∈ us.head?, isLow w.1 = true → ∃ t, s = w.1 :: t := by
  induction s with
  | nil =>
    refine ⟨[], fun n rest hn => ?_, rfl, by simp⟩
    obtain ⟨m, rfl⟩ : ∃ k, n = k + 1 := ⟨n - 1, by simp at hn; omega⟩
    simp [scanUnits]
  | cons n s ih =>
    obtain ⟨us, h1, h2, h3⟩ := ih ⟨fun m hm => hs.1 m (List.mem_cons_of_mem _ hm), fun hp => hs.2 (hasPair_cons hp)⟩
    by_cases hn : n < 65536
    · obtain ⟨c, t, b, hc, hq, hu⟩ := scanUnit_jsonChar hn
      refine ⟨(n, b) :: us, fun m rest hm => ?_, ?_, ?_⟩
      · obtain ⟨m, rfl⟩ : ∃ k, m = k + 1 := ⟨m - 1, by omega⟩
        rw [List.flatMap_cons, hc] at hm ⊢
        simp only [List.cons_append, List.append_assoc, List.length_append, List.length_cons] at hm ⊢
        unfold scanUnits
        rw [if_neg hq, hu]
        simp only
        rw [h1 m rest (by omega)]
      · cases us with
        | nil => simp only [joinUnits] at h2 ⊢; rw [← h2]
        | cons w ws =>
          simp only [joinUnits]
          rw [if_neg, h2]
          rintro ⟨-, -, hh, hl⟩
          obtain ⟨t', rfl⟩ := h3 w (by simp) hl
          refine hs.2 ⟨[], n, w.1, t', rfl, ?_⟩
          simp only [isHigh, isLow, Bool.and_eq_true, decide_eq_true_eq] at hh hl
          exact ⟨hh.1, hh.2, hl.1, hl.2⟩
      · intro w hw hl
        simp only [List.head?_cons, Option.mem_def, Option.some.injEq] at hw
        subst hw
        exact ⟨s, rfl⟩
    · obtain ⟨hi, lo, hc, ha, hb, p1, p2, p3, p4⟩ := big_parts (Nat.le_of_not_lt hn) (hs.1 n (by simp))
      refine ⟨(hi, true) :: (lo, true) :: us, fun m rest hm => ?_, ?_, ?_⟩
      · rw [List.flatMap_cons, hc] at hm ⊢
        have hl : ∀ k, (uEscape k).length = 6 := fun k => rfl
        simp only [List.length_append, hl] at hm
        obtain ⟨m, rfl⟩ : ∃ k, m = k + 2 := ⟨m - 2, by omega⟩
        obtain ⟨t1, e1, u1⟩ := scanUnit_uEscape ha (uEscape lo ++ (s.flatMap jsonChar ++ '"' :: rest))
        obtain ⟨t2, e2, u2⟩ := scanUnit_uEscape hb (s.flatMap jsonChar ++ '"' :: rest)
        simp only [List.append_assoc]
        rw [e1, List.cons_append]
        unfold scanUnits
        rw [if_neg (by decide), u1]
        simp only
        rw [e2, List.cons_append]
        unfold scanUnits
        rw [if_neg (by decide), u2]
        simp only
        rw [h1 m rest (by omega)]
      · simp only [joinUnits]
        rw [if_pos ⟨trivial, trivial, p1, p2⟩, h2, p4]
      · intro w hw hl
        simp only [List.head?_cons, Option.mem_def, Option.some.injEq] at hw
        subst hw
        rw [p3] at hl
        exact absurd hl (by decide)

theorem scanString_jsonStr {s : List Nat} (hs : JsonString s) (rest : Str) :
    ∃ t, jsonStr s = '"' :: t ∧ scanString (t ++ rest) = some (s, rest) := by
  refine ⟨s.flatMap jsonChar ++ ['"'], rfl, ?_⟩
  obtain ⟨us, h1, h2, -⟩ := scanUnits_jsonStr hs
  unfold scanString
  simp only [List.nil_append, List.append_assoc, List.cons_append]
  rw [h1 _ rest (by simp only [List.length_append, List.length_cons]; omega)]
  simp only [h2]

/-! ### Numbers -/

theorem isAsciiDigit_eq (c : Char) : isAsciiDigit c = c.isDigit := by
  unfold isAsciiDigit Char.isDigit
  rfl

theorem ends_notDigit {r : Str} (h : Ends r) : ∃ c t, r = c :: t ∧ isAsciiDigit c = false ∧ c ≠ '.' ∧ c ≠ 'e' ∧ c ≠ 'E' := by
  obtain ⟨c, t, rfl, hc⟩ := h
  refine ⟨c, t, rfl, ?_⟩
  rcases hc with hc | rfl | rfl | rfl
  · unfold isJsonSpace at hc
    simp only [Bool.or_eq_true, decide_eq_true_eq] at hc
    rcases hc with ((rfl | rfl) | rfl) | rfl <;> decide
  all_goals decide

theorem spanDigits_all {ds r : Str} (hd : ∀ c ∈ ds, c.isDigit = true) (hr : ∀ c ∈ r.head?, isAsciiDigit c = false) :
    spanDigits (ds ++ r) = (ds, r) := by
  unfold spanDigits
  have h : ∀ c ∈ ds, isAsciiDigit c = true := fun c hc => (isAsciiDigit_eq c).trans (hd c hc)
  rw [List.takeWhile_append_of_pos h, List.dropWhile_append_of_pos h]
  cases r with
  | nil => simp
  | cons c r =>
    have := hr c (by simp)
    simp [this]

theorem scanFrac_none {r : Str} (h : ∀ c ∈ r.head?, c ≠ '.') : scanFrac r = ([], r) := by
  cases r with
  | nil => rfl
  | cons c r => simp only [scanFrac]; rw [if_neg (h c (by simp))]

theorem scanExp_none {r : Str} (h : ∀ c ∈ r.head?, c ≠ 'e' ∧ c ≠ 'E') : scanExp r = ([], r) := by
  cases r with
  | nil => rfl
  | cons c r =>
    have := h c (by simp)
    simp only [scanExp]; rw [if_neg (by rintro (h | h); exacts [this.1 h, this.2 h])]

theorem ends_head {r : Str} (h : Ends r) : ∀ c ∈ r.head?, isAsciiDigit c = false ∧ c ≠ '.' ∧ c ≠ 'e' ∧ c ≠ 'E' := by
  obtain ⟨c, t, rfl, hx⟩ := ends_notDigit h
  intro d hd
  simp only [List.head?_cons, Option.mem_def, Option.some.injEq] at hd
  subst hd
  exact hx

theorem digitChar_ne_zero {n : Nat} (h : n < 10) (h0 : n ≠ 0) : n.digitChar ≠ '0' := by
  have : ∀ k : Fin 10, k.1 ≠ 0 → Nat.digitChar k.1 ≠ '0' := by decide
  exact this ⟨n, h⟩ h0

theorem natStr_head {n : Nat} (h : n ≠ 0) : (natStr n).head? ≠ some '0' := by
  unfold natStr
  induction n using Nat.strongRecOn with
  | _ n ih =>
    by_cases hn : n < 10
    · rw [Nat.toDigits_of_lt_base hn]
      simp only [List.head?_cons, ne_eq, Option.some.injEq]
      exact digitChar_ne_zero hn h
    · rw [Nat.toDigits_of_base_le (by decide) (by omega)]
      have := ih (n / 10) (by omega) (by omega)
      obtain ⟨c, t, hc⟩ := List.exists_cons_of_ne_nil (Nat.toDigits_ne_nil (n := n / 10) (b := 10))
      rw [hc] at this ⊢
      simpa using this

/-- An integer part is "0" or does not begin with "0". -/
theorem scanIntPart_all {i r : Str} (hi : i = ['0'] ∨ Digits i ∧ i.head? ≠ some '0') (hr : ∀ c ∈ r.head?, isAsciiDigit c = false) :
    scanIntPart (i ++ r) = some (i, r) := by
  rcases hi with rfl | ⟨⟨h1, h2⟩, h3⟩
  · simp [scanIntPart]
  · obtain ⟨c, t, rfl⟩ := List.exists_cons_of_ne_nil h1
    simp only [List.head?_cons, ne_eq, Option.some.injEq] at h3
    simp only [List.cons_append, scanIntPart]
    rw [if_neg h3, if_pos ((isAsciiDigit_eq c).trans (h2 c (by simp))), spanDigits_all (fun d hd => h2 d (by simp [hd])) hr]

theorem natStr_intPart (n : Nat) : natStr n = ['0'] ∨ Digits (natStr n) ∧ (natStr n).head? ≠ some '0' := by
  by_cases h : n = 0
  · subst h; exact Or.inl (by unfold natStr; exact Nat.toDigits_zero 10)
  · exact Or.inr ⟨⟨Nat.toDigits_ne_nil, fun c hc => natStr_digit hc⟩, natStr_head h⟩

theorem scanNumber_natStr (neg : Bool) (n : Nat) {r : Str} (hr : Ends r) :
    scanNumber neg (natStr n ++ r) = some (.int (if neg then - (n : Int) else n), r) := by
  have he := ends_head hr
  unfold scanNumber
  rw [scanIntPart_all (natStr_intPart n) (fun c hc => (he c hc).1)]
  simp only
  rw [scanFrac_none (fun c hc => (he c hc).2.1)]
  simp only
  rw [scanExp_none (fun c hc => (he c hc).2.2)]
  have : Nat.ofDigitChars 10 (natStr n) 0 = n := Nat.ofDigitChars_ten_toDigits
  simp only [this, and_self, if_true]

theorem scanExp_all {exp r : Str} (h : exp = [] ∨ ∃ e sgn ds, (e = 'e' ∨ e = 'E') ∧ (sgn = [] ∨ sgn = ['-'] ∨ sgn = ['+']) ∧ Digits ds ∧ exp = e :: (sgn ++ ds))
    (hr : Ends r) : scanExp (exp ++ r) = (exp, r) := by
  have he := ends_head hr
  rcases h with rfl | ⟨e, sgn, ds, h1, h2, ⟨h3, h4⟩, rfl⟩
  · exact scanExp_none (fun c hc => (he c hc).2.2)
  · simp only [List.cons_append, scanExp]
    rw [if_pos h1]
    have hs : scanSign (sgn ++ ds ++ r) = (sgn, ds ++ r) := by
      rcases h2 with rfl | rfl | rfl
      · obtain ⟨c, t, rfl⟩ := List.exists_cons_of_ne_nil h3
        simp only [List.nil_append, List.cons_append, scanSign]
        rw [if_neg]
        have := h4 c (by simp)
        rintro (rfl | rfl) <;> revert this <;> decide
      · simp [scanSign]
      · simp [scanSign]
    rw [hs]
    simp only
    rw [spanDigits_all h4 (fun c hc => (he c hc).1)]
    obtain ⟨c, t, rfl⟩ := List.exists_cons_of_ne_nil h3
    rfl

theorem scanNumber_float (neg : Bool) {int frac exp r : Str} (hi : int = ['0'] ∨ Digits int ∧ int.head? ≠ some '0')
    (hf : frac = [] ∨ ∃ ds, Digits ds ∧ frac = '.' :: ds)
    (he : exp = [] ∨ ∃ e sgn ds, (e = 'e' ∨ e = 'E') ∧ (sgn = [] ∨ sgn = ['-'] ∨ sgn = ['+']) ∧ Digits ds ∧ exp = e :: (sgn ++ ds))
    (hne : frac ≠ [] ∨ exp ≠ []) (hr : Ends r) :
    scanNumber neg (int ++ (frac ++ (exp ++ r))) = some (.float ((if neg then ['-'] else []) ++ (int ++ (frac ++ exp))), r) := by
  have hend := ends_head hr
  have hexp : ∀ c ∈ (exp ++ r).head?, isAsciiDigit c = false ∧ c ≠ '.' := by
    rcases he with rfl | ⟨e, sgn, ds, h1, -, -, rfl⟩
    · exact fun c hc => ⟨(hend c hc).1, (hend c hc).2.1⟩
    · intro c hc
      simp only [List.cons_append, List.head?_cons, Option.mem_def, Option.some.injEq] at hc
      subst hc
      rcases h1 with rfl | rfl <;> decide
  have hfrac : ∀ c ∈ (frac ++ (exp ++ r)).head?, isAsciiDigit c = false := by
    rcases hf with rfl | ⟨ds, -, rfl⟩
    · exact fun c hc => (hexp c hc).1
    · intro c hc
      simp only [List.cons_append, List.head?_cons, Option.mem_def, Option.some.injEq] at hc
      subst hc; decide
  have hsf : scanFrac (frac ++ (exp ++ r)) = (frac, exp ++ r) := by
    rcases hf with rfl | ⟨ds, ⟨h3, h4⟩, rfl⟩
    · exact scanFrac_none (fun c hc => (hexp c hc).2)
    · simp only [List.cons_append, scanFrac, if_true]
      rw [spanDigits_all h4 (fun c hc => (hexp c hc).1)]
      obtain ⟨c, t, rfl⟩ := List.exists_cons_of_ne_nil h3
      rfl
  unfold scanNumber
  rw [scanIntPart_all hi hfrac]
  simp only
  rw [hsf]
  simp only
  rw [scanExp_all he hr]
  simp only
  rw [if_neg (by rintro ⟨h1, h2⟩; exact hne.elim (fun h => h h1) (fun h => h h2))]

/-- The first character of a number. -/
theorem digit_first {c : Char} (h : c.isDigit = true) : c ≠ 'n' ∧ c ≠ 't' ∧ c ≠ 'f' ∧ c ≠ '-' ∧ c ≠ 'N' ∧ c ≠ 'I' ∧ c ≠ '"' ∧ c ≠ '[' ∧
    c ≠ '{' ∧ c ≠ ']' ∧ isJsonSpace c = false := by
  refine ⟨?_, ?_, ?_, ?_, ?_, ?_, ?_, ?_, ?_, ?_, ?_⟩
  case refine_11 =>
    cases hs : isJsonSpace c with
    | false => rfl
    | true =>
      unfold isJsonSpace at hs
      simp only [Bool.or_eq_true, decide_eq_true_eq] at hs
      rcases hs with ((rfl | rfl) | rfl) | rfl <;> revert h <;> decide
  all_goals (rintro rfl; revert h; decide)

theorem scanAtom_digit {c : Char} (h : c.isDigit = true) (s : Str) : scanAtom (c :: s) = scanNumber false (c :: s) := by
  obtain ⟨h1, h2, h3, h4, h5, h6, -⟩ := digit_first h
  simp only [scanAtom]
  rw [if_neg h1, if_neg h2, if_neg h3, if_neg h4, if_neg h5, if_neg h6]

theorem intPart_head {i : Str} (hi : i = ['0'] ∨ Digits i ∧ i.head? ≠ some '0') : ∃ c t, i = c :: t ∧ c.isDigit = true := by
  rcases hi with rfl | ⟨⟨h1, h2⟩, -⟩
  · exact ⟨_, _, rfl, by decide⟩
  · obtain ⟨c, t, rfl⟩ := List.exists_cons_of_ne_nil h1
    exact ⟨c, t, rfl, h2 c (by simp)⟩

theorem scanAtom_int (i : Int) {r : Str} (hr : Ends r) : scanAtom (jsonInt i ++ r) = some (.int i, r) := by
  cases i with
  | ofNat n =>
    obtain ⟨c, t, hc, hd⟩ := intPart_head (natStr_intPart n)
    have := scanNumber_natStr false n hr
    simp only [jsonInt]
    rw [hc, List.cons_append] at this ⊢
    rw [scanAtom_digit hd, this]
    rfl
  | negSucc n =>
    simp only [jsonInt, List.cons_append, scanAtom]
    rw [if_neg (by decide), if_neg (by decide), if_neg (by decide), if_pos trivial, scanNumber_natStr true (n + 1) hr]
    rfl

theorem scanAtom_float {t : Str} (h : FloatText t) {r : Str} (hr : Ends r) : scanAtom (t ++ r) = some (.float t, r) := by
  obtain ⟨sign, int, frac, exp, rfl, hs, hi, hf, he, hne⟩ := h
  obtain ⟨c, u, rfl, hd⟩ := intPart_head hi
  rcases hs with rfl | rfl
  · have := scanNumber_float false hi hf he hne hr
    simp only [List.nil_append, List.append_assoc, List.cons_append] at this ⊢
    rw [scanAtom_digit hd, this]
    simp
  · have := scanNumber_float true hi hf he hne hr
    simp only [List.nil_append, List.append_assoc, List.cons_append] at this ⊢
    simp only [scanAtom]
    rw [if_neg (by decide), if_neg (by decide), if_neg (by decide), if_pos trivial, this]
    simp

end KD
