/- Lemmas about writing and reading JSON. -/
import Verif.Spec.Json
import Verif.Lemmas.Strings

namespace KD
open Spec

/-! ### More text after what was read -/

/-- The text goes on with white space, a comma or a closing bracket. -/
def Ends (r : Str) : Prop := ∃ c t, r = c :: t ∧ (isJsonSpace c = true ∨ c = ',' ∨ c = ']' ∨ c = '}')

theorem skipSpace_ext {s : Str} {c : Char} {r : Str} (h : skipSpace s = c :: r) (q : Str) : skipSpace (s ++ q) = c :: (r ++ q) := by
  unfold skipSpace at h ⊢
  induction s with
  | nil => simp at h
  | cons d s ih =>
    rw [List.cons_append]
    by_cases hd : isJsonSpace d = true
    · rw [List.dropWhile_cons_of_pos hd] at h ⊢; exact ih h
    · rw [List.dropWhile_cons_of_neg hd] at h ⊢
      obtain ⟨rfl, rfl⟩ := List.cons.inj h
      rfl

theorem ends_of_skip {s : Str} {c : Char} {r : Str} (h : skipSpace s = c :: r) (hc : c = ',' ∨ c = ']' ∨ c = '}') : Ends s := by
  unfold skipSpace at h
  cases s with
  | nil => simp at h
  | cons d s =>
    by_cases hd : isJsonSpace d = true
    · exact ⟨d, s, rfl, Or.inl hd⟩
    · rw [List.dropWhile_cons_of_neg hd] at h
      obtain ⟨rfl, rfl⟩ := List.cons.inj h
      exact ⟨d, s, rfl, Or.inr hc⟩

theorem scanUnit_ext {c : Char} {r r' : Str} {u : Nat × Bool} (h : scanUnit c r = some (u, r')) (q : Str) :
    scanUnit c (r ++ q) = some (u, r' ++ q) := by
  unfold scanUnit at h ⊢
  by_cases h1 : c = '\\'
  · rw [if_pos h1] at h ⊢
    cases r with
    | nil => simp at h
    | cons e r =>
      simp only [List.cons_append] at h ⊢
      by_cases h2 : e = 'u'
      · rw [if_pos h2] at h ⊢
        match r, h with
        | a :: b :: c :: d :: r, h =>
          simp only [List.cons_append] at h ⊢
          cases hx : hexFour a b c d with
          | none => rw [hx] at h; simp at h
          | some n =>
            rw [hx] at h
            obtain ⟨rfl, rfl⟩ := Prod.mk.inj (Option.some.inj h)
            rfl
      · rw [if_neg h2] at h ⊢
        cases hx : unescape e with
        | none => rw [hx] at h; simp at h
        | some n =>
          rw [hx] at h
          obtain ⟨rfl, rfl⟩ := Prod.mk.inj (Option.some.inj h)
          rfl
  · rw [if_neg h1] at h ⊢
    by_cases h2 : c.toNat < 32
    · rw [if_pos h2] at h; simp at h
    · rw [if_neg h2] at h ⊢
      obtain ⟨rfl, rfl⟩ := Prod.mk.inj (Option.some.inj h)
      rfl

theorem scanUnits_ext {n m : Nat} {s r : Str} {us : List (Nat × Bool)} (h : scanUnits n s = some (us, r)) (hm : n ≤ m) (q : Str) :
    scanUnits m (s ++ q) = some (us, r ++ q) := by
  induction n generalizing m s us with
  | zero => simp [scanUnits] at h
  | succ n ih =>
    obtain ⟨m, rfl⟩ : ∃ k, m = k + 1 := ⟨m - 1, by omega⟩
    cases s with
    | nil => simp [scanUnits] at h
    | cons c s =>
      rw [List.cons_append]
      unfold scanUnits at h ⊢
      by_cases hc : c = '"'
      · rw [if_pos hc] at h ⊢
        obtain ⟨rfl, rfl⟩ := Prod.mk.inj (Option.some.inj h)
        rfl
      · rw [if_neg hc] at h ⊢
        cases hu : scanUnit c s with
        | none => rw [hu] at h; simp at h
        | some x =>
          obtain ⟨u, r1⟩ := x
          rw [hu] at h
          rw [scanUnit_ext hu]
          simp only at h ⊢
          cases hv : scanUnits n r1 with
          | none => rw [hv] at h; simp at h
          | some y =>
            obtain ⟨vs, r2⟩ := y
            rw [hv] at h
            obtain ⟨rfl, rfl⟩ := Prod.mk.inj (Option.some.inj h)
            rw [ih hv (by omega)]

theorem scanString_ext {s r : Str} {x : List Nat} (h : scanString s = some (x, r)) (q : Str) :
    scanString (s ++ q) = some (x, r ++ q) := by
  unfold scanString at h ⊢
  cases hu : scanUnits (s.length + 1) s with
  | none => rw [hu] at h; simp at h
  | some y =>
    obtain ⟨us, r1⟩ := y
    rw [hu] at h
    obtain ⟨rfl, rfl⟩ := Prod.mk.inj (Option.some.inj h)
    rw [scanUnits_ext hu (by simp only [List.length_append]; omega)]

theorem afterWord_ext {w s r : Str} (h : afterWord w s = some r) (q : Str) : afterWord w (s ++ q) = some (r ++ q) := by
  induction w generalizing s with
  | nil => simp only [afterWord] at h ⊢; rw [Option.some.inj h]
  | cons c w ih =>
    cases s with
    | nil => simp [afterWord] at h
    | cons d s =>
      simp only [afterWord, List.cons_append] at h ⊢
      by_cases hcd : c = d
      · rw [if_pos hcd] at h ⊢; exact ih h
      · rw [if_neg hcd] at h; simp at h

theorem scanWord_ext {w s r : Str} {v x : Json} (h : scanWord w v s = some (x, r)) (q : Str) :
    scanWord w v (s ++ q) = some (x, r ++ q) := by
  unfold scanWord at h ⊢
  cases ha : afterWord w s with
  | none => rw [ha] at h; simp at h
  | some t =>
    rw [ha] at h
    obtain ⟨rfl, rfl⟩ := Prod.mk.inj (Option.some.inj h)
    rw [afterWord_ext ha]

theorem spanDigits_ext {s : Str} {c : Char} {r : Str} (h : (spanDigits s).2 = c :: r) (q : Str) :
    spanDigits (s ++ q) = ((spanDigits s).1, c :: (r ++ q)) := by
  unfold spanDigits at h ⊢
  simp only at h ⊢
  induction s with
  | nil => simp at h
  | cons d s ih =>
    rw [List.cons_append]
    by_cases hd : isAsciiDigit d = true
    · rw [List.dropWhile_cons_of_pos hd] at h
      rw [List.dropWhile_cons_of_pos hd, List.takeWhile_cons_of_pos hd, List.takeWhile_cons_of_pos hd]
      have := ih h
      simp only [Prod.mk.injEq] at this
      rw [this.1, this.2]
    · rw [List.dropWhile_cons_of_neg hd] at h
      rw [List.dropWhile_cons_of_neg hd, List.takeWhile_cons_of_neg hd, List.takeWhile_cons_of_neg hd]
      obtain ⟨rfl, rfl⟩ := List.cons.inj h
      rfl

theorem scanIntPart_ext {s i r : Str} (h : scanIntPart s = some (i, r)) (hr : r ≠ []) (q : Str) :
    scanIntPart (s ++ q) = some (i, r ++ q) := by
  cases s with
  | nil => simp [scanIntPart] at h
  | cons c s =>
    simp only [scanIntPart, List.cons_append] at h ⊢
    by_cases h1 : c = '0'
    · rw [if_pos h1] at h ⊢
      obtain ⟨rfl, rfl⟩ := Prod.mk.inj (Option.some.inj h)
      rfl
    · rw [if_neg h1] at h ⊢
      by_cases h2 : isAsciiDigit c = true
      · rw [if_pos h2] at h ⊢
        obtain ⟨rfl, rfl⟩ := Prod.mk.inj (Option.some.inj h)
        obtain ⟨d, t, hd⟩ := List.exists_cons_of_ne_nil hr
        rw [spanDigits_ext hd, hd]
        rfl
      · rw [if_neg h2] at h; simp at h

theorem scanFrac_ext {s : Str} {c : Char} {r : Str} (h : (scanFrac s).2 = c :: r) (hc : c ≠ '.') (q : Str) :
    scanFrac (s ++ q) = ((scanFrac s).1, c :: (r ++ q)) := by
  cases s with
  | nil => simp [scanFrac] at h
  | cons d s =>
    simp only [scanFrac, List.cons_append] at h ⊢
    by_cases h1 : d = '.'
    · simp only [if_pos h1] at h ⊢
      cases hs : (spanDigits s).1 with
      | nil =>
        have hsp : spanDigits s = ([], (spanDigits s).2) := by rw [← hs]
        rw [hsp] at h
        simp only at h
        exact absurd ((List.cons.inj h).1.symm.trans h1) hc
      | cons e es =>
        have hsp : spanDigits s = (e :: es, (spanDigits s).2) := by rw [← hs]
        rw [hsp] at h
        simp only at h
        rw [spanDigits_ext h, hs]
        simp only
        rw [hsp]
    · simp only [if_neg h1] at h ⊢
      obtain ⟨rfl, rfl⟩ := List.cons.inj h
      rfl

theorem scanSign_ext {s : Str} (h : (scanSign s).2 ≠ []) (q : Str) :
    scanSign (s ++ q) = ((scanSign s).1, (scanSign s).2 ++ q) := by
  cases s with
  | nil => simp [scanSign] at h
  | cons c s =>
    simp only [scanSign, List.cons_append]
    by_cases h1 : c = '-' ∨ c = '+'
    · simp only [if_pos h1]
    · simp only [if_neg h1]; rfl

theorem scanExp_ext {s : Str} (h : Ends (scanExp s).2) (q : Str) :
    scanExp (s ++ q) = ((scanExp s).1, (scanExp s).2 ++ q) := by
  cases s with
  | nil => obtain ⟨c, t, h, -⟩ := h; simp [scanExp] at h
  | cons d s =>
    simp only [scanExp, List.cons_append] at h ⊢
    by_cases h1 : d = 'e' ∨ d = 'E'
    · simp only [if_pos h1] at h ⊢
      cases hs : (spanDigits (scanSign s).2).1 with
      | nil =>
        have hsp : spanDigits (scanSign s).2 = ([], (spanDigits (scanSign s).2).2) := by rw [← hs]
        rw [hsp] at h
        simp only at h
        obtain ⟨c, t, hct, hcc⟩ := h
        obtain ⟨rfl, rfl⟩ := List.cons.inj hct
        exfalso; rcases h1 with rfl | rfl <;> revert hcc <;> decide
      | cons e es =>
        have hsp : spanDigits (scanSign s).2 = (e :: es, (spanDigits (scanSign s).2).2) := by rw [← hs]
        rw [hsp] at h
        simp only at h
        obtain ⟨c, t, hct, hcc⟩ := h
        have hne : (scanSign s).2 ≠ [] := by
          intro h0; rw [h0] at hct; simp [spanDigits] at hct
        rw [scanSign_ext hne]
        simp only
        rw [spanDigits_ext hct, hs]
        simp only
        rw [hsp]
        simp only
        rw [hct]
        rfl
    · simp only [if_neg h1] at h ⊢; rfl

theorem scanNumber_ext {neg : Bool} {s r : Str} {v : Json} (h : scanNumber neg s = some (v, r)) (hr : Ends r) (q : Str) :
    scanNumber neg (s ++ q) = some (v, r ++ q) := by
  unfold scanNumber at h ⊢
  cases hi : scanIntPart s with
  | none => rw [hi] at h; simp at h
  | some x =>
    obtain ⟨i, t⟩ := x
    rw [hi] at h
    simp only at h
    have hre : r = (scanExp (scanFrac t).2).2 := by
      split at h <;> exact (Prod.mk.inj (Option.some.inj h)).2.symm
    rw [hre] at hr
    have hfr : ∃ c u, (scanFrac t).2 = c :: u ∧ c ≠ '.' := by
      cases hf : (scanFrac t).2 with
      | nil => rw [hf] at hr; obtain ⟨c, t, h, -⟩ := hr; simp [scanExp] at h
      | cons c u =>
        refine ⟨c, u, rfl, fun hc => ?_⟩
        rw [hf, hc] at hr
        have : scanExp ('.' :: u) = ([], '.' :: u) := by simp [scanExp]
        rw [this] at hr
        obtain ⟨c', t', h', hcc⟩ := hr
        obtain ⟨rfl, rfl⟩ := List.cons.inj h'
        revert hcc; decide
    obtain ⟨c, u, hcu, hc⟩ := hfr
    have ht : t ≠ [] := by
      intro h0; rw [h0] at hcu; simp [scanFrac] at hcu
    rw [scanIntPart_ext hi ht]
    simp only
    rw [scanFrac_ext hcu hc]
    simp only
    have he : scanExp (c :: (u ++ q)) = ((scanExp (scanFrac t).2).1, (scanExp (scanFrac t).2).2 ++ q) := by
      rw [← scanExp_ext hr, hcu]; rfl
    rw [he]
    simp only
    by_cases hz : (scanFrac t).1 = [] ∧ (scanExp (scanFrac t).2).1 = []
    · rw [if_pos hz] at h ⊢
      obtain ⟨rfl, rfl⟩ := Prod.mk.inj (Option.some.inj h)
      rfl
    · rw [if_neg hz] at h ⊢
      obtain ⟨rfl, rfl⟩ := Prod.mk.inj (Option.some.inj h)
      rfl

theorem scanAtom_ext {s r : Str} {v : Json} (h : scanAtom s = some (v, r)) (hr : Ends r) (q : Str) :
    scanAtom (s ++ q) = some (v, r ++ q) := by
  cases s with
  | nil => simp [scanAtom] at h
  | cons c s =>
    simp only [scanAtom, List.cons_append] at h ⊢
    split
    next h1 => rw [if_pos h1] at h; exact scanWord_ext h q
    next h1 =>
    rw [if_neg h1] at h
    split
    next h1 => rw [if_pos h1] at h; exact scanWord_ext h q
    next h1 =>
    rw [if_neg h1] at h
    split
    next h1 => rw [if_pos h1] at h; exact scanWord_ext h q
    next h1 =>
    rw [if_neg h1] at h
    split
    next h1 =>
      rw [if_pos h1] at h
      cases hn : scanNumber true s with
      | some x =>
        obtain ⟨v', r'⟩ := x
        rw [hn] at h
        obtain ⟨rfl, rfl⟩ := Prod.mk.inj (Option.some.inj h)
        rw [scanNumber_ext hn hr]
      | none =>
        rw [hn] at h
        simp only at h
        have hno : scanNumber true (s ++ q) = none := by
          cases s with
          | nil => simp [scanWord, afterWord] at h
          | cons d s =>
            have hd : d = 'I' := by
              by_contra hne
              have : afterWord (ch! "Infinity") (d :: s) = none := by
                simp only [afterWord]; rw [if_neg (fun h => hne h.symm)]
              rw [scanWord, this] at h; simp at h
            subst hd
            rfl
        rw [hno]
        exact scanWord_ext h q
    next h1 =>
    rw [if_neg h1] at h
    split
    next h1 => rw [if_pos h1] at h; exact scanWord_ext h q
    next h1 =>
    rw [if_neg h1] at h
    split
    next h1 => rw [if_pos h1] at h; exact scanWord_ext h q
    next h1 =>
    rw [if_neg h1] at h
    exact scanNumber_ext h hr q

theorem scanWord_value {w s r : Str} {v x : Json} (h : scanWord w v s = some (x, r)) : x = v := by
  unfold scanWord at h
  split at h
  · exact (Prod.mk.inj (Option.some.inj h)).1.symm
  · simp at h

/-- Words and numbers are not lists. -/
theorem scanNumber_not_arr {neg : Bool} {s r : Str} {l : List Json} (h : scanNumber neg s = some (.arr l, r)) : False := by
  unfold scanNumber at h
  split at h
  · simp at h
  · simp only at h
    split at h <;> simp at h

theorem scanAtom_not_arr {s r : Str} {l : List Json} (h : scanAtom s = some (.arr l, r)) : False := by
  cases s with
  | nil => simp [scanAtom] at h
  | cons c s =>
    simp only [scanAtom] at h
    split at h
    · have := scanWord_value h; simp at this
    split at h
    · have := scanWord_value h; simp at this
    split at h
    · have := scanWord_value h; simp at this
    split at h
    · split at h
      next hx => rw [h] at hx; exact scanNumber_not_arr hx
      next => have := scanWord_value h; simp at this
    split at h
    · have := scanWord_value h; simp at this
    split at h
    · have := scanWord_value h; simp at this
    exact scanNumber_not_arr h

/-- What was read is read again if more text follows, unless that could go on with a number. -/
theorem scan_ext (n : Nat) :
    (∀ s v r m q, scanValue n s = some (v, r) → (Ends r ∨ ∃ l, v = .arr l) → n ≤ m → scanValue m (s ++ q) = some (v, r ++ q)) ∧
    (∀ s l r m q, scanItems n s = some (l, r) → n ≤ m → scanItems m (s ++ q) = some (l, r ++ q)) ∧
    (∀ s l r m q, scanPairs n s = some (l, r) → n ≤ m → scanPairs m (s ++ q) = some (l, r ++ q)) := by
  induction n with
  | zero => exact ⟨by simp [scanValue], by simp [scanItems], by simp [scanPairs]⟩
  | succ n ih =>
    obtain ⟨ihv, ihi, ihp⟩ := ih
    refine ⟨fun s v r m q h he hm => ?_, fun s l r m q h hm => ?_, fun s l r m q h hm => ?_⟩
    · obtain ⟨m, rfl⟩ : ∃ k, m = k + 1 := ⟨m - 1, by omega⟩
      unfold scanValue at h ⊢
      cases s with
      | nil => simp at h
      | cons c s =>
        simp only [List.cons_append] at h ⊢
        by_cases h1 : c = '"'
        · rw [if_pos h1] at h ⊢
          cases hs : scanString s with
          | none => rw [hs] at h; simp at h
          | some x =>
            obtain ⟨x, t⟩ := x
            rw [hs] at h
            obtain ⟨rfl, rfl⟩ := Prod.mk.inj (Option.some.inj h)
            rw [scanString_ext hs]
        rw [if_neg h1] at h ⊢
        by_cases h2 : c = '['
        · rw [if_pos h2] at h ⊢
          cases hs : skipSpace s with
          | nil => rw [hs] at h; simp at h
          | cons d t =>
            rw [hs] at h
            rw [skipSpace_ext hs]
            simp only at h ⊢
            by_cases h3 : d = ']'
            · rw [if_pos h3] at h ⊢
              obtain ⟨rfl, rfl⟩ := Prod.mk.inj (Option.some.inj h)
              rfl
            · rw [if_neg h3] at h ⊢
              cases hi : scanItems n (d :: t) with
              | none => rw [hi] at h; simp at h
              | some x =>
                obtain ⟨l, u⟩ := x
                rw [hi] at h
                obtain ⟨rfl, rfl⟩ := Prod.mk.inj (Option.some.inj h)
                have := ihi _ _ _ m q hi (by omega)
                rw [List.cons_append] at this
                rw [this]
        rw [if_neg h2] at h ⊢
        by_cases h3 : c = '{'
        · rw [if_pos h3] at h ⊢
          cases hs : skipSpace s with
          | nil => rw [hs] at h; simp at h
          | cons d t =>
            rw [hs] at h
            rw [skipSpace_ext hs]
            simp only at h ⊢
            by_cases h3 : d = '}'
            · rw [if_pos h3] at h ⊢
              obtain ⟨rfl, rfl⟩ := Prod.mk.inj (Option.some.inj h)
              rfl
            · rw [if_neg h3] at h ⊢
              cases hi : scanPairs n (d :: t) with
              | none => rw [hi] at h; simp at h
              | some x =>
                obtain ⟨l, u⟩ := x
                rw [hi] at h
                obtain ⟨rfl, rfl⟩ := Prod.mk.inj (Option.some.inj h)
                have := ihp _ _ _ m q hi (by omega)
                rw [List.cons_append] at this
                rw [this]
        rw [if_neg h3] at h ⊢
        rcases he with he | ⟨l, rfl⟩
        · exact scanAtom_ext h he q
        · exact (scanAtom_not_arr h).elim
    · obtain ⟨m, rfl⟩ : ∃ k, m = k + 1 := ⟨m - 1, by omega⟩
      unfold scanItems at h ⊢
      cases hv : scanValue n s with
      | none => rw [hv] at h; simp at h
      | some x =>
        obtain ⟨v, t⟩ := x
        rw [hv] at h
        simp only at h
        cases hs : skipSpace t with
        | nil => rw [hs] at h; simp at h
        | cons c u =>
          rw [hs] at h
          simp only at h
          have hc : c = ',' ∨ c = ']' ∨ c = '}' := by
            by_cases h1 : c = ']'
            · exact Or.inr (Or.inl h1)
            · rw [if_neg h1] at h
              by_cases h2 : c = ','
              · exact Or.inl h2
              · rw [if_neg h2] at h; simp at h
          rw [ihv _ _ _ m q hv (Or.inl (ends_of_skip hs hc)) (by omega)]
          simp only
          rw [skipSpace_ext hs]
          simp only
          by_cases h1 : c = ']'
          · rw [if_pos h1] at h ⊢
            obtain ⟨rfl, rfl⟩ := Prod.mk.inj (Option.some.inj h)
            rfl
          rw [if_neg h1] at h ⊢
          by_cases h2 : c = ','
          · rw [if_pos h2] at h ⊢
            cases hi : scanItems n (skipSpace u) with
            | none => rw [hi] at h; simp at h
            | some y =>
              obtain ⟨vs, w⟩ := y
              rw [hi] at h
              obtain ⟨rfl, rfl⟩ := Prod.mk.inj (Option.some.inj h)
              cases hsu : skipSpace u with
              | nil => 
                rw [hsu] at hi
                cases n with
                | zero => simp [scanItems] at hi
                | succ k => cases k <;> simp [scanItems, scanValue] at hi
              | cons d z =>
                rw [skipSpace_ext hsu]
                rw [hsu] at hi
                have := ihi _ _ _ m q hi (by omega)
                rw [List.cons_append] at this
                rw [this]
          · rw [if_neg h2] at h; simp at h
    · obtain ⟨m, rfl⟩ : ∃ k, m = k + 1 := ⟨m - 1, by omega⟩
      unfold scanPairs at h ⊢
      cases s with
      | nil => simp at h
      | cons qc s =>
      simp only [List.cons_append] at h ⊢
      by_cases hq : qc = '"'
      swap
      · rw [if_neg hq] at h; simp at h
      rw [if_pos hq] at h ⊢
      cases hk : scanString s with
      | none => rw [hk] at h; simp at h
      | some x =>
      obtain ⟨k, t⟩ := x
      rw [hk] at h
      rw [scanString_ext hk]
      simp only at h ⊢
      cases hs : skipSpace t with
      | nil => rw [hs] at h; simp at h
      | cons c u =>
      rw [hs] at h
      rw [skipSpace_ext hs]
      simp only at h ⊢
      by_cases h1 : c = ':'
      swap
      · rw [if_neg h1] at h; simp at h
      rw [if_pos h1] at h ⊢
      cases hsu : skipSpace u with
      | nil =>
        rw [hsu] at h
        cases n <;> simp [scanValue] at h
      | cons d z =>
      rw [skipSpace_ext hsu]
      rw [hsu] at h
      cases hv : scanValue n (d :: z) with
      | none => rw [hv] at h; simp at h
      | some x =>
      obtain ⟨v, t2⟩ := x
      rw [hv] at h
      simp only at h
      cases hs2 : skipSpace t2 with
      | nil => rw [hs2] at h; simp at h
      | cons c2 u2 =>
      rw [hs2] at h
      simp only at h
      have hc : c2 = ',' ∨ c2 = ']' ∨ c2 = '}' := by
        by_cases h1 : c2 = '}'
        · exact Or.inr (Or.inr h1)
        · rw [if_neg h1] at h
          by_cases h2 : c2 = ','
          · exact Or.inl h2
          · rw [if_neg h2] at h; simp at h
      have hv' := ihv _ _ _ m q hv (Or.inl (ends_of_skip hs2 hc)) (by omega)
      rw [List.cons_append] at hv'
      rw [hv']
      simp only
      rw [skipSpace_ext hs2]
      simp only
      by_cases h1 : c2 = '}'
      · rw [if_pos h1] at h ⊢
        obtain ⟨rfl, rfl⟩ := Prod.mk.inj (Option.some.inj h)
        rfl
      rw [if_neg h1] at h ⊢
      by_cases h2 : c2 = ','
      swap
      · rw [if_neg h2] at h; simp at h
      rw [if_pos h2] at h ⊢
      cases hi : scanPairs n (skipSpace u2) with
      | none => rw [hi] at h; simp at h
      | some y =>
        obtain ⟨vs, w⟩ := y
        rw [hi] at h
        obtain ⟨rfl, rfl⟩ := Prod.mk.inj (Option.some.inj h)
        cases hsu2 : skipSpace u2 with
        | nil =>
          rw [hsu2] at hi
          cases n <;> simp [scanPairs] at hi
        | cons d2 z2 =>
          rw [skipSpace_ext hsu2]
          rw [hsu2] at hi
          have := ihp _ _ _ m q hi (by omega)
          rw [List.cons_append] at this
          rw [this]

end KD
