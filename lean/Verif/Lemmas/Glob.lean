/- Helper lemmas for glob patterns. -/
import Verif.Model.Glob
import Verif.Spec.Glob
import Mathlib.Data.List.Basic

namespace KD
open Spec

/-- The model's form of a class item. -/
def itemRange : ClassItem → Char × Char
  | .char c => (c, c)
  | .range a b => (a, b)

/-- The model's form of a pattern element. -/
def elemTok : Elem → Tok
  | .star => .star
  | .any => .any
  | .oneOf items => .cls false (items.map itemRange)
  | .noneOf items => .cls true (items.map itemRange)
  | .lit c => .lit c

theorem scanClass_text (t rest : Str) (h : ∀ c ∈ t, c ≠ ']') :
    scanClass (t ++ ']' :: rest) = some (t, rest) := by
  induction t with
  | nil => simp [scanClass]
  | cons c t ih =>
    have := ih (fun x hx => h x (by simp [hx]))
    simp [scanClass, h c (by simp), this]

theorem classItems_text (items : List ClassItem) (h : ∀ i ∈ items, i.Plain) :
    classItems (items.flatMap ClassItem.text) = items.map itemRange := by
  induction items with
  | nil => simp [classItems]
  | cons i items ih =>
    have ih := ih (fun x hx => h x (by simp [hx]))
    have hi := h i (by simp)
    cases i with
    | range a b =>
      simp [ClassItem.text, classItems, itemRange, ih]
    | char c =>
      cases items with
      | nil => simp [ClassItem.text, classItems, itemRange]
      | cons j items =>
        have hj := h j (by simp)
        cases j with
        | char d =>
          have hd : d ≠ '-' := hj.2.1
          generalize hR : List.flatMap ClassItem.text items = R at *
          simp only [List.flatMap_cons, ClassItem.text, List.singleton_append, hR] at ih ⊢
          cases R with
          | nil => simp [classItems, itemRange] at ih ⊢; exact ih
          | cons x R => simp [classItems, hd, ih, itemRange]
        | range a b =>
          have ha : a ≠ '-' := hj.1.2.1
          simp only [List.flatMap_cons, ClassItem.text, List.cons_append, List.nil_append] at ih ⊢
          simp [classItems, ha, itemRange] at ih ⊢
          exact ih

theorem plain_text_ne (items : List ClassItem) (h : ∀ i ∈ items, i.Plain) :
    ∀ c ∈ items.flatMap ClassItem.text, c ≠ ']' ∧ c ≠ '!' := by
  intro c hc
  simp only [List.mem_flatMap] at hc
  obtain ⟨i, hi, hc⟩ := hc
  have hp := h i hi
  cases i with
  | char a => simp [ClassItem.text] at hc; subst hc; exact ⟨hp.1, hp.2.2⟩
  | range a b =>
    simp [ClassItem.text] at hc
    rcases hc with rfl | rfl | rfl
    · exact ⟨hp.1.1, hp.1.2.2⟩
    · decide
    · exact ⟨hp.2.1, hp.2.2.2⟩

theorem items_text_ne_nil {items : List ClassItem} (h : items ≠ []) : items.flatMap ClassItem.text ≠ [] := by
  cases items with
  | nil => exact absurd rfl h
  | cons i l => cases i <;> simp [ClassItem.text]

theorem parseClass_oneOf (items : List ClassItem) (rest : Str) (hne : items ≠ []) (h : ∀ i ∈ items, i.Plain) :
    parseClass (items.flatMap ClassItem.text ++ ']' :: rest) =
      some (.cls false (items.map itemRange), rest) := by
  have hs := scanClass_text (items.flatMap ClassItem.text) rest (fun c hc => (plain_text_ne items h c hc).1)
  have hc := classItems_text items h
  have hp := plain_text_ne items h
  have hn := items_text_ne_nil hne
  generalize items.flatMap ClassItem.text = t at *
  cases t with
  | nil => exact absurd rfl hn
  | cons x t =>
    have h1 := (hp x (by simp)).1
    have h2 := (hp x (by simp)).2
    simp only [List.cons_append] at hs ⊢
    simp [parseClass, hs, hc, h1, h2]

theorem parseClass_noneOf (items : List ClassItem) (rest : Str) (hne : items ≠ []) (h : ∀ i ∈ items, i.Plain) :
    parseClass ('!' :: (items.flatMap ClassItem.text ++ ']' :: rest)) =
      some (.cls true (items.map itemRange), rest) := by
  have hs := scanClass_text (items.flatMap ClassItem.text) rest (fun c hc => (plain_text_ne items h c hc).1)
  have hc := classItems_text items h
  have hp := plain_text_ne items h
  have hn := items_text_ne_nil hne
  generalize items.flatMap ClassItem.text = t at *
  cases t with
  | nil => exact absurd rfl hn
  | cons x t =>
    have h1 := (hp x (by simp)).1
    simp only [List.cons_append] at hs ⊢
    simp [parseClass, hs, hc, h1]

theorem globToksAux_text (es : List Elem) (h : ∀ e ∈ es, e.WellFormed) : ∀ fuel,
    (es.flatMap Elem.text).length ≤ fuel → globToksAux fuel (es.flatMap Elem.text) = es.map elemTok := by
  induction es with
  | nil => intro fuel _; cases fuel <;> simp [globToksAux]
  | cons e es ih =>
    intro fuel hf
    have ih := ih (fun x hx => h x (by simp [hx]))
    have he := h e (by simp)
    simp only [List.flatMap_cons, List.length_append] at hf ⊢
    generalize es.flatMap Elem.text = R at *
    cases fuel with
    | zero => cases e <;> simp [Elem.text] at hf
    | succ fuel =>
      cases e with
      | star => simp [Elem.text] at hf ⊢; simp [globToksAux, elemTok]; exact ih fuel (by omega)
      | any => simp [Elem.text] at hf ⊢; simp [globToksAux, elemTok]; exact ih fuel (by omega)
      | lit c =>
        obtain ⟨h1, h2, h3⟩ := he
        simp [Elem.text] at hf ⊢
        simp [globToksAux, elemTok, h1, h2, h3]; exact ih fuel (by omega)
      | oneOf items =>
        have hp := parseClass_oneOf items R he.1 he.2
        simp [Elem.text] at hf ⊢
        simp [globToksAux, elemTok, hp]; exact ih fuel (by omega)
      | noneOf items =>
        have hp := parseClass_noneOf items R he.1 he.2
        simp [Elem.text] at hf ⊢
        simp [globToksAux, elemTok, hp]; exact ih fuel (by omega)

theorem globToks_text (es : List Elem) (h : ∀ e ∈ es, e.WellFormed) :
    globToks (es.flatMap Elem.text) = es.map elemTok :=
  globToksAux_text es h _ (Nat.le_refl _)

theorem mem_suffixes {s t : Str} : t ∈ suffixes s ↔ ∃ p, s = p ++ t := by
  induction s with
  | nil => simp [suffixes, eq_comm]
  | cons c s ih =>
    simp only [suffixes, List.mem_cons, ih]
    constructor
    · rintro (rfl | ⟨p, rfl⟩)
      · exact ⟨[], rfl⟩
      · exact ⟨c :: p, rfl⟩
    · rintro ⟨p, hp⟩
      cases p with
      | nil => left; exact hp.symm
      | cons x p => right; simp at hp; exact ⟨p, hp.2⟩

theorem itemRange_has (i : ClassItem) (c : Char) :
    ((itemRange i).1 ≤ c ∧ c ≤ (itemRange i).2) ↔ i.has c := by
  cases i with
  | range a b => simp [itemRange, ClassItem.has]
  | char a =>
    simp only [itemRange, ClassItem.has]
    constructor
    · rintro ⟨h1, h2⟩
      exact Char.le_antisymm h2 h1
    · rintro rfl; exact ⟨Char.le_refl _, Char.le_refl _⟩

theorem elem_single {e : Elem} (h : e ≠ .star) (p : Str) :
    e.Matches p ↔ ∃ c, p = [c] ∧ tokChar (elemTok e) c = true := by
  cases e with
  | star => exact absurd rfl h
  | any => simp [Elem.Matches, elemTok, tokChar]
  | lit a =>
    simp only [Elem.Matches, elemTok, tokChar, beq_iff_eq]
    constructor
    · rintro rfl; exact ⟨a, rfl, rfl⟩
    · rintro ⟨c, rfl, rfl⟩; rfl
  | oneOf items =>
    simp only [Elem.Matches, elemTok, tokChar]
    constructor
    · rintro ⟨c, rfl, i, hi, hc⟩
      refine ⟨c, rfl, ?_⟩
      simp only [Bool.bne_false, List.any_map, List.any_eq_true, Function.comp, Bool.and_eq_true,
        decide_eq_true_eq]
      exact ⟨i, hi, (itemRange_has i c).2 hc⟩
    · rintro ⟨c, rfl, hc⟩
      simp only [Bool.bne_false, List.any_map, List.any_eq_true, Function.comp, Bool.and_eq_true,
        decide_eq_true_eq] at hc
      obtain ⟨i, hi, hc⟩ := hc
      exact ⟨c, rfl, i, hi, (itemRange_has i c).1 hc⟩
  | noneOf items =>
    simp only [Elem.Matches, elemTok, tokChar]
    constructor
    · rintro ⟨c, rfl, hall⟩
      refine ⟨c, rfl, ?_⟩
      simp only [Bool.bne_true, Bool.not_eq_true', List.any_map, List.any_eq_false, Function.comp, Bool.and_eq_true,
        decide_eq_true_eq]
      intro i hi hc
      exact hall i hi ((itemRange_has i c).1 hc)
    · rintro ⟨c, rfl, hc⟩
      simp only [Bool.bne_true, Bool.not_eq_true', List.any_map, List.any_eq_false, Function.comp, Bool.and_eq_true,
        decide_eq_true_eq] at hc
      exact ⟨c, rfl, fun i hi hh => hc i hi ((itemRange_has i c).2 hh)⟩

theorem globMatches_nil {s : Str} : GlobMatches [] s ↔ s = [] := by
  constructor
  · rintro ⟨ps, rfl, h⟩
    cases ps with
    | nil => rfl
    | cons p ps => exact absurd h (by simp [PiecesMatch])
  · rintro rfl; exact ⟨[], rfl, trivial⟩

theorem globMatches_cons {e : Elem} {es : List Elem} {s : Str} :
    GlobMatches (e :: es) s ↔ ∃ p t, s = p ++ t ∧ e.Matches p ∧ GlobMatches es t := by
  constructor
  · rintro ⟨ps, rfl, h⟩
    cases ps with
    | nil => exact absurd h (by simp [PiecesMatch])
    | cons p ps => exact ⟨p, ps.flatten, by simp, h.1, ps, rfl, h.2⟩
  · rintro ⟨p, t, rfl, h1, ps, rfl, h2⟩
    exact ⟨p :: ps, by simp, h1, h2⟩

theorem matchToks_iff (es : List Elem) (s : Str) :
    matchToks (es.map elemTok) s = true ↔ GlobMatches es s := by
  induction es generalizing s with
  | nil => simp [matchToks, globMatches_nil]
  | cons e es ih =>
    rw [globMatches_cons]
    by_cases he : e = .star
    · subst he
      simp only [List.map_cons, elemTok, matchToks, List.any_eq_true, mem_suffixes, Elem.Matches, true_and]
      constructor
      · rintro ⟨t, ⟨p, rfl⟩, h⟩; exact ⟨p, t, rfl, (ih t).1 h⟩
      · rintro ⟨p, t, rfl, h⟩; exact ⟨t, ⟨p, rfl⟩, (ih t).2 h⟩
    · have hm : matchToks (List.map elemTok (e :: es)) s =
          match s with
          | [] => false
          | c :: s => tokChar (elemTok e) c && matchToks (es.map elemTok) s := by
        cases e with
        | star => exact absurd rfl he
        | any => cases s <;> rfl
        | lit a => cases s <;> rfl
        | oneOf i => cases s <;> rfl
        | noneOf i => cases s <;> rfl
      rw [hm]
      simp only [elem_single he]
      cases s with
      | nil => simp
      | cons c s =>
        simp only [Bool.and_eq_true, ih]
        constructor
        · rintro ⟨h1, h2⟩; exact ⟨[c], s, rfl, ⟨c, rfl, h1⟩, h2⟩
        · rintro ⟨_, t, h, ⟨c', rfl, h1⟩, h2⟩
          simp at h
          obtain ⟨rfl, rfl⟩ := h
          exact ⟨h1, h2⟩

/-! ### Patterns ending in `*` -/

theorem scanClass_eq {s a rest : Str} (h : scanClass s = some (a, rest)) : s = a ++ ']' :: rest := by
  induction s generalizing a with
  | nil => simp [scanClass] at h
  | cons c s ih =>
    simp only [scanClass] at h
    split at h
    · next hc => simp at h; obtain ⟨rfl, rfl⟩ := h; simp [hc]
    · split at h
      · simp at h
      · next a' b' hs => simp at h; obtain ⟨rfl, rfl⟩ := h; simp [ih hs]

theorem parseClass_eq {s rest : Str} {t : Tok} (h : parseClass s = some (t, rest)) : ∃ x, s = x ++ ']' :: rest := by
  have body : ∀ (neg : Bool) (b : Str),
      (match b with
        | ']' :: r =>
          match scanClass r with
          | none => none
          | some (a, rest) => some (Tok.cls neg (classItems (']' :: a)), rest)
        | r =>
          match scanClass r with
          | none => none
          | some (a, rest) => some (Tok.cls neg (classItems a), rest)) = some (t, rest) →
      ∃ x, b = x ++ ']' :: rest := by
    intro neg b h
    split at h
    · next r =>
      split at h
      · simp at h
      · next a rest' hs =>
        simp at h; obtain ⟨-, rfl⟩ := h
        exact ⟨']' :: a, by simp [scanClass_eq hs]⟩
    · split at h
      · simp at h
      · next a rest' hs =>
        simp at h; obtain ⟨-, rfl⟩ := h
        exact ⟨a, scanClass_eq hs⟩
  unfold parseClass at h
  split at h
  next neg b e =>
  obtain ⟨x, hx⟩ := body neg b h
  split at e
  · simp at e; obtain ⟨-, rfl⟩ := e; exact ⟨'!' :: x, by simp [hx]⟩
  · simp at e; obtain ⟨-, rfl⟩ := e; exact ⟨x, hx⟩

theorem globToksAux_star : ∀ (fuel : Nat) (p : Str), p.length < fuel →
    ∃ ts, globToksAux fuel (p ++ ['*']) = ts ++ [.star] := by
  intro fuel
  induction fuel with
  | zero => intro p h; omega
  | succ fuel ih =>
    intro p hp
    cases p with
    | nil => exact ⟨[], by cases fuel <;> simp [globToksAux]⟩
    | cons c p =>
      simp only [List.length_cons] at hp
      obtain ⟨ts, hts⟩ := ih p (by omega)
      simp only [List.cons_append, globToksAux, hts]
      split
      · exact ⟨.star :: ts, rfl⟩
      · split
        · exact ⟨.any :: ts, rfl⟩
        · split
          · cases hpc : parseClass (p ++ ['*']) with
            | none => exact ⟨.lit '[' :: ts, rfl⟩
            | some tr =>
              obtain ⟨t, rest⟩ := tr
              obtain ⟨x, hx⟩ := parseClass_eq hpc
              have hr : ∃ q, rest = q ++ ['*'] ∧ q.length < p.length := by
                rcases List.eq_nil_or_concat rest with rfl | ⟨q, z, rfl⟩
                · have : (p ++ ['*']).getLast? = (x ++ [']']).getLast? := by rw [hx]
                  simp at this
                · have hz : z = '*' := by
                    have e : p ++ ['*'] = (x ++ ']' :: q) ++ [z] := by simp [hx]
                    have := (List.append_inj' e rfl).2
                    simpa using this.symm
                  refine ⟨q, by simp [hz], ?_⟩
                  have := congrArg List.length hx
                  simp at this
                  omega
              obtain ⟨q, rfl, hq⟩ := hr
              obtain ⟨ts', hts'⟩ := ih q (by omega)
              simp only [hts']
              exact ⟨t :: ts', rfl⟩
          · exact ⟨.lit c :: ts, rfl⟩

theorem matchToks_star_append (ts : List Tok) (s x : Str) (h : matchToks (ts ++ [.star]) s = true) :
    matchToks (ts ++ [.star]) (s ++ x) = true := by
  induction ts generalizing s with
  | nil =>
    simp only [List.nil_append, matchToks, List.any_eq_true]
    refine ⟨[], mem_suffixes.2 ⟨s ++ x, by simp⟩, rfl⟩
  | cons t ts ih =>
    have single : ∀ s : Str, (∀ t', t' = t → t ≠ .star) → matchToks (t :: (ts ++ [.star])) s =
        match s with
        | [] => false
        | c :: s => tokChar t c && matchToks (ts ++ [.star]) s := by
      intro s ht
      cases t with
      | star => exact absurd rfl (ht _ rfl)
      | any => cases s <;> rfl
      | lit a => cases s <;> rfl
      | cls n i => cases s <;> rfl
    by_cases ht : t = .star
    · subst ht
      simp only [List.cons_append, matchToks, List.any_eq_true] at h ⊢
      obtain ⟨r, h1, h2⟩ := h
      obtain ⟨p, rfl⟩ := mem_suffixes.1 h1
      exact ⟨r ++ x, mem_suffixes.2 ⟨p, by simp⟩, ih r h2⟩
    · rw [List.cons_append, single _ (fun _ _ => ht)] at h ⊢
      cases s with
      | nil => simp at h
      | cons c s =>
        simp only [List.cons_append, Bool.and_eq_true] at h ⊢
        exact ⟨h.1, ih s h.2⟩

/-- A pattern ending in `*` which matches a name matches every longer name. -/
theorem globMatch_star_append (p s x : Str) (h : globMatch (p ++ ['*']) s = true) :
    globMatch (p ++ ['*']) (s ++ x) = true := by
  unfold globMatch globToks at h ⊢
  obtain ⟨ts, hts⟩ := globToksAux_star (p ++ ['*']).length p (by simp)
  rw [hts] at h ⊢
  exact matchToks_star_append ts s x h

theorem endsWith_iff {s t : Str} : endsWith s t = true ↔ ∃ p, s = p ++ t := by
  unfold endsWith
  rw [List.isSuffixOf_iff_suffix]
  constructor
  · rintro ⟨p, h⟩; exact ⟨p, h.symm⟩
  · rintro ⟨p, h⟩; exact ⟨p, h.symm⟩

theorem globMatchOptValue_iff (pat s : Str) : globMatchOptValue pat s = true ↔
    globMatch pat s = true ∨ ∃ s', s = s' ++ ch! ".value" ∧ globMatch pat s' = true := by
  unfold globMatchOptValue
  simp only [Bool.or_eq_true, Bool.and_eq_true, endsWith_iff]
  constructor
  · rintro (h | ⟨⟨p, rfl⟩, h⟩)
    · exact Or.inl h
    · right
      refine ⟨p, rfl, ?_⟩
      have e : List.take ((p ++ ch! ".value").length - 6) (p ++ ch! ".value") = p := by simp
      rw [e] at h
      exact h
  · rintro (h | ⟨p, rfl, h⟩)
    · exact Or.inl h
    · right
      refine ⟨⟨p, rfl⟩, ?_⟩
      have e : List.take ((p ++ ch! ".value").length - 6) (p ++ ch! ".value") = p := by simp
      rw [e]
      exact h

end KD
