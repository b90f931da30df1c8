/- Property C11: the meaning of every glob pattern, also of those with unusual square brackets. -/
import Verif.Props.Glob

namespace KD
open Spec

theorem itemsOf_classItems {t : Str} {l : List ClassItem} (h : ItemsOf t l) : classItems t = l.map itemRange := by
  induction h with
  | nil => simp [classItems]
  | range _ ih => simp [classItems, itemRange, ih]
  | @char a r l hn _ ih =>
    match r with
    | [] => simp [classItems] at ih; simp [classItems, itemRange, ← ih]
    | [b] => simp [classItems] at ih ⊢; simp [itemRange, ← ih]
    | b :: c :: r =>
      have hb : b ≠ '-' := fun e => hn ⟨c, r, by rw [e]⟩
      simp only [classItems, hb, if_false, List.map_cons, ih, itemRange]

theorem itemsOf_exists : ∀ (n : Nat) (t : Str), t.length ≤ n → ∃ l, ItemsOf t l := by
  intro n
  induction n with
  | zero => intro t h; have : t = [] := by simpa using h
            subst this; exact ⟨[], .nil⟩
  | succ n ih =>
    intro t h
    cases t with
    | nil => exact ⟨[], .nil⟩
    | cons a r =>
      by_cases hr : ∃ b r', r = '-' :: b :: r'
      · obtain ⟨b, r', rfl⟩ := hr
        obtain ⟨l, hl⟩ := ih r' (by simp at h; omega)
        exact ⟨_, .range hl⟩
      · obtain ⟨l, hl⟩ := ih r (by simp at h; omega)
        exact ⟨_, .char hr hl⟩

theorem scanClass_none {t : Str} : scanClass t = none ↔ ']' ∉ t := by
  induction t with
  | nil => simp [scanClass]
  | cons c t ih =>
    by_cases hc : c = ']'
    · simp [scanClass, hc]
    · rw [scanClass, if_neg hc]
      cases hs : scanClass t with
      | none => simp [ih.1 hs, Ne.symm hc]
      | some ab =>
        have : ¬ ']' ∉ t := fun h => by rw [ih.2 h] at hs; cases hs
        simp only [reduceCtorEq, List.mem_cons, not_or, false_iff, not_and]
        exact fun _ => this

theorem scanClass_notMem {t a r : Str} (h : scanClass t = some (a, r)) : ']' ∉ a := by
  induction t generalizing a with
  | nil => simp [scanClass] at h
  | cons c t ih =>
    rw [scanClass] at h
    split at h
    · simp at h; rw [h.1]; simp
    · next hc =>
      split at h
      · simp at h
      · next a' b' hs => simp at h; obtain ⟨rfl, rfl⟩ := h; simp [Ne.symm hc, ih hs]

/-- The rest of `parseClass` after the `!`, if any. -/
def bodyParse (neg : Bool) : Str → Option (Tok × Str)
  | [] => none
  | c :: b => (scanClass b).map (fun x => (.cls neg (classItems (c :: x.1)), x.2))

theorem parseClass_neg (b : Str) : parseClass ('!' :: b) = bodyParse true b := by
  unfold parseClass
  cases b with
  | nil => rfl
  | cons c b =>
    by_cases hc : c = ']'
    · subst hc; cases hs : scanClass b <;> simp [bodyParse, hs]
    · cases hs : scanClass b <;> simp [bodyParse, hc, scanClass, hs]

theorem parseClass_pos (b : Str) (h : ¬ ∃ q, b = '!' :: q) : parseClass b = bodyParse false b := by
  unfold parseClass
  cases b with
  | nil => rfl
  | cons c b =>
    have hn : c ≠ '!' := fun e => h ⟨b, by rw [e]⟩
    by_cases hc : c = ']'
    · subst hc; cases hs : scanClass b <;> simp [bodyParse, hs]
    · cases hs : scanClass b <;> simp [bodyParse, hc, hn, scanClass, hs]

theorem body_parse (neg : Bool) (c : Char) (t p : Str) (h : ']' ∉ t) :
    bodyParse neg (c :: t ++ ']' :: p) = some (.cls neg (classItems (c :: t)), p) := by
  have hs := scanClass_text t p (fun x hx e => h (e ▸ hx))
  simp [bodyParse, hs]

theorem parse_oneOf (c : Char) (t p : Str) (hc : c ≠ '!') (h : ']' ∉ t) :
    parseClass (c :: t ++ ']' :: p) = some (.cls false (classItems (c :: t)), p) := by
  rw [parseClass_pos _ (by rintro ⟨q, e⟩; simp at e; exact hc e.1), body_parse false c t p h]

theorem parse_noneOf (c : Char) (t p : Str) (h : ']' ∉ t) :
    parseClass ('!' :: c :: t ++ ']' :: p) = some (.cls true (classItems (c :: t)), p) := by
  rw [List.cons_append, List.cons_append, parseClass_neg, ← List.cons_append, body_parse true c t p h]

/-- The content of a bracket which is closed, or not. -/
theorem body_cases (neg : Bool) (b : Str) :
    ((∀ t r, b = t ++ ']' :: r → t = []) ∧ bodyParse neg b = none) ∨ ∃ c t p, ']' ∉ t ∧ b = c :: t ++ ']' :: p := by
  cases b with
  | nil => left; exact ⟨by simp, rfl⟩
  | cons c b =>
    cases hs : scanClass b with
    | some ar =>
      obtain ⟨a, r⟩ := ar
      exact .inr ⟨c, a, r, scanClass_notMem hs, by simp [scanClass_eq hs]⟩
    | none =>
      left
      have hb := scanClass_none.1 hs
      refine ⟨fun t r e => ?_, by simp [bodyParse, hs]⟩
      cases t with
      | nil => rfl
      | cons d t =>
        simp only [List.cons_append, List.cons.injEq] at e
        exact absurd (by rw [e.2]; simp) hb

theorem parse_cases (p : Str) :
    (parseClass p = none ∧ ∀ t r, p = t ++ ']' :: r → t = [] ∨ t = ['!']) ∨
    (∃ c t r, c ≠ '!' ∧ ']' ∉ t ∧ p = c :: t ++ ']' :: r) ∨ (∃ c t r, ']' ∉ t ∧ p = '!' :: c :: t ++ ']' :: r) := by
  by_cases hn : ∃ q, p = '!' :: q
  · obtain ⟨q, rfl⟩ := hn
    rcases body_cases true q with ⟨h1, h2⟩ | ⟨c, t, r, ht, rfl⟩
    · left
      refine ⟨by rw [parseClass_neg, h2], fun t r e => ?_⟩
      cases t with
      | nil => exact .inl rfl
      | cons d t =>
        simp only [List.cons_append, List.cons.injEq] at e
        rw [h1 t r e.2, ← e.1]
        exact .inr rfl
    · exact .inr (.inr ⟨c, t, r, ht, rfl⟩)
  · rcases body_cases false p with ⟨h1, h2⟩ | ⟨c, t, r, ht, rfl⟩
    · exact .inl ⟨(parseClass_pos p hn).trans h2, fun t r e => .inl (h1 t r e)⟩
    · exact .inr (.inl ⟨c, t, r, fun e => hn ⟨_, by rw [e]; rfl⟩, ht, rfl⟩)

theorem parse_unclosed {p : Str} (h : ∀ t r, p = t ++ ']' :: r → t = [] ∨ t = ['!']) : parseClass p = none := by
  rcases parse_cases p with ⟨h1, -⟩ | ⟨c, t, r, hc, -, rfl⟩ | ⟨c, t, r, -, rfl⟩
  · exact h1
  · have := h (c :: t) r rfl
    simp only [reduceCtorEq, List.cons.injEq, false_or] at this
    exact absurd this.1 hc
  · have := h ('!' :: c :: t) r rfl
    simp at this

theorem reads_toks {p : Str} {es : List Elem} (h : Reads p es) : ∀ fuel, p.length ≤ fuel →
    globToksAux fuel p = es.map elemTok := by
  induction h with
  | nil => intro fuel _; cases fuel <;> simp [globToksAux]
  | star _ ih =>
    intro fuel hf
    cases fuel with
    | zero => simp at hf
    | succ fuel => simp at hf; simp [globToksAux, elemTok, ih fuel hf]
  | any _ ih =>
    intro fuel hf
    cases fuel with
    | zero => simp at hf
    | succ fuel => simp at hf; simp [globToksAux, elemTok, ih fuel hf]
  | lit h1 h2 h3 _ ih =>
    intro fuel hf
    cases fuel with
    | zero => simp at hf
    | succ fuel => simp at hf; simp [globToksAux, elemTok, h1, h2, h3, ih fuel hf]
  | @oneOf c t p l es hc ht hl _ ih =>
    intro fuel hf
    cases fuel with
    | zero => simp at hf
    | succ fuel =>
      have hp := parse_oneOf c t p hc ht
      rw [itemsOf_classItems hl] at hp
      simp at hf
      simp only [List.cons_append] at hp ⊢
      simp [globToksAux, hp, elemTok, ih fuel (by omega)]
  | @noneOf c t p l es ht hl _ ih =>
    intro fuel hf
    cases fuel with
    | zero => simp at hf
    | succ fuel =>
      have hp := parse_noneOf c t p ht
      rw [itemsOf_classItems hl] at hp
      simp at hf
      simp only [List.cons_append] at hp ⊢
      simp [globToksAux, hp, elemTok, ih fuel (by omega)]
  | unclosed hu _ ih =>
    intro fuel hf
    cases fuel with
    | zero => simp at hf
    | succ fuel => simp at hf; simp [globToksAux, elemTok, parse_unclosed hu, ih fuel hf]

/-- C11. However a pattern is read as elements, a name matches it exactly when it can be cut into pieces matching the elements in
turn. -/
theorem globMatch_reads {pat : Str} {es : List Elem} (h : Reads pat es) (s : Str) :
    globMatch pat s = true ↔ GlobMatches es s := by
  rw [globMatch, globToks, reads_toks h _ (Nat.le_refl _), matchToks_iff]

/-- C11. Every pattern can be read as elements, so that the theorem above says what every pattern means. -/
theorem every_pattern_reads (pat : Str) : ∃ es, Reads pat es := by
  generalize hn : pat.length = n
  induction n using Nat.strongRecOn generalizing pat with
  | ind n ih =>
  cases pat with
  | nil => exact ⟨[], .nil⟩
  | cons c p =>
    simp only [List.length_cons] at hn
    by_cases h1 : c = '*'
    · obtain ⟨es, h⟩ := ih p.length (by omega) p rfl
      exact ⟨_, by rw [h1]; exact .star h⟩
    by_cases h2 : c = '?'
    · obtain ⟨es, h⟩ := ih p.length (by omega) p rfl
      exact ⟨_, by rw [h2]; exact .any h⟩
    by_cases h3 : c = '['
    · subst h3
      rcases parse_cases p with ⟨-, hu⟩ | ⟨c, t, r, hc, ht, rfl⟩ | ⟨c, t, r, ht, rfl⟩
      · obtain ⟨es, h⟩ := ih p.length (by omega) p rfl
        exact ⟨_, .unclosed hu h⟩
      · obtain ⟨es, h⟩ := ih r.length (by simp at hn; omega) r rfl
        obtain ⟨l, hl⟩ := itemsOf_exists _ (c :: t) (Nat.le_refl _)
        exact ⟨_, .oneOf hc ht hl h⟩
      · obtain ⟨es, h⟩ := ih r.length (by simp at hn; omega) r rfl
        obtain ⟨l, hl⟩ := itemsOf_exists _ (c :: t) (Nat.le_refl _)
        exact ⟨_, .noneOf ht hl h⟩
    · obtain ⟨es, h⟩ := ih p.length (by omega) p rfl
      exact ⟨_, .lit h1 h2 h3 h⟩

/-- The pattern `[]-a]x[!]` is one bracket with a range from `]` to `a`, an `x`, and a bracket which is not closed. -/
example : Reads ch! "[]-a]x[!]" [.oneOf [.range ']' 'a'], .lit 'x', .lit '[', .lit '!', .lit ']'] ∧
    globMatch ch! "[]-a]x[!]" ch! "^x[!]" = true := by
  refine ⟨?_, by decide⟩
  refine Reads.oneOf (c := ']') (t := ch! "-a") (by decide) (by decide) (.range .nil) ?_
  refine .lit (by decide) (by decide) (by decide) ?_
  refine .unclosed ?_ (.lit (by decide) (by decide) (by decide) (.lit (by decide) (by decide) (by decide) .nil))
  intro t r e
  match t with
  | [] => exact .inl rfl
  | [c] => simp at e; exact .inr (by rw [e.1])
  | c :: d :: t => simp at e

end KD
