/- Property C11: the meaning of glob patterns. -/
import Verif.Lemmas.Glob

namespace KD
open Spec

/-- C11. A name matches a pattern (written from well-formed elements) exactly when it can be cut into pieces
matching the elements in turn. -/
theorem globMatch_iff (es : List Elem) (h : ∀ e ∈ es, e.WellFormed) (s : Str) :
    globMatch (es.flatMap Elem.text) s = true ↔ GlobMatches es s := by
  rw [globMatch, globToks_text es h, matchToks_iff]

/-- The pattern `*_XGM/[A-D]?[!x]` is such a pattern, and matches names as expected. -/
example : (ch! "*_XGM/[A-D]?[!x]" =
      ([.star, .lit '_', .lit 'X', .lit 'G', .lit 'M', .lit '/', .oneOf [.range 'A' 'D'], .any,
        .noneOf [.char 'x']] : List Elem).flatMap Elem.text) ∧
    globMatch ch! "*_XGM/[A-D]?[!x]" ch! "SA1_XGM/B0y" = true ∧
    globMatch ch! "*_XGM/[A-D]?[!x]" ch! "SA1_XGM/B0x" = false ∧
    globMatch ch! "*_XGM/[A-D]?[!x]" ch! "SA1_XGM/b0y" = false := by decide

/-- C11. Every pattern without square brackets is written from well-formed elements, so the theorem above
applies to it. -/
theorem pattern_elements (pat : Str) (h : '[' ∉ pat) :
    ∃ es : List Elem, (∀ e ∈ es, e.WellFormed) ∧ es.flatMap Elem.text = pat := by
  induction pat with
  | nil => exact ⟨[], by simp, rfl⟩
  | cons c pat ih =>
    simp only [List.mem_cons, not_or] at h
    obtain ⟨es, h1, h2⟩ := ih h.2
    by_cases hs : c = '*'
    · exact ⟨.star :: es, by simpa [Elem.WellFormed] using h1, by simp [Elem.text, h2, hs]⟩
    · by_cases hq : c = '?'
      · exact ⟨.any :: es, by simpa [Elem.WellFormed] using h1, by simp [Elem.text, h2, hq]⟩
      · refine ⟨.lit c :: es, ?_, by simp [Elem.text, h2]⟩
        simp only [List.forall_mem_cons]
        exact ⟨⟨hs, hq, Ne.symm h.1⟩, h1⟩

/-- C11. A pattern without wildcards matches itself only (in particular, matching is case sensitive). -/
theorem globMatch_literal (pat s : Str) (h : ∀ c ∈ pat, c ≠ '*' ∧ c ≠ '?' ∧ c ≠ '[') :
    globMatch pat s = true ↔ s = pat := by
  have hp : (pat.map Elem.lit).flatMap Elem.text = pat := by
    induction pat with
    | nil => rfl
    | cons c pat ih => simp [Elem.text]; simpa [List.flatMap_map] using ih (fun x hx => h x (by simp [hx]))
  have hw : ∀ e ∈ pat.map Elem.lit, e.WellFormed := by
    intro e he
    obtain ⟨c, hc, rfl⟩ := List.mem_map.1 he
    exact h c hc
  rw [← hp, globMatch_iff _ hw]
  rw [hp]
  clear hp hw h
  induction pat generalizing s with
  | nil => exact globMatches_nil
  | cons c pat ih =>
    rw [List.map_cons, globMatches_cons]
    constructor
    · rintro ⟨p, t, rfl, rfl, h⟩; rw [(ih t).1 h]; rfl
    · rintro rfl; exact ⟨[c], pat, rfl, rfl, (ih pat).2 rfl⟩

/-- C11. The pattern `*` matches every name. -/
theorem globMatch_star (s : Str) : globMatch ch! "*" s = true := by
  have := (globMatch_iff [.star] (by simp [Elem.WellFormed]) s).2 ⟨[s], by simp, trivial, trivial⟩
  simpa [Elem.text] using this

/-- C11. A bracket which is never closed stands for itself. -/
theorem globMatch_unclosed (pat : Str) (h : ']' ∉ pat) :
    globToks ('[' :: pat) = .lit '[' :: globToks pat := by
  have hs : ∀ t : Str, ']' ∉ t → scanClass t = none := by
    intro t
    induction t with
    | nil => intro _; rfl
    | cons c t ih =>
      intro hc
      simp only [List.mem_cons, not_or] at hc
      simp [scanClass, Ne.symm hc.1, ih hc.2]
  have hp : parseClass pat = none := by
    unfold parseClass
    split
    next neg body e =>
    have hb : ']' ∉ body := by
      split at e
      · simp at e; obtain ⟨-, rfl⟩ := e; simp at h; exact h
      · simp at e; obtain ⟨-, rfl⟩ := e; exact h
    split
    · simp at hb
    · rw [hs _ hb]
  simp [globToks, globToksAux, hp]

example : globMatch ch! "a[b" ch! "a[b" = true ∧ globMatch ch! "a[b" ch! "ab" = false := by decide

end KD
