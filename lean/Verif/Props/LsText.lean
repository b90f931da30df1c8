/-
Property C158: the line which lsxfel prints for a run.
-/
import Verif.Spec.LsText
import Verif.Lemmas.Strings
import Verif.Props.LsXfel

namespace KD
open Spec

theorem alignRight_column (w n : Nat) : Column w (alignRight w n) n := by
  refine ⟨w - (natStr n).length, rfl, ?_, ?_⟩ <;> simp only [alignRight, List.length_append, List.length_replicate] <;> omega

/-- A number in a column can be cut off and read. -/
theorem column_split {w w' : Nat} {s s' : Str} {n n' : Nat} {r r' : Str} (h : Column w s n) (h' : Column w' s' n')
    (e : s ++ ' ' :: r = s' ++ ' ' :: r') : n = n' ∧ r = r' := by
  obtain ⟨k, rfl, -, -⟩ := h
  obtain ⟨k', rfl, -, -⟩ := h'
  have hne : ∀ m : Nat, ∀ t : Str, ∃ c u, natStr m ++ t = c :: u ∧ c ≠ ' ' := by
    intro m t
    match hm : natStr m with
    | [] => exact absurd hm Nat.toDigits_ne_nil
    | c :: u =>
      refine ⟨c, u ++ t, rfl, ?_⟩
      rintro rfl
      have : ' ' ∈ natStr m := by rw [hm]; simp
      exact absurd (natStr_digit this) (by decide)
  rw [List.append_assoc, List.append_assoc] at e
  have key : natStr n ++ ' ' :: r = natStr n' ++ ' ' :: r' := by
    induction k generalizing k' with
    | zero =>
      cases k' with
      | zero => simpa using e
      | succ k' =>
        obtain ⟨c, u, hc, hcne⟩ := hne n (' ' :: r)
        simp only [List.replicate_zero, List.nil_append, List.replicate_succ, List.cons_append] at e
        rw [hc] at e
        exact absurd (List.cons.inj e).1 hcne
    | succ k ih =>
      cases k' with
      | zero =>
        obtain ⟨c, u, hc, hcne⟩ := hne n' (' ' :: r')
        simp only [List.replicate_zero, List.nil_append, List.replicate_succ, List.cons_append] at e
        rw [hc] at e
        exact absurd (List.cons.inj e).1.symm hcne
      | succ k' =>
        simp only [List.replicate_succ, List.cons_append] at e
        exact ih k' (List.cons.inj e).2
  obtain ⟨h1, -, h2⟩ := num_split (by decide) (by decide) key
  exact ⟨h1, h2⟩

/-- C158. The line for a run has its name and three numbers, each in a column. -/
theorem ls_run_line {fs : LsFs} {indent path line : Str} (h : runText fs indent path = .ok line) :
    ∃ trains detector other a b c, countRun fs path = .ok (trains, detector, other) ∧
      Column 4 a trains ∧ Column 3 b detector ∧ Column 3 c other ∧
      line = indent ++ osBasename path ++ ch! " : Run of " ++ a ++ ch! " trains, with " ++ b ++ ch! " detector files and " ++ c ++
        ch! " others" := by
  unfold runText at h
  split at h
  · cases h
  · next x hx =>
    obtain ⟨t, d, o⟩ := x
    exact ⟨t, d, o, _, _, _, hx, alignRight_column 4 t, alignRight_column 3 d, alignRight_column 3 o, (Except.ok.inj h).symm⟩

/-- Text before the first colon. -/
theorem cut_colon {a b r s : Str} (ha : ':' ∉ a) (hb : ':' ∉ b) (h : a ++ ':' :: r = b ++ ':' :: s) : a = b ∧ r = s := by
  induction a generalizing b with
  | nil =>
    cases b with
    | nil => exact ⟨rfl, by simpa using h⟩
    | cons y b =>
      simp only [List.nil_append, List.cons_append, List.cons.injEq] at h
      exact absurd (List.mem_cons.2 (.inl h.1)) hb
  | cons x a ih =>
    cases b with
    | nil =>
      simp only [List.nil_append, List.cons_append, List.cons.injEq] at h
      exact absurd (List.mem_cons.2 (.inl h.1.symm)) ha
    | cons y b =>
      simp only [List.cons_append, List.cons.injEq] at h
      obtain ⟨e1, e2⟩ := ih (fun hc => ha (by simp [hc])) (fun hc => hb (by simp [hc])) h.2
      exact ⟨by rw [h.1, e1], e2⟩

/-- C158. The line determines the run and its numbers, for folders without a colon in their names: where the same line is printed for
two runs (perhaps in different file systems), they have the same name and the same numbers of trains and files. -/
theorem ls_run_line_injective {fs fs' : LsFs} {indent path path' line : Str} (hp : ':' ∉ osBasename path) (hp' : ':' ∉ osBasename path') (h : runText fs indent path = .ok line) (h' : runText fs' indent path' = .ok line) :
    osBasename path = osBasename path' ∧ countRun fs path = countRun fs' path' := by
  obtain ⟨t, d, o, a, b, c, hc, ha, hb, ho, rfl⟩ := ls_run_line h
  obtain ⟨t', d', o', a', b', c', hc', ha', hb', ho', e⟩ := ls_run_line h'
  simp only [List.append_assoc, List.cons_append, List.nil_append] at e
  have e0 := List.append_cancel_left e
  obtain ⟨e1, e2⟩ := cut_colon (a := osBasename path ++ [' ']) (b := osBasename path' ++ [' ']) (by simp [hp]) (by simp [hp'])
    (by simpa only [List.append_assoc, List.cons_append, List.nil_append] using e0)
  simp only [List.cons.injEq, true_and] at e2
  obtain ⟨f1, e3⟩ := column_split ha ha' e2
  simp only [List.cons.injEq, true_and] at e3
  obtain ⟨f2, e4⟩ := column_split hb hb' e3
  simp only [List.cons.injEq, true_and] at e4
  obtain ⟨f3, -⟩ := column_split ho ho' e4
  refine ⟨List.append_cancel_right e1, ?_⟩
  rw [hc, hc', f1, f2, f3]

example : runLine (ch! "  ") (ch! "r0012") 450 16 12345 =
    ch! "  r0012 : Run of  450 trains, with  16 detector files and 12345 others" := by decide

/-- A run to which the theorems apply. -/
example : runText unevenRun [] (ch! "/r") = .ok (ch! "r : Run of    1 trains, with   2 detector files and   1 others") ∧
    ':' ∉ osBasename (ch! "/r") := by decide

end KD
