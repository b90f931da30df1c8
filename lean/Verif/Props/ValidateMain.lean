/-
C96 what the validation tool prints and returns.
-/
import Verif.Model.ValidateMain
import Verif.Spec.ValidateMain
import Verif.Lemmas.Strings
import Verif.Props.RunValidation
import Mathlib.Data.List.Sort

namespace KD

open Spec

variable {V : Type}

theorem readDetail_line {k v : Str} (hk : ':' ∉ k) : readDetail (ch! "  " ++ k ++ ch! ": " ++ v) = (k, v) := by
  have e : (ch! "  " ++ k ++ ch! ": " ++ v).drop 2 = k ++ (':' :: ' ' :: v) := by simp
  have hp : ∀ a ∈ k, decide (a ≠ ':') = true := by
    intro a ha
    simp only [decide_eq_true_eq]
    rintro rfl; exact hk ha
  unfold readDetail
  rw [e, List.takeWhile_append_of_pos hp, List.dropWhile_append_of_pos hp]
  simp

theorem readLines_flatMap {α : Type} {m : α → Str} {d : α → List Str} (hd : ∀ x, [] ∉ d x) (l : List α) :
    readLines (l.flatMap (fun x => [] :: m x :: d x)) = l.map (fun x => (m x, (d x).map readDetail)) := by
  induction l with
  | nil => simp [readLines]
  | cons x l ih =>
    have hp : ∀ a ∈ d x, decide (a ≠ []) = true := by
      intro a ha
      simp only [decide_eq_true_eq]
      rintro rfl; exact hd x ha
    rw [List.flatMap_cons, List.cons_append, List.cons_append, readLines, List.takeWhile_append_of_pos hp,
      List.dropWhile_append_of_pos hp]
    have ht : (l.flatMap (fun x => [] :: m x :: d x)).takeWhile (fun x => decide (x ≠ [])) = [] ∧
        (l.flatMap (fun x => [] :: m x :: d x)).dropWhile (fun x => decide (x ≠ [])) =
          l.flatMap (fun x => [] :: m x :: d x) := by
      cases l with
      | nil => simp
      | cons y l => simp
    rw [ht.1, ht.2, ih]
    simp

/-- The details of a problem which are printed. -/
def ProbDict.shown (p : ProbDict) : List (Str × Str) := p.sortedItems.filter (fun x => x.1 != ch! "msg")

theorem shown_perm {p : ProbDict} (h : OneLine p) : p.shown.Perm p.items := by
  unfold ProbDict.shown ProbDict.sortedItems
  have h1 := ((List.perm_insertionSort (fun x y : Str × Str => x.1 ≤ y.1) ((ch! "msg", p.msg) :: p.items)).filter
    (fun x => x.1 != ch! "msg"))
  refine h1.trans ?_
  rw [List.filter_cons_of_neg (by simp), List.filter_eq_self.2]
  intro x hx
  simpa using (h.names x hx).2.2

theorem shown_sorted {p : ProbDict} : p.shown.Pairwise (fun x y => x.1 ≤ y.1) := by
  unfold ProbDict.shown ProbDict.sortedItems
  apply List.Pairwise.filter
  have ht : IsTrans (Str × Str) (fun x y => x.1 ≤ y.1) := ⟨fun a b c h1 h2 => List.le_trans h1 h2⟩
  have ho : Std.Total (fun x y : Str × Str => x.1 ≤ y.1) := ⟨fun a b => List.le_total a.1 b.1⟩
  exact List.pairwise_insertionSort _ _

/-- C96, the text. A report can be read back: it has every problem in order, with its message and all its details, sorted by name. -/
theorem report_reads_back {ps : List ProbDict} (h : ∀ p ∈ ps, OneLine p) :
    List.Forall₂ (fun p x => x.1 = p.msg ∧ x.2.Perm p.items ∧ x.2.Pairwise (fun a b => a.1 < b.1))
      ps (readReport (errorText ps)) := by
  have hread : readReport (errorText ps) = ps.map (fun p => (p.msg, p.shown)) := by
    unfold readReport errorText
    cases ps with
    | nil => simp [joinCh, splitCh, readLines]
    | cons p0 ps0 =>
      rw [splitCh_joinCh (by simp [ProbDict.lines])]
      · have e : ∀ p : ProbDict, p.lines = [] :: p.msg :: p.shown.map (fun x => ch! "  " ++ x.1 ++ ch! ": " ++ x.2) := by
          intro p; rfl
        rw [show (p0 :: ps0).flatMap ProbDict.lines = (p0 :: ps0).flatMap (fun p => [] :: p.msg ::
          p.shown.map (fun x => ch! "  " ++ x.1 ++ ch! ": " ++ x.2)) from by
            congr 1]
        rw [readLines_flatMap (by intro p; simp)]
        apply List.map_congr_left
        intro p hp
        rw [List.map_map]
        congr 1
        conv_rhs => rw [← List.map_id p.shown]
        apply List.map_congr_left
        intro x hx
        have := (h p hp).names x ((shown_perm (h p hp)).mem_iff.1 hx)
        exact readDetail_line this.2.1
      · intro line hl
        obtain ⟨p, hp, hl⟩ := List.mem_flatMap.1 hl
        unfold ProbDict.lines at hl
        rcases List.mem_append.1 hl with hl | hl
        · rcases List.mem_cons.1 hl with rfl | hl
          · simp
          · rw [List.mem_singleton.1 hl]; exact (h p hp).msg
        · obtain ⟨x, hx, rfl⟩ := List.mem_map.1 hl
          have hx := (shown_perm (h p hp)).mem_iff.1 hx
          have h1 := (h p hp).names x hx
          have h2 := (h p hp).values x hx
          simp [h1.1, h2]
  rw [hread, List.forall₂_map_right_iff, List.forall₂_same]
  intro p hp
  refine ⟨rfl, shown_perm (h p hp), ?_⟩
  have hn : (p.shown.map Prod.fst).Nodup := ((shown_perm (h p hp)).map Prod.fst).nodup_iff.2 (h p hp).different
  rw [List.Nodup, List.pairwise_map] at hn
  refine (shown_sorted.and hn).imp ?_
  rintro a b ⟨h1, h2⟩
  rcases List.le_iff_lt_or_eq.1 h1 with h | h
  · exact h
  · exact absurd h h2

theorem natStr_newline {n : Nat} : '\n' ∉ natStr n := fun h => absurd (natStr_digit h) (by decide)

/-- The reports of problems of a file are such, if the names in it are. -/
theorem toDict_oneLine {file : Str} {p : Problem} (hf : '\n' ∉ file) (hd : '\n' ∉ datasetOf p) : OneLine (p.toDict file) := by
  cases p <;> refine ⟨?_, ?_, ?_, ?_⟩ <;> simp_all [Problem.toDict, datasetOf, natStr_newline, shape1]

theorem toDict_dataset {file d : Str} {p : Problem} : (ch! "dataset", d) ∈ (p.toDict file).items ↔ d = datasetOf p := by
  cases p <;> simp [Problem.toDict, datasetOf]

/-- A line of the report about one problem. -/
theorem mem_lines {p : ProbDict} {k v : Str} (h : (k, v) ∈ p.items) (hk : k ≠ ch! "msg") :
    ch! "  " ++ k ++ ch! ": " ++ v ∈ p.lines := by
  unfold ProbDict.lines
  rw [List.mem_append]
  right
  rw [List.mem_map]
  refine ⟨(k, v), ?_, rfl⟩
  rw [List.mem_filter]
  refine ⟨?_, by simpa using hk⟩
  unfold ProbDict.sortedItems
  rw [(List.perm_insertionSort _ _).mem_iff]
  simp [h]

/-- The report about a run names the file a problem was found in, the cache file for an incorrect entry in it, and the
directory without files. -/
theorem run_problem_named (dir : Str) (errText : Str → PyErr → Str) (cacheText : Option Nat → Str) :
    (∀ path e, ch! "  file: " ++ path ∈ (RunProblem.toDict dir errText cacheText (.cannotOpen path e)).lines ∧
      ch! "  error: " ++ errText path e ∈ (RunProblem.toDict dir errText cacheText (.cannotOpen path e)).lines) ∧
    (ch! "  directory: " ++ dir ∈ (RunProblem.toDict dir errText cacheText .noFiles).lines) ∧
    (∀ path p, ch! "  file: " ++ path ∈ (RunProblem.toDict dir errText cacheText (.inFile path p)).lines ∧
      ch! "  dataset: " ++ datasetOf p ∈ (RunProblem.toDict dir errText cacheText (.inFile path p)).lines) ∧
    (∀ cf path, ch! "  cache_file: " ++ cacheText cf ∈ (RunProblem.toDict dir errText cacheText (.wrongEntry cf path)).lines ∧
      ch! "  data_file: " ++ path ∈ (RunProblem.toDict dir errText cacheText (.wrongEntry cf path)).lines) := by
  refine ⟨fun path e => ⟨?_, ?_⟩, ?_, fun path p => ⟨?_, ?_⟩, fun cf path => ⟨?_, ?_⟩⟩
  · exact mem_lines (k := ch! "file") (by simp [RunProblem.toDict]) (by decide)
  · exact mem_lines (k := ch! "error") (by simp [RunProblem.toDict]) (by decide)
  · exact mem_lines (k := ch! "directory") (by simp [RunProblem.toDict]) (by decide)
  · exact mem_lines (k := ch! "file") (by cases p <;> simp [RunProblem.toDict, Problem.toDict]) (by decide)
  · exact mem_lines (k := ch! "dataset") (toDict_dataset.2 rfl) (by decide)
  · exact mem_lines (k := ch! "cache_file") (by simp [RunProblem.toDict]) (by decide)
  · exact mem_lines (k := ch! "data_file") (by simp [RunProblem.toDict]) (by decide)

theorem shape1_inj {m n : Nat} (h : shape1 m = shape1 n) : m = n := by
  unfold shape1 at h
  rw [List.cons_append, List.cons_append] at h
  exact (num_split (by decide) (by decide) (List.cons.inj h).2).1

/-- C96. The report about an index with the wrong number of entries has both numbers, as numpy shows shapes. -/
theorem shape_lines (file d : Str) (a b : Nat) :
    (ch! "  first_shape: (" ++ natStr a ++ ch! ",)" ∈ ((Problem.lengths d a b).toDict file).lines ∧
      ch! "  count_shape: (" ++ natStr b ++ ch! ",)" ∈ ((Problem.lengths d a b).toDict file).lines) ∧
    (ch! "  index_shape: (" ++ natStr a ++ ch! ",)" ∈ ((Problem.entries d a b).toDict file).lines ∧
      ch! "  trainids_shape: (" ++ natStr b ++ ch! ",)" ∈ ((Problem.entries d a b).toDict file).lines) := by
  refine ⟨⟨?_, ?_⟩, ?_, ?_⟩
  · exact mem_lines (k := ch! "first_shape") (v := '(' :: natStr a ++ ch! ",)") (by simp [Problem.toDict, shape1]) (by decide)
  · exact mem_lines (k := ch! "count_shape") (v := '(' :: natStr b ++ ch! ",)") (by simp [Problem.toDict, shape1]) (by decide)
  · exact mem_lines (k := ch! "index_shape") (v := '(' :: natStr a ++ ch! ",)") (by simp [Problem.toDict, shape1]) (by decide)
  · exact mem_lines (k := ch! "trainids_shape") (v := '(' :: natStr b ++ ch! ",)") (by simp [Problem.toDict, shape1]) (by decide)

/-- Different problems are described differently. -/
theorem toDict_inj {file : Str} {p q : Problem} (h1 : (p.toDict file).msg = (q.toDict file).msg)
    (h2 : (p.toDict file).items.Perm (q.toDict file).items) : p = q := by
  have hd : datasetOf p = datasetOf q := by
    have := (h2.mem_iff (a := (ch! "dataset", datasetOf p))).1 (toDict_dataset.2 rfl)
    exact toDict_dataset.1 this
  cases p <;> cases q <;> simp [Problem.toDict] at h1 <;> simp only [datasetOf] at hd
  case zeros.zeros => rfl
  case notIncreasing.notIncreasing =>
    obtain ⟨rfl, -, e⟩ := num_split (by decide) (by decide) h1
    simp only [List.cons.injEq, true_and] at e
    obtain ⟨rfl, -, e⟩ := num_split (by decide) (by decide) e
    simp only [List.cons.injEq, true_and] at e
    obtain ⟨rfl, -, e⟩ := num_split (by decide) (by decide) e
    rfl
  case outside.outside =>
    obtain ⟨rfl, -, e⟩ := num_split (by decide) (by decide) h1
    simp only [List.cons.injEq, true_and] at e
    obtain ⟨rfl, -, e⟩ := num_split (by decide) (by decide) e
    rw [hd]
  case lengths.lengths d a b d' a' b' =>
    have e1 := (h2.mem_iff (a := (ch! "first_shape", shape1 a))).1 (by simp [Problem.toDict])
    have e2 := (h2.mem_iff (a := (ch! "count_shape", shape1 b))).1 (by simp [Problem.toDict])
    simp [Problem.toDict] at e1 e2
    rw [hd, shape1_inj e1, shape1_inj e2]
  case entries.entries d a b d' a' b' =>
    have e1 := (h2.mem_iff (a := (ch! "index_shape", shape1 a))).1 (by simp [Problem.toDict])
    have e2 := (h2.mem_iff (a := (ch! "trainids_shape", shape1 b))).1 (by simp [Problem.toDict])
    simp [Problem.toDict] at e1 e2
    rw [hd, shape1_inj e1, shape1_inj e2]
  case start.start => rw [hd]
  case gaps.gaps =>
    obtain ⟨rfl, -, e⟩ := num_split (by decide) (by decide) h1
    simp only [List.cons.injEq, true_and] at e
    obtain ⟨rfl, -, e⟩ := num_split (by decide) (by decide) e
    simp only [List.cons.injEq, true_and] at e
    obtain ⟨rfl, -, e⟩ := num_split (by decide) (by decide) e
    simp only [List.cons.injEq, true_and] at e
    obtain ⟨rfl, -, e⟩ := num_split (by decide) (by decide) e
    simp only [List.cons.injEq, true_and] at e
    obtain ⟨rfl, -, e⟩ := num_split (by decide) (by decide) e
    rw [hd]
  case overlaps.overlaps =>
    obtain ⟨rfl, -, e⟩ := num_split (by decide) (by decide) h1
    simp only [List.cons.injEq, true_and] at e
    obtain ⟨rfl, -, e⟩ := num_split (by decide) (by decide) e
    simp only [List.cons.injEq, true_and] at e
    obtain ⟨rfl, -, e⟩ := num_split (by decide) (by decide) e
    simp only [List.cons.injEq, true_and] at e
    obtain ⟨rfl, -, e⟩ := num_split (by decide) (by decide) e
    simp only [List.cons.injEq, true_and] at e
    obtain ⟨rfl, -, e⟩ := num_split (by decide) (by decide) e
    rw [hd]

/-- C96, the text of the problems of a file: two reports are the same only if the problems are. -/
theorem report_distinct {file : Str} {ps qs : List Problem} (hf : '\n' ∉ file) (hp : ∀ p ∈ ps, '\n' ∉ datasetOf p)
    (hq : ∀ q ∈ qs, '\n' ∉ datasetOf q)
    (h : errorText (ps.map (Problem.toDict file)) = errorText (qs.map (Problem.toDict file))) : ps = qs := by
  have h1 := report_reads_back (ps := ps.map (Problem.toDict file)) (by
    intro x hx
    obtain ⟨p, h1, rfl⟩ := List.mem_map.1 hx
    exact toDict_oneLine hf (hp p h1))
  have h2 := report_reads_back (ps := qs.map (Problem.toDict file)) (by
    intro x hx
    obtain ⟨p, h1, rfl⟩ := List.mem_map.1 hx
    exact toDict_oneLine hf (hq p h1))
  rw [← h] at h2
  rw [List.forall₂_map_left_iff] at h1 h2
  generalize readReport (errorText (ps.map (Problem.toDict file))) = l at h1 h2
  clear h hp hq
  induction h1 generalizing qs with
  | nil => cases h2; rfl
  | cons a _ ih =>
    cases h2 with
    | cons b t =>
      rw [ih t]
      congr 1
      exact toDict_inj (a.1.symm.trans b.1) (a.2.1.symm.trans b.2.1)

/-- C96, a file. The tool says that there are no problems, and returns the exit status 0, when the checks of the file found none; it
prints the report of all problems and returns 1 when they found some. An exception on opening or checking the file is not caught,
and nothing is said about problems. -/
theorem validate_file_exit {path : Str} {opened : R (FileAccess V)} {checks : R (List RunProblem)}
    {errText : Str → PyErr → Str} {cacheText : Option Nat → Str} :
    (∀ e, opened = .error e → validateMain path false opened checks errText cacheText =
      ⟨[ch! "Checking file: " ++ path], .error e⟩) ∧
    ∀ f, opened = .ok f →
      (∀ e, f.runChecks = .error e → validateMain path false opened checks errText cacheText =
        ⟨[ch! "Checking file: " ++ path], .error e⟩) ∧
      (f.runChecks = .ok [] → validateMain path false opened checks errText cacheText =
        ⟨[ch! "Checking file: " ++ path, ch! "No problems found"], .ok none⟩) ∧
      (∀ ps, ps ≠ [] → f.runChecks = .ok ps → validateMain path false opened checks errText cacheText =
        ⟨[ch! "Checking file: " ++ path, ch! "Validation failed!", errorText (ps.map (Problem.toDict f.filename))],
          .ok (some 1)⟩) := by
  refine ⟨?_, ?_⟩
  · rintro e rfl
    rfl
  · rintro f rfl
    have hf : fileChecks (.ok f) = match f.runChecks with
        | .error e => .error e
        | .ok ps => .ok (ps.map (Problem.toDict f.filename)) := by
      have hc : hasConflicts [f] = false := hasConflicts_false.2 (List.pairwise_singleton _ _)
      unfold fileChecks DC.fromPath DC.make
      simp only
      rw [if_neg (by rw [hc]; simp)]
      rfl
    unfold validateMain
    simp only [Bool.false_eq_true, if_false]
    rw [hf]
    refine ⟨?_, ?_, ?_⟩
    · intro e he; rw [he]; rfl
    · intro he; rw [he]; rfl
    · intro ps hne he
      rw [he]
      cases ps with
      | nil => exact absurd rfl hne
      | cons p ps => rfl

/-- C96, a run directory: the same. -/
theorem validate_run_exit {path : Str} {opened : R (FileAccess V)} {checks : R (List RunProblem)}
    {errText : Str → PyErr → Str} {cacheText : Option Nat → Str} :
    (∀ e, checks = .error e → validateMain path true opened checks errText cacheText =
      ⟨[ch! "Checking run directory: " ++ path], .error e⟩) ∧
    (checks = .ok [] → validateMain path true opened checks errText cacheText =
      ⟨[ch! "Checking run directory: " ++ path, ch! "No problems found"], .ok none⟩) ∧
    (∀ ps, ps ≠ [] → checks = .ok ps → validateMain path true opened checks errText cacheText =
      ⟨[ch! "Checking run directory: " ++ path, ch! "Validation failed!",
        errorText (ps.map (RunProblem.toDict path errText cacheText))], .ok (some 1)⟩) := by
  refine ⟨?_, ?_, ?_⟩
  · rintro e rfl; rfl
  · rintro rfl; rfl
  · rintro ps hne rfl
    cases ps with
    | nil => exact absurd rfl hne
    | cons p ps => rfl

set_option maxRecDepth 20000 in
/-- A file with two problems. -/
example : (validateMain (ch! "a.h5") false (.ok (exInst (ch! "a.h5") [1, 2, 3] [0, 1, 4] [2, 1, 1] [1, 2, 3, 4, 5])) (.ok [])
    (fun _ _ => []) (fun _ => [])) =
    ⟨[ch! "Checking file: a.h5", ch! "Validation failed!",
      ch! "\nGaps (1) in index, e.g. at 1 (1 + 1 < 4)\n  dataset: INDEX/D:o/data\n  file: a.h5\n\nOverlaps (1) in index, e.g. at 0 (0 + 2 > 1)\n  dataset: INDEX/D:o/data\n  file: a.h5"],
      .ok (some 1)⟩ := by decide

example : OneLine (Problem.toDict (ch! "a.h5") (.gaps (ch! "INDEX/D:o/data") 1 1 1 1 4)) :=
  toDict_oneLine (by decide) (by decide)

end KD
