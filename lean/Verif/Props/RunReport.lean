/-
C96: reports about different problems of a run are different.
-/
import Verif.Props.ValidateMain

namespace KD

open Spec

variable {V : Type}

/-- The texts of a problem of a run are each on one line. -/
def Spec.OneLineRun (errText : Str → PyErr → Str) (cacheText : Option Nat → Str) : RunProblem → Prop
  | .cannotOpen path e => '\n' ∉ path ∧ '\n' ∉ errText path e
  | .noFiles => True
  | .inFile path p => '\n' ∉ path ∧ '\n' ∉ datasetOf p
  | .wrongEntry cf path => '\n' ∉ cacheText cf ∧ '\n' ∉ path

/-- The same problem, as far as the texts of exceptions and the paths of cache files tell. -/
def Spec.SameRunProblem (errText : Str → PyErr → Str) (cacheText : Option Nat → Str) : RunProblem → RunProblem → Prop
  | .cannotOpen path e, .cannotOpen path' e' => path = path' ∧ errText path e = errText path' e'
  | .noFiles, .noFiles => True
  | .inFile path p, .inFile path' p' => path = path' ∧ p = p'
  | .wrongEntry cf path, .wrongEntry cf' path' => cacheText cf = cacheText cf' ∧ path = path'
  | _, _ => False

theorem runToDict_oneLine {dir : Str} {errText : Str → PyErr → Str} {cacheText : Option Nat → Str} {p : RunProblem} (hd : '\n' ∉ dir)
    (h : OneLineRun errText cacheText p) : OneLine (p.toDict dir errText cacheText) := by
  cases p with
  | inFile path p => exact toDict_oneLine h.1 h.2
  | _ => refine ⟨?_, ?_, ?_, ?_⟩ <;> simp_all [RunProblem.toDict, OneLineRun]

theorem toDict_file {file f : Str} {p : Problem} : (ch! "file", f) ∈ (p.toDict file).items ↔ f = file := by
  cases p <;> simp [Problem.toDict]

theorem runToDict_inj {dir : Str} {errText : Str → PyErr → Str} {cacheText : Option Nat → Str} {p q : RunProblem}
    (h1 : (p.toDict dir errText cacheText).msg = (q.toDict dir errText cacheText).msg)
    (h2 : (p.toDict dir errText cacheText).items.Perm (q.toDict dir errText cacheText).items) :
    SameRunProblem errText cacheText p q := by
  cases p with
  | cannotOpen path e =>
    cases q with
    | cannotOpen path' e' =>
      have e1 := (h2.mem_iff (a := (ch! "file", path))).1 (by simp [RunProblem.toDict])
      have e2 := (h2.mem_iff (a := (ch! "error", errText path e))).1 (by simp [RunProblem.toDict])
      simp [RunProblem.toDict] at e1 e2
      exact ⟨e1, e2⟩
    | inFile path' p' => cases p' <;> simp [RunProblem.toDict, Problem.toDict] at h1
    | _ => simp [RunProblem.toDict] at h1
  | noFiles =>
    cases q with
    | noFiles => trivial
    | inFile path' p' => cases p' <;> simp [RunProblem.toDict, Problem.toDict] at h1
    | _ => simp [RunProblem.toDict] at h1
  | inFile path p =>
    cases q with
    | inFile path' p' =>
      have e1 : path = path' := toDict_file.1 ((h2.mem_iff (a := (ch! "file", path))).1 (toDict_file.2 rfl))
      subst e1
      exact ⟨rfl, toDict_inj h1 h2⟩
    | _ => cases p <;> simp [RunProblem.toDict, Problem.toDict] at h1
  | wrongEntry cf path =>
    cases q with
    | wrongEntry cf' path' =>
      have e1 := (h2.mem_iff (a := (ch! "data_file", path))).1 (by simp [RunProblem.toDict])
      have e2 := (h2.mem_iff (a := (ch! "cache_file", cacheText cf))).1 (by simp [RunProblem.toDict])
      simp [RunProblem.toDict] at e1 e2
      exact ⟨e2, e1⟩
    | inFile path' p' => cases p' <;> simp [RunProblem.toDict, Problem.toDict] at h1
    | _ => simp [RunProblem.toDict] at h1

/-- C96, the text of the problems of a run: two reports about a run are the same only if the problems are (as many, in the same
order, in the same files), as far as the texts of exceptions and the paths of cache files tell. -/
theorem run_report_distinct {dir : Str} {errText : Str → PyErr → Str} {cacheText : Option Nat → Str} {ps qs : List RunProblem}
    (hd : '\n' ∉ dir) (hp : ∀ p ∈ ps, OneLineRun errText cacheText p) (hq : ∀ q ∈ qs, OneLineRun errText cacheText q)
    (h : errorText (ps.map (RunProblem.toDict dir errText cacheText)) =
      errorText (qs.map (RunProblem.toDict dir errText cacheText))) :
    List.Forall₂ (SameRunProblem errText cacheText) ps qs := by
  have h1 := report_reads_back (ps := ps.map (RunProblem.toDict dir errText cacheText)) (by
    intro x hx
    obtain ⟨p, h1, rfl⟩ := List.mem_map.1 hx
    exact runToDict_oneLine hd (hp p h1))
  have h2 := report_reads_back (ps := qs.map (RunProblem.toDict dir errText cacheText)) (by
    intro x hx
    obtain ⟨p, h1, rfl⟩ := List.mem_map.1 hx
    exact runToDict_oneLine hd (hq p h1))
  rw [← h] at h2
  rw [List.forall₂_map_left_iff] at h1 h2
  generalize readReport (errorText (ps.map (RunProblem.toDict dir errText cacheText))) = l at h1 h2
  clear h hp hq
  induction h1 generalizing qs with
  | nil => cases h2; exact .nil
  | cons a _ ih =>
    cases h2 with
    | cons b t => exact .cons (runToDict_inj (a.1.symm.trans b.1) (a.2.1.symm.trans b.2.1)) (ih t)

example : OneLineRun (fun _ _ => ch! "no such file") (fun _ => ch! "map.json") (.cannotOpen (ch! "r/a.h5") .os) ∧
    OneLineRun (fun _ _ => ch! "no such file") (fun _ => ch! "map.json") (.wrongEntry (some 0) (ch! "r/a.h5")) ∧
    errorText ([RunProblem.cannotOpen (ch! "r/a.h5") .os, .wrongEntry (some 0) (ch! "r/b.h5")].map
      (RunProblem.toDict (ch! "r") (fun _ _ => ch! "no such file") (fun _ => ch! "map.json"))) =
      ch! "\nCould not open file\n  error: no such file\n  file: r/a.h5\n\nIncorrect data map cache entry\n  cache_file: map.json\n  data_file: r/b.h5" := by
  refine ⟨?_, ?_, ?_⟩
  · exact ⟨by decide, by decide⟩
  · exact ⟨by decide, by decide⟩
  · set_option maxRecDepth 20000 in decide

end KD
