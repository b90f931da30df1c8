/-
C95 Where `karabo-data-make-virtual-cxi` reads and writes.
-/
import Verif.Model.VirtualCxiCli
import Verif.Props.Names
import Verif.Props.LsXfel

set_option linter.unusedSimpArgs false

namespace KD

/-- The name of a run: `r` and four digits. -/
def Spec.Run4 (run : Str) : Prop := ∃ d1 d2 d3 d4 : Char, run = ['r', d1, d2, d3, d4] ∧ d1.isDigit ∧ d2.isDigit ∧ d3.isDigit ∧ d4.isDigit

/-- The path of the folder of a run in a proposal, `<proposal>/raw/rNNNN` or `<proposal>/proc/rNNNN`. -/
def Spec.RunDirPath (path proposal kind run : Str) : Prop :=
  (kind = ch! "raw" ∨ kind = ch! "proc") ∧ Spec.Run4 run ∧ path = proposal ++ '/' :: kind ++ '/' :: run

theorem stripOne_ne {c : Char} {s : Str} {d : Char} (h : s.getLast? = some d) (hd : d ≠ c) : stripOne c s = s := by
  unfold stripOne
  rw [if_neg]
  rw [suffix_iff]
  rintro ⟨t, rfl⟩
  simp at h
  exact hd h.symm

theorem stripOne_eq (c : Char) (s : Str) : stripOne c (s ++ [c]) = s := by
  unfold stripOne
  rw [if_pos ((suffix_iff _ _).2 ⟨s, rfl⟩)]
  simp

theorem stripOne_cases (c : Char) (s : Str) : stripOne c s = s ∨ s = stripOne c s ++ [c] := by
  unfold stripOne
  split
  · next h =>
    obtain ⟨t, rfl⟩ := (suffix_iff _ _).1 h
    right
    simp
  · exact Or.inl rfl

theorem matchRunDir_core {t : Str} {p k r : Str} :
    (match t.reverse with
      | d4 :: d3 :: d2 :: d1 :: 'r' :: '/' :: rest =>
        if d1.isDigit && d2.isDigit && d3.isDigit && d4.isDigit then matchRawProc ['r', d1, d2, d3, d4] rest else none
      | _ => none) = some (p, k, r) ↔ Spec.RunDirPath t p k r := by
  constructor
  · intro h
    split at h
    · next d4 d3 d2 d1 rest ht =>
      split at h
      · next hd =>
        simp only [Bool.and_eq_true] at hd
        unfold matchRawProc at h
        have ht' : t = (d4 :: d3 :: d2 :: d1 :: 'r' :: '/' :: rest).reverse := by rw [← ht, List.reverse_reverse]
        split at h
        · next hs =>
          obtain ⟨u, rfl⟩ := (prefix_iff _ _).1 hs
          simp only [Option.some.injEq, Prod.mk.injEq] at h
          obtain ⟨rfl, rfl, rfl⟩ := h
          refine ⟨Or.inl rfl, ⟨d1, d2, d3, d4, rfl, hd.1.1.1, hd.1.1.2, hd.1.2, hd.2⟩, ?_⟩
          rw [ht']
          simp
        · split at h
          · next hs =>
            obtain ⟨u, rfl⟩ := (prefix_iff _ _).1 hs
            simp only [Option.some.injEq, Prod.mk.injEq] at h
            obtain ⟨rfl, rfl, rfl⟩ := h
            refine ⟨Or.inr rfl, ⟨d1, d2, d3, d4, rfl, hd.1.1.1, hd.1.1.2, hd.1.2, hd.2⟩, ?_⟩
            rw [ht']
            simp
          · simp at h
      · simp at h
    · simp at h
  · rintro ⟨hk, ⟨d1, d2, d3, d4, rfl, h1, h2, h3, h4⟩, rfl⟩
    rcases hk with rfl | rfl
    · have : (p ++ '/' :: ch! "raw" ++ '/' :: ['r', d1, d2, d3, d4]).reverse = d4 :: d3 :: d2 :: d1 :: 'r' :: '/' :: (ch! "war/" ++ p.reverse) := by simp
      rw [this]
      simp only [h1, h2, h3, h4, Bool.and_self, if_true]
      unfold matchRawProc
      rw [if_pos ((prefix_iff _ _).2 ⟨p.reverse, rfl⟩)]
      simp
    · have : (p ++ '/' :: ch! "proc" ++ '/' :: ['r', d1, d2, d3, d4]).reverse = d4 :: d3 :: d2 :: d1 :: 'r' :: '/' :: (ch! "corp/" ++ p.reverse) := by simp
      rw [this]
      simp only [h1, h2, h3, h4, Bool.and_self, if_true]
      unfold matchRawProc
      rw [if_neg (by rw [prefix_iff]; rintro ⟨u, hu⟩; simp at hu), if_pos ((prefix_iff _ _).2 ⟨p.reverse, rfl⟩)]
      simp

/-- The pattern finds the folders of runs, for paths without a slash or a line break at the end (as `abspath` gives). -/
theorem matchRunDir_iff {s p k r : Str} (h1 : s.getLast? ≠ some '/') (h2 : s.getLast? ≠ some '\n') :
    matchRunDir s = some (p, k, r) ↔ Spec.RunDirPath s p k r := by
  have e1 : stripOne '\n' s = s := by
    rcases stripOne_cases '\n' s with h | h
    · exact h
    · rw [h] at h2; simp at h2
  have e2 : stripOne '/' s = s := by
    rcases stripOne_cases '/' s with h | h
    · exact h
    · rw [h] at h1; simp at h1
  unfold matchRunDir
  rw [e1, e2]
  exact matchRunDir_core

/-- C95: with `-o`, the output is written there. -/
theorem cli_output (env : CliEnv) (a : CliArgs) (out : Str) (ho : a.output = some out) {d : CliDet} {r o : Str}
    (h : cliMain env a = .write d r o) : o = out := by
  have key : ∀ r o, cliPaths env a = .ok (r, o) → o = out := by
    intro r o h
    unfold cliPaths at h
    simp only [ho, Option.getD_some] at h
    split at h
    · split at h
      · simp at h
      · have := Except.ok.inj h
        simp only [Prod.mk.injEq] at this
        exact this.2.symm
    · have := Except.ok.inj h
      simp only [Prod.mk.injEq] at this
      exact this.2.symm
  unfold cliMain at h
  split at h
  · next e he =>
    subst h
    unfold cliPaths at he
    simp only [ho] at he
    split at he
    · split at he
      · simp at he
      · simp at he
    · simp at he
  · next r' o' hp =>
    simp only at h
    split at h
    · simp at h
    · split at h
      · simp at h
      · split at h
        · simp at h
        · split at h
          · simp at h
          · simp at h
          · simp only [CliEnd.write.injEq] at h
            rw [← h.2.2]
            exact key r' o' hp

theorem join_plain {a b : Str} (ha : a ≠ []) (ha' : a.getLast? ≠ some '/') (hb : b.head? ≠ some '/') : osJoin a b = a ++ '/' :: b := by
  unfold osJoin
  have h1 : ¬ startsWith b ch! "/" = true := by
    rw [prefix_iff]
    rintro ⟨t, rfl⟩
    simp at hb
  have h2 : ¬ endsWith a ch! "/" = true := by
    rw [suffix_iff]
    rintro ⟨t, rfl⟩
    simp at ha'
  rw [if_neg h1, if_neg (by simp [ha, h2])]

/-- C95: for the folder of a run and without `-o`, the file is `<proposal>/scratch/<run>_<raw or proc>_detectors_virt.cxi`. -/
theorem cli_default_partial (env : CliEnv) (a : CliArgs) (hn : a.runNumber = none) (ho : a.output = none) {proposal kind run : Str}
    (hp : Spec.RunDirPath (env.abspath a.runDir) proposal kind run) (hne : proposal ≠ []) (hsl : proposal.getLast? ≠ some '/') :
    cliPaths env a = .ok (proposal ++ '/' :: kind ++ '/' :: run,
      proposal ++ ch! "/scratch/" ++ run ++ '_' :: kind ++ ch! "_detectors_virt.cxi") := by
  have hp0 := hp
  obtain ⟨hk, ⟨d1, d2, d3, d4, rfl, h1, h2, h3, h4⟩, he⟩ := hp
  have hlast : (env.abspath a.runDir).getLast? = some d4 := by
    have : env.abspath a.runDir = (proposal ++ '/' :: kind ++ ['/', 'r', d1, d2, d3]) ++ [d4] := by rw [he]; simp
    rw [this, List.getLast?_concat]
  have hm : matchRunDir (env.abspath a.runDir) = some (proposal, kind, ['r', d1, d2, d3, d4]) := by
    rw [matchRunDir_iff]
    · exact hp0
    · rw [hlast]
      rintro e
      rw [Option.some.inj e] at h4
      exact absurd h4 (by decide)
    · rw [hlast]
      rintro e
      rw [Option.some.inj e] at h4
      exact absurd h4 (by decide)
  unfold cliPaths
  simp only [hn, ho, Option.getD_none, ne_eq, not_true, if_false, hm]
  rw [join_plain hne hsl (by simp), join_plain (by simp) (by simp [List.getLast?_append, List.getLast?_cons]) (by simp), he]
  simp

/-- C95: different runs of a proposal have different files. -/
theorem cli_default_inj {proposal kind run kind' run' : Str} (hr : Spec.Run4 run) (hr' : Spec.Run4 run')
    (h : proposal ++ ch! "/scratch/" ++ run ++ '_' :: kind ++ ch! "_detectors_virt.cxi" =
      proposal ++ ch! "/scratch/" ++ run' ++ '_' :: kind' ++ ch! "_detectors_virt.cxi") : run = run' ∧ kind = kind' := by
  obtain ⟨d1, d2, d3, d4, rfl, -⟩ := hr
  obtain ⟨e1, e2, e3, e4, rfl, -⟩ := hr'
  simp only [List.append_assoc, List.append_cancel_left_eq, List.cons_append, List.nil_append, List.cons.injEq, true_and] at h
  obtain ⟨rfl, rfl, rfl, rfl, h⟩ := h
  have : kind = kind' := by
    have := congrArg List.reverse h
    simpa using this
  exact ⟨rfl, this⟩

/-- C95: for any other folder, without `-o`: an error message, and nothing is read or written. -/
theorem cli_other (env : CliEnv) (a : CliArgs) (hn : a.runNumber = none) (ho : a.output = none)
    (hl : (env.abspath a.runDir).getLast? ≠ some '/') (hl2 : (env.abspath a.runDir).getLast? ≠ some '\n')
    (hp : ∀ proposal kind run, ¬ Spec.RunDirPath (env.abspath a.runDir) proposal kind run) : cliMain env a = .badInput := by
  have hm : matchRunDir (env.abspath a.runDir) = none := by
    cases h : matchRunDir (env.abspath a.runDir) with
    | none => rfl
    | some x =>
      obtain ⟨p, k, r⟩ := x
      exact absurd ((matchRunDir_iff hl hl2).1 h) (hp p k r)
  unfold cliMain cliPaths
  simp [hn, ho, hm]

/-- C95, the older way: with the folder of a proposal and the number of a run. -/
theorem cli_number (env : CliEnv) (a : CliArgs) (n : Nat) (hn : a.runNumber = some (Nat.toDigits 10 n)) (ho : a.output = none)
    (hne : a.runDir ≠ []) (hsl : a.runDir.getLast? ≠ some '/') :
    cliPaths env a = .ok (a.runDir ++ ch! "/proc/r" ++ Spec.padded 4 n, a.runDir ++ ch! "/scratch/r" ++ Spec.padded 4 n ++ ch! "_detectors_virt.cxi") := by
  have hd : ∀ c ∈ Nat.toDigits 10 n, c.isDigit = true := fun c hc => natStr_digit hc
  have hne' : Nat.toDigits 10 n ≠ [] := Nat.toDigits_ne_nil
  have hparse : parseInt (Nat.toDigits 10 n) = .ok (n : Int) := by
    have hm : ∀ s : Str, s ≠ [] → (∀ c ∈ s, c.isDigit = true) → parseInt s = .ok ((Nat.ofDigitChars 10 s 0 : Nat) : Int) := by
      intro s hs hall
      unfold parseInt
      split
      · next t =>
        have := hall '-' (by simp)
        exact absurd this (by decide)
      · rw [if_pos ⟨hs, by rw [List.all_eq_true]; exact hall⟩]
    rw [hm _ hne' hd, Nat.ofDigitChars_ten_toDigits]
  unfold cliPaths
  simp only [hn, ho, Option.getD_some, Option.getD_none]
  rw [if_pos hne', hparse]
  simp only [fmt0_nat]
  rw [join_plain hne hsl (by simp), join_plain hne hsl (by simp),
    join_plain (by simp) (by simp [List.getLast?_append, List.getLast?_cons]) (by simp),
    join_plain (by simp) (by simp [List.getLast?_append, List.getLast?_cons]) (by simp)]
  simp

/-- The text of a number: digits, with a minus sign before them for a negative one. -/
inductive Spec.NumberText : Str → Int → Prop where
  | pos (s : Str) (h : s ≠ []) (hd : ∀ c ∈ s, c.isDigit = true) : NumberText s (Nat.ofDigitChars 10 s 0 : Nat)
  | neg (s : Str) (h : s ≠ []) (hd : ∀ c ∈ s, c.isDigit = true) : NumberText ('-' :: s) (-(Nat.ofDigitChars 10 s 0 : Nat))

theorem parseInt_text {s : Str} {z : Int} (h : Spec.NumberText s z) : parseInt s = .ok z := by
  cases h with
  | pos _ h hd =>
    unfold parseInt
    split
    · exact absurd (hd '-' (by simp)) (by decide)
    · rw [if_pos ⟨h, List.all_eq_true.2 hd⟩]
  | neg t h hd =>
    show (if t ≠ [] ∧ t.all Char.isDigit then _ else _) = _
    rw [if_pos ⟨h, List.all_eq_true.2 hd⟩]

theorem parseInt_other {s : Str} (h : ∀ z, ¬ Spec.NumberText s z) : parseInt s = .error .value := by
  unfold parseInt
  split
  · next t =>
    rw [if_neg]
    rintro ⟨h1, h2⟩
    exact h _ (.neg t h1 (List.all_eq_true.1 h2))
  · rw [if_neg]
    rintro ⟨h1, h2⟩
    exact h _ (.pos s h1 (List.all_eq_true.1 h2))

/-- C95, the older way, for any text given as run number: with the text of a number the run folder has that number, with a minus
sign if it is negative; any other text is refused with ValueError, and nothing is written. -/
theorem cli_number_text (env : CliEnv) (a : CliArgs) (s : Str) (hn : a.runNumber = some s) (hs : s ≠ []) :
    (∀ z, Spec.NumberText s z → ∃ run, (0 ≤ z → run = 'r' :: Spec.padded 4 z.toNat) ∧ (z < 0 → run = 'r' :: '-' :: Spec.padded 3 z.natAbs) ∧
      cliPaths env a = .ok (osJoin (osJoin a.runDir ch! "proc") run,
        a.output.getD (osJoin (osJoin a.runDir ch! "scratch") (run ++ ch! "_detectors_virt.cxi")))) ∧
    ((∀ z, ¬ Spec.NumberText s z) → cliMain env a = .raised .value) := by
  constructor
  · intro z hz
    refine ⟨'r' :: fmt0 4 z, ?_, ?_, ?_⟩
    · intro h0
      obtain ⟨n, rfl⟩ := Int.eq_ofNat_of_zero_le h0
      rw [show fmt0 4 ((n : Nat) : Int) = Spec.padded 4 n from fmt0_nat 4 n]
      rfl
    · intro h0
      unfold fmt0
      rw [if_pos h0]
      rfl
    · unfold cliPaths
      simp only [hn, Option.getD_some]
      rw [if_pos hs, parseInt_text hz]
  · intro h
    unfold cliMain cliPaths
    simp only [hn, Option.getD_some]
    rw [if_pos hs, parseInt_other h]

example : Spec.NumberText ch! "12" 12 ∧ Spec.NumberText ch! "-12" (-12) :=
  ⟨.pos ch! "12" (by decide) (by decide), .neg ch! "12" (by decide) (by decide)⟩

example : ∀ z, ¬ Spec.NumberText ch! "r1" z := by
  intro z h
  have := parseInt_text h
  simp [parseInt] at this

/-- C95: the detector is the AGIPD if the run has its sources, otherwise the LPD; without both nothing is written. -/
theorem cli_detector (env : CliEnv) (a : CliArgs) {r o : Str} (hp : cliPaths env a = .ok (r, o)) (hr : env.readable r = true)
    (hw : env.writable (osDirname (env.abspath o)) = true) (hopen : env.openRun r = .ok ()) :
    (env.agipd r a.minModules = .ok () → cliMain env a = .write .agipd r o) ∧
    (env.agipd r a.minModules = .error .sourceName → env.lpd r a.minModules = .ok () → cliMain env a = .write .lpd r o) ∧
    (env.agipd r a.minModules = .error .sourceName → env.lpd r a.minModules = .error .sourceName → cliMain env a = .noDetector) ∧
    (∀ e, e ≠ .sourceName → env.agipd r a.minModules = .error e → cliMain env a = .raised e) ∧
    (∀ e, e ≠ .sourceName → env.agipd r a.minModules = .error .sourceName → env.lpd r a.minModules = .error e → cliMain env a = .raised e) := by
  unfold cliMain
  simp only [hp, hr, hw, hopen, Bool.not_true, Bool.false_eq_true, if_false]
  refine ⟨fun h => ?_, fun h h' => ?_, fun h h' => ?_, fun e he h => ?_, fun e he h h' => ?_⟩
  · simp [getDetector, h]
  · simp [getDetector, h, h']
  · simp [getDetector, h, h']
  · cases e <;> first | exact absurd rfl he | simp [getDetector, h]
  · cases e <;> first | exact absurd rfl he | simp [getDetector, h, h']

theorem paths_error (env : CliEnv) (a : CliArgs) (d : CliDet) (r o : Str) : cliPaths env a ≠ .error (.write d r o) := by
  intro h
  unfold cliPaths at h
  split at h
  · split at h <;> simp at h
  · simp only at h
    split at h
    · simp at h
    · split at h <;> simp at h

/-- C95: nothing is written unless the run can be read and the folder of the output can be written. -/
theorem cli_access (env : CliEnv) (a : CliArgs) {d : CliDet} {r o : Str} (h : cliMain env a = .write d r o) :
    cliPaths env a = .ok (r, o) ∧ env.readable r = true ∧ env.writable (osDirname (env.abspath o)) = true := by
  unfold cliMain at h
  split at h
  · next e he => rw [h] at he; exact absurd he (paths_error env a d r o)
  · next r' o' hp =>
    simp only at h
    split at h
    · simp at h
    · next h1 =>
      split at h
      · simp at h
      · next h2 =>
        split at h
        · simp at h
        · split at h
          · simp at h
          · simp at h
          · simp only [CliEnd.write.injEq] at h
            obtain ⟨-, rfl, rfl⟩ := h
            exact ⟨hp, by simpa using h1, by simpa using h2⟩

/-- C95 is false for a proposal at the root: the file is then looked for in the current folder. -/
theorem cli_root_wrong (env : CliEnv) (habs : ∀ p, env.abspath p = p) :
    cliPaths env ⟨ch! "/raw/r0001", none, none, 9⟩ = .ok (ch! "/raw/r0001", ch! "scratch/r0001_raw_detectors_virt.cxi") := by
  unfold cliPaths
  simp only [habs]
  decide

example : Spec.RunDirPath ch! "/gpfs/p1/raw/r0012" ch! "/gpfs/p1" ch! "raw" ch! "r0012" :=
  ⟨Or.inl rfl, ⟨'0', '0', '1', '2', rfl, by decide, by decide, by decide, by decide⟩, rfl⟩

/-- The older interface: run 12. -/
example : cliPaths ⟨id, fun _ => true, fun _ => true, fun _ => .ok (), fun _ _ => .ok (), fun _ _ => .ok ()⟩ ⟨ch! "/p1", some ch! "12", none, 9⟩ =
    .ok (ch! "/p1/proc/r0012", ch! "/p1/scratch/r0012_detectors_virt.cxi") := by decide

/-- The file's folder is what is checked. -/
example : cliMain ⟨id, fun _ => true, fun p => p == ch! "/p1/scratch", fun _ => .ok (), fun _ _ => .error .sourceName, fun _ _ => .ok ()⟩
    ⟨ch! "/p1/raw/r0012", none, none, 9⟩ = .write .lpd ch! "/p1/raw/r0012" ch! "/p1/scratch/r0012_raw_detectors_virt.cxi" := by decide

/-- C95: `dirname` is the folder of a file. -/
theorem dirname_file (dir name : Str) (h : '/' ∉ name) (hd : dir ≠ []) (hl : dir.getLast? ≠ some '/') : osDirname (dir ++ '/' :: name) = dir := by
  unfold osDirname
  rw [basename_of h (Or.inr ⟨dir, rfl⟩)]
  have e : (dir ++ '/' :: name).take ((dir ++ '/' :: name).length - name.length) = dir ++ ['/'] := by
    have : (dir ++ '/' :: name).length - name.length = (dir ++ ['/']).length := by simp; omega
    rw [this]
    have : dir ++ '/' :: name = (dir ++ ['/']) ++ name := by simp
    rw [this, List.take_left]
  simp only [e]
  obtain ⟨t, c, rfl⟩ : ∃ t c, dir = t ++ [c] := ⟨_, _, (List.dropLast_append_getLast hd).symm⟩
  have hc : c ≠ '/' := by
    rintro rfl
    simp at hl
  rw [if_neg (by simp [hc])]
  simp [hc]

/-- C95: `dirname` of a file in the root is the root. -/
theorem dirname_root (name : Str) (h : '/' ∉ name) : osDirname ('/' :: name) = ch! "/" := by
  unfold osDirname
  rw [show osBasename ('/' :: name) = name from basename_of h (Or.inr ⟨[], rfl⟩)]
  have : ('/' :: name).length - name.length = 1 := by simp
  simp only [this]
  simp

end KD
