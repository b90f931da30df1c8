/-
C83 Proposal and run numbers; C85 file names; C86 the text of slice objects.
-/
import Verif.Spec.Names
import Verif.Lemmas.Strings

set_option linter.unusedSimpArgs false

namespace KD

/-! ### C83 -/

theorem fmt0_nat (w n : Nat) : fmt0 w n = Spec.padded w n := by
  have h : ¬ ((n : Int) < 0) := by omega
  simp only [fmt0, if_neg h, rjust0, natStr, Spec.padded, Int.toNat_natCast]

theorem rjust0_padded (w n k : Nat) (h : k = 0 ∨ k + (Nat.toDigits 10 n).length ≤ w) :
    rjust0 w (List.replicate k '0' ++ Nat.toDigits 10 n) = Spec.padded w n := by
  unfold rjust0 Spec.padded
  rw [← List.append_assoc, List.replicate_append_replicate, List.length_append, List.length_replicate]
  congr 2
  omega

theorem padded_digits (w n : Nat) {c : Char} (h : c ∈ Spec.padded w n) : c.isDigit = true := by
  unfold Spec.padded at h
  rcases List.mem_append.1 h with h | h
  · rw [List.mem_replicate] at h
    rw [h.2]
    decide
  · exact natStr_digit h

/-- Different numbers have different names. -/
theorem padded_inj (w m n : Nat) (h : Spec.padded w m = Spec.padded w n) : m = n := by
  have := congrArg (fun l => Nat.ofDigitChars 10 l 0) h
  simpa [Spec.padded, Nat.ofDigitChars_append, Nat.ofDigitChars_replicate_zero, Nat.ofDigitChars_ten_toDigits] using this

theorem notMem_of_digits {s : Str} (h : ∀ c ∈ s, c.isDigit = true) {c : Char} (hc : c.isDigit = false) : c ∉ s := by
  intro hm
  rw [h c hm] at hc
  simp at hc

theorem digits_mem (n k : Nat) {c : Char} (h : c ∈ List.replicate k '0' ++ Nat.toDigits 10 n) : c.isDigit = true := by
  rcases List.mem_append.1 h with h | h
  · rw [List.mem_replicate] at h
    rw [h.2]
    decide
  · exact natStr_digit h

theorem digits_start (n k : Nat) (l : Char) (hl : l.isDigit = false) : startsWith (List.replicate k '0' ++ Nat.toDigits 10 n) [l] = false := by
  cases h : List.replicate k '0' ++ Nat.toDigits 10 n with
  | nil => rfl
  | cons c s =>
    have hc := digits_mem n k (c := c) (by rw [h]; exact List.mem_cons_self)
    simp only [startsWith, List.isPrefixOf, Bool.and_true, beq_eq_false_iff_ne, ne_eq]
    rintro rfl
    rw [hc] at hl
    simp at hl

/-- C83: every documented form of a number gives the same name of a proposal. -/
theorem proposal_name {n : Nat} {a : NumArg} (h : Spec.Form 'p' 6 n a) : proposalName a = 'p' :: Spec.padded 6 n := by
  cases h with
  | int => simp only [proposalName, fmt0_nat]
  | digits k hk =>
    have h1 : '/' ∉ List.replicate k '0' ++ Nat.toDigits 10 n := notMem_of_digits (fun c hc => digits_mem n k hc) (by decide)
    have h2 := digits_start n k 'p' (by decide)
    simp only [proposalName, h1, h2, not_false_eq_true, true_and, Bool.false_eq_true, if_true, rjust0_padded _ _ _ hk]
  | full =>
    have : startsWith ('p' :: Spec.padded 6 n) ch! "p" = true := by simp [startsWith]
    simp only [proposalName, this, not_true, and_false, if_false]

/-- C83: every documented form of a number gives the same name of a run. -/
theorem run_name {n : Nat} {a : NumArg} (h : Spec.Form 'r' 4 n a) : runName a = 'r' :: Spec.padded 4 n := by
  cases h with
  | int => simp only [runName, fmt0_nat]
  | digits k hk =>
    have h2 := digits_start n k 'r' (by decide)
    simp only [runName, h2, not_false_eq_true, Bool.false_eq_true, if_true, rjust0_padded _ _ _ hk]
  | full =>
    have : startsWith ('r' :: Spec.padded 4 n) ch! "r" = true := by simp [startsWith]
    simp only [runName, this, not_true, if_false]

theorem padded_read (w n : Nat) : Spec.readNat (Spec.padded w n) = some n := by
  have hne : Spec.padded w n ≠ [] := by
    unfold Spec.padded
    intro h
    exact Nat.toDigits_ne_nil (List.append_eq_nil_iff.1 h).2
  have hd : (Spec.padded w n).all Char.isDigit = true := List.all_eq_true.2 (fun c hc => padded_digits w n hc)
  rw [Spec.readNat, if_pos ⟨hne, hd⟩]
  simp [Spec.padded, Nat.ofDigitChars_append, Nat.ofDigitChars_replicate_zero, Nat.ofDigitChars_ten_toDigits]

theorem fmt0_read (w : Nat) (z : Int) :
    Spec.readInt (fmt0 w z) = some z ∧ (fmt0 w z).length = max w (intStr z).length := by
  by_cases h : z < 0
  · have e : fmt0 w z = '-' :: Spec.padded (w - 1) z.natAbs := by
      rw [fmt0, if_pos h]
      rfl
    refine ⟨?_, ?_⟩
    · rw [e, Spec.readInt, padded_read]
      simp only [Option.map_some, Option.some.injEq]
      omega
    · rw [e, intStr, if_pos h]
      simp only [Spec.padded, natStr, List.length_cons, List.length_append, List.length_replicate]
      omega
  · have e : fmt0 w z = Spec.padded w z.toNat := by
      rw [fmt0, if_neg h]
      rfl
    refine ⟨?_, ?_⟩
    · rw [e]
      have hr := padded_read w z.toNat
      have hd := fun c hc => padded_digits w z.toNat (c := c) hc
      cases hp : Spec.padded w z.toNat with
      | nil =>
        rw [hp] at hr
        simp [Spec.readNat] at hr
      | cons c s =>
        rw [hp] at hr hd
        have hc : c ≠ '-' := by
          rintro rfl
          exact absurd (hd '-' List.mem_cons_self) (by decide)
        rw [Spec.readInt]
        · rw [hr]
          simp only [Option.map_some, Option.some.injEq]
          omega
        · intro t ht
          exact hc (List.cons.inj ht).1
    · rw [e, intStr, if_neg h]
      simp only [Spec.padded, natStr, List.length_append, List.length_replicate]
      omega

/-- C83: the name made from any integer, also a negative one, is the letter and a text of at least 6 (for runs 4) characters which is read as
this integer, so different integers never have the same name. -/
theorem int_names (z : Int) :
    (∃ s, proposalName (.int z) = 'p' :: s ∧ Spec.readInt s = some z ∧ s.length = max 6 (intStr z).length) ∧
    (∃ s, runName (.int z) = 'r' :: s ∧ Spec.readInt s = some z ∧ s.length = max 4 (intStr z).length) :=
  ⟨⟨_, rfl, fmt0_read 6 z⟩, ⟨_, rfl, fmt0_read 4 z⟩⟩

example : runName (.int (-5)) = ch! "r-005" ∧ proposalName (.int (-12)) = ch! "p-00012" ∧ runName (.int 12345) = ch! "r12345" := by decide

theorem no_magic {s : Str} (h : ∀ c ∈ s, c.isDigit = true) : hasMagic ('p' :: s) = false := by
  have h1 : '*' ∉ s := notMem_of_digits h (by decide)
  have h2 : '?' ∉ s := notMem_of_digits h (by decide)
  have h3 : '[' ∉ s := notMem_of_digits h (by decide)
  simp [hasMagic, h1, h2, h3]

theorem star_matches (s : Str) : globMatch ch! "*" s = true := by
  have : globToks ch! "*" = [.star] := by decide
  simp only [globMatch, this, matchToks, List.any_eq_true]
  induction s with
  | nil => exact ⟨[], by simp [suffixes], rfl⟩
  | cons c s ih =>
    obtain ⟨x, hx, hx'⟩ := ih
    exact ⟨x, by simp [suffixes, hx], hx'⟩

theorem star_finds (name : Str) : globFinds ch! "*" name = true ↔ name.head? ≠ some '.' := by
  have hm : hasMagic ch! "*" = true := by decide
  have hd : startsWith ch! "*" ch! "." = false := by decide
  simp only [globFinds, hm, if_true, star_matches, Bool.true_and, hd, Bool.false_or]
  cases name with
  | nil => simp [startsWith]
  | cons c s =>
    simp only [startsWith, List.isPrefixOf, Bool.and_true, List.head?_cons, ne_eq, Option.some.injEq, Bool.not_eq_true', beq_eq_false_iff_ne]
    exact ⟨fun h e => h e.symm, fun h e => h e.symm⟩

/-- A directory of the proposal with the number n, not hidden. -/
def Spec.IsProposal (n : Nat) (d : Str × Str × Str) : Prop :=
  d.1.head? ≠ some '.' ∧ d.2.1.head? ≠ some '.' ∧ d.2.2 = 'p' :: Spec.padded 6 n

theorem firstProposal_finds (n : Nat) (d : Str × Str × Str) :
    (globFinds ch! "*" d.1 && globFinds ch! "*" d.2.1 && globFinds ('p' :: Spec.padded 6 n) d.2.2) = true ↔ Spec.IsProposal n d := by
  have hm := no_magic (fun c hc => padded_digits 6 n (c := c) hc)
  have h3 : globFinds ('p' :: Spec.padded 6 n) d.2.2 = true ↔ d.2.2 = 'p' :: Spec.padded 6 n := by
    simp only [globFinds, hm, Bool.false_eq_true, if_false, beq_iff_eq]
    exact eq_comm
  rw [Bool.and_eq_true, Bool.and_eq_true, star_finds, star_finds, h3, and_assoc]
  rfl

theorem slash_in (n : Nat) : '/' ∉ 'p' :: Spec.padded 6 n := by
  intro h
  rcases List.mem_cons.1 h with h | h
  · exact absurd h (by decide)
  · have := padded_digits 6 n h
    simp at this

/-- C83: the directory is the first one which the file system has for the proposal, with the folder of the data and the run in it. -/
theorem open_run_found {p r : Nat} {a b : NumArg} (ha : Spec.Form 'p' 6 p a) (hb : Spec.Form 'r' 4 r b) (data : Str)
    (hd : data ≠ []) (hd1 : data.head? ≠ some '/') (hd2 : data.getLast? ≠ some '/')
    (before after : List (Str × Str × Str)) (d : Str × Str × Str) (hbefore : ∀ x ∈ before, ¬ Spec.IsProposal p x) (h : Spec.IsProposal p d) :
    openRunPath (before ++ d :: after) a b data =
      .ok (ch! "/gpfs/exfel/exp/" ++ d.1 ++ '/' :: d.2.1 ++ '/' :: 'p' :: Spec.padded 6 p ++ '/' :: data ++ '/' :: 'r' :: Spec.padded 4 r) := by
  have hf : firstProposal (before ++ d :: after) ('p' :: Spec.padded 6 p) = some d := by
    unfold firstProposal
    rw [List.find?_append, List.find?_eq_none.2 (fun x hx => by rw [firstProposal_finds]; exact hbefore x hx), Option.none_or,
      List.find?_cons_of_pos (by rw [firstProposal_finds]; exact h)]
  have hdir : ∀ (s : Str) (c : Char), s.getLast? = some c → c ≠ '/' → endsWith s ch! "/" = false := by
    intro s c hs hc
    rw [List.getLast?_eq_some_iff] at hs
    obtain ⟨t, rfl⟩ := hs
    simp only [endsWith, List.isSuffixOf, List.reverse_append, List.reverse_cons, List.reverse_nil, List.nil_append, List.singleton_append,
      List.isPrefixOf, Bool.and_true, beq_eq_false_iff_ne, ne_eq]
    exact fun e => hc e.symm
  have hpath : ∃ c, (ch! "/gpfs/exfel/exp" ++ '/' :: d.1 ++ '/' :: d.2.1 ++ '/' :: 'p' :: Spec.padded 6 p).getLast? = some c ∧ c ≠ '/' := by
    have hne : Spec.padded 6 p ≠ [] := by
      unfold Spec.padded
      intro e
      have := Nat.toDigits_ne_nil (n := p) (b := 10)
      simp_all
    obtain ⟨t, c, htc⟩ : ∃ t c, Spec.padded 6 p = t ++ [c] := ⟨_, _, (List.dropLast_append_getLast hne).symm⟩
    refine ⟨c, ?_, ?_⟩
    · rw [htc, List.getLast?_eq_some_iff]
      exact ⟨ch! "/gpfs/exfel/exp" ++ '/' :: d.1 ++ '/' :: d.2.1 ++ '/' :: 'p' :: t, by simp⟩
    · rintro rfl
      have := padded_digits 6 p (c := '/') (by rw [htc]; simp)
      simp at this
  have hstart : ∀ s : Str, s.head? ≠ some '/' → startsWith s ch! "/" = false := by
    intro s hs
    cases s with
    | nil => rfl
    | cons c s =>
      simp only [startsWith, List.isPrefixOf, Bool.and_true, beq_eq_false_iff_ne, ne_eq]
      rintro rfl
      exact hs rfl
  unfold openRunPath
  rw [proposal_name ha, run_name hb]
  unfold findProposal
  rw [if_neg (slash_in p), hf]
  simp only [dataRoot]
  rw [h.2.2]
  obtain ⟨c, hc1, hc2⟩ := hpath
  have j1 : osJoin (ch! "/gpfs/exfel/exp" ++ '/' :: d.1 ++ '/' :: d.2.1 ++ '/' :: 'p' :: Spec.padded 6 p) data =
      ch! "/gpfs/exfel/exp" ++ '/' :: d.1 ++ '/' :: d.2.1 ++ '/' :: 'p' :: Spec.padded 6 p ++ '/' :: data := by
    unfold osJoin
    rw [hstart data hd1, hdir _ c hc1 hc2]
    simp
  rw [j1]
  have j2 : ∃ c, (ch! "/gpfs/exfel/exp" ++ '/' :: d.1 ++ '/' :: d.2.1 ++ '/' :: 'p' :: Spec.padded 6 p ++ '/' :: data).getLast? = some c ∧ c ≠ '/' := by
    obtain ⟨t, c, htc⟩ : ∃ t c, data = t ++ [c] := ⟨_, _, (List.dropLast_append_getLast hd).symm⟩
    refine ⟨c, ?_, ?_⟩
    · rw [htc, List.getLast?_eq_some_iff]
      exact ⟨ch! "/gpfs/exfel/exp" ++ '/' :: d.1 ++ '/' :: d.2.1 ++ '/' :: 'p' :: Spec.padded 6 p ++ '/' :: t, by simp⟩
    · rintro rfl
      rw [htc] at hd2
      simp at hd2
  obtain ⟨c2, hc3, hc4⟩ := j2
  unfold osJoin
  rw [hstart ('r' :: Spec.padded 4 r) (by simp), hdir _ c2 hc3 hc4]
  simp

/-- C83: no directory for the proposal: an exception. -/
theorem open_run_missing {p : Nat} {a : NumArg} (ha : Spec.Form 'p' 6 p a) (b : NumArg) (data : Str) (dirs : List (Str × Str × Str))
    (h : ∀ x ∈ dirs, ¬ Spec.IsProposal p x) : openRunPath dirs a b data = .error .generic := by
  have hf : firstProposal dirs ('p' :: Spec.padded 6 p) = none :=
    List.find?_eq_none.2 (fun x hx => by rw [firstProposal_finds]; exact h x hx)
  unfold openRunPath findProposal
  rw [proposal_name ha, if_neg (slash_in p), hf]

/-- C83: with the path of a proposal, the run is looked for there. -/
theorem open_run_path_partial (s : Str) (hs : '/' ∈ s) (hl : s.getLast? ≠ some '/') (b : NumArg) {r : Nat} (hb : Spec.Form 'r' 4 r b) (data : Str) (hd : data ≠ [])
    (hd1 : data.head? ≠ some '/') (hd2 : data.getLast? ≠ some '/') (dirs : List (Str × Str × Str)) :
    openRunPath dirs (.str s) b data = .ok (s ++ '/' :: data ++ '/' :: 'r' :: Spec.padded 4 r) := by
  have hp : proposalName (.str s) = s := by simp [proposalName, hs]
  unfold openRunPath findProposal
  rw [hp, if_pos hs, run_name hb]
  simp only
  have hstart : ∀ s : Str, s.head? ≠ some '/' → startsWith s ch! "/" = false := by
    intro s hs
    cases s with
    | nil => rfl
    | cons c s =>
      simp only [startsWith, List.isPrefixOf, Bool.and_true, beq_eq_false_iff_ne, ne_eq]
      rintro rfl
      exact hs rfl
  have hend : ∀ s : Str, s.getLast? ≠ some '/' → endsWith s ch! "/" = false := by
    intro s hs
    by_contra h
    rw [Bool.not_eq_false, endsWith, List.isSuffixOf_iff_suffix] at h
    obtain ⟨t, rfl⟩ := h
    exact hs (by simp)
  have hne : s ≠ [] := by rintro rfl; simp at hs
  have j1 : osJoin s data = s ++ '/' :: data := by
    unfold osJoin
    rw [hstart data hd1, hend s hl]
    simp [hne]
  rw [j1]
  unfold osJoin
  rw [hstart ('r' :: Spec.padded 4 r) (by simp), hend (s ++ '/' :: data) (by
    rw [List.getLast?_append, List.getLast?_cons]
    cases hdl : data.getLast? with
    | none => rw [List.getLast?_eq_none_iff] at hdl; exact absurd hdl hd
    | some c => rw [hdl] at hd2; simpa using hd2)]
  simp

/-- C83: digits with more zeros than in the full name: another directory is looked for. -/
theorem open_run_zeros_wrong : proposalName (.str ch! "0002012") ≠ proposalName (.int 2012) ∧ runName (.str ch! "00238") ≠ runName (.int 238) := by decide

example : Spec.Form 'p' 6 2012 (.str ch! "2012") ∧ Spec.Form 'p' 6 2012 (.str ch! "002012") ∧ Spec.Form 'p' 6 2012 (.str ch! "p002012") ∧
    Spec.Form 'p' 6 2012 (.int 2012) :=
  ⟨.digits 0 (Or.inl rfl), .digits 2 (Or.inr (by decide)), .full, .int⟩

example : Spec.IsProposal 2012 (ch! "SPB", ch! "201701", ch! "p002012") := ⟨by decide, by decide, by decide⟩

/-! ### C85 -/

theorem basename_of {path b : Str} (hb : '/' ∉ b) (h : path = b ∨ ∃ dir, path = dir ++ '/' :: b) : osBasename path = b := by
  unfold osBasename
  rcases h with rfl | ⟨dir, rfl⟩
  · rw [splitCh_notMem hb]
    rfl
  · rw [splitCh_append, splitCh_notMem hb]
    simp

/-- The base name is in the path, and has no slash. -/
theorem basename_spec (path : Str) : '/' ∉ osBasename path ∧ (path = osBasename path ∨ ∃ dir, path = dir ++ '/' :: osBasename path) := by
  by_cases h : '/' ∈ path
  · obtain ⟨a, b, rfl, hb⟩ : ∃ a b, path = a ++ '/' :: b ∧ '/' ∉ b := by
      induction path with
      | nil => simp at h
      | cons c s ih =>
        by_cases hs : '/' ∈ s
        · obtain ⟨a, b, rfl, hb⟩ := ih hs
          exact ⟨c :: a, b, rfl, hb⟩
        · rcases List.mem_cons.1 h with rfl | h
          · exact ⟨[], s, rfl, hs⟩
          · exact absurd h hs
    rw [basename_of hb (Or.inr ⟨a, rfl⟩)]
    exact ⟨hb, Or.inr ⟨a, rfl⟩⟩
  · rw [basename_of h (Or.inl rfl)]
    exact ⟨h, Or.inl rfl⟩

theorem split_name {rawcorr run src seg : Str} (h1 : '-' ∉ rawcorr) (h2 : '-' ∉ run) (h3 : '-' ∉ src) (h4 : '-' ∉ seg) :
    splitCh '-' (rawcorr ++ '-' :: run ++ '-' :: src ++ '-' :: seg) = [rawcorr, run, src, seg] := by
  have e : rawcorr ++ '-' :: run ++ '-' :: src ++ '-' :: seg = rawcorr ++ '-' :: (run ++ '-' :: (src ++ '-' :: seg)) := by simp
  rw [e, splitCh_append, splitCh_append, splitCh_append, splitCh_notMem h1, splitCh_notMem h2, splitCh_notMem h3, splitCh_notMem h4]
  rfl

theorem joinCh_splitCh (sep : Char) (s : Str) : joinCh sep (splitCh sep s) = s := by
  induction s with
  | nil => rfl
  | cons c s ih =>
    simp only [splitCh]
    split
    · next h =>
      cases hs : splitCh sep s with
      | nil => exact absurd hs (splitCh_ne_nil _ _)
      | cons a l => rw [joinCh, ← hs, ih, h]; rfl
    · split
      · next hs => exact absurd hs (splitCh_ne_nil _ _)
      · next a l hs =>
        rw [hs] at ih
        cases l with
        | nil => rw [joinCh] at ih ⊢; rw [ih]
        | cons b l => rw [joinCh] at ih ⊢; rw [List.cons_append, ih]

theorem splitCh_parts (sep : Char) (s : Str) : ∀ p ∈ splitCh sep s, sep ∉ p := by
  induction s with
  | nil => simp [splitCh]
  | cons c s ih =>
    simp only [splitCh]
    split
    · intro p hp
      rcases List.mem_cons.1 hp with rfl | hp
      · simp
      · exact ih p hp
    · next hc =>
      split
      · intro p hp
        obtain rfl := List.mem_singleton.1 hp
        simpa using Ne.symm hc
      · next a l hs =>
        rw [hs] at ih
        intro p hp
        rcases List.mem_cons.1 hp with rfl | hp
        · simp only [List.mem_cons, not_or]
          exact ⟨Ne.symm hc, ih a List.mem_cons_self⟩
        · exact ih p (List.mem_cons_of_mem _ hp)

theorem takeWhile_append_stop {p : Char → Bool} {a b : Str} (ha : ∀ c ∈ a, p c = true) (hb : ∀ c ∈ b.head?, p c = false) :
    (a ++ b).takeWhile p = a ∧ (a ++ b).dropWhile p = b := by
  induction a with
  | nil =>
    cases b with
    | nil => exact ⟨rfl, rfl⟩
    | cons c b =>
      have := hb c rfl
      simp [List.takeWhile, List.dropWhile, this]
  | cons c a ih =>
    have h1 := ha c List.mem_cons_self
    obtain ⟨i1, i2⟩ := ih (fun c hc => ha c (List.mem_cons_of_mem _ hc))
    simp only [List.cons_append, List.takeWhile_cons, List.dropWhile_cons, h1, if_true, i1, i2]
    exact ⟨trivial, trivial⟩

theorem takeWhile_mem {p : Char → Bool} {s : Str} {c : Char} (h : c ∈ s.takeWhile p) : p c = true := by
  have := List.all_takeWhile (p := p) (l := s)
  rw [List.all_eq_true] at this
  exact this c h

theorem upper_not_digit {c : Char} (h : c.isDigit = true) : isUpperAZ c = false := by
  by_contra hu
  simp only [isUpperAZ, Bool.not_eq_false, Bool.and_eq_true, decide_eq_true_eq] at hu
  simp only [Char.isDigit, Bool.and_eq_true, decide_eq_true_eq] at h
  have h1 : 'A'.val ≤ c.val := hu.1
  have h2 : c.val ≤ '9'.val := h.2
  have := UInt32.le_trans h1 h2
  exact absurd this (by decide)

theorem match_iff (src det n : Str) : matchLettersDigits src = some (det, n) ↔ Spec.IsSrc src det n := by
  unfold matchLettersDigits Spec.IsSrc
  simp only
  constructor
  · intro h
    split at h
    · simp at h
    · next hne =>
      rw [not_or] at hne
      rw [Option.some.injEq, Prod.mk.injEq] at h
      obtain ⟨rfl, rfl⟩ := h
      refine ⟨hne.1, hne.2, ?_, ?_, (src.dropWhile isUpperAZ).dropWhile Char.isDigit, ?_, ?_⟩
      · intro c hc
        have := takeWhile_mem hc
        simpa [isUpperAZ] using this
      · intro c hc
        exact takeWhile_mem hc
      · rw [List.append_assoc, List.takeWhile_append_dropWhile, List.takeWhile_append_dropWhile]
      · intro c hc hd
        have := List.head?_dropWhile_not Char.isDigit (src.dropWhile isUpperAZ)
        rw [hc] at this
        simp [hd] at this
  · rintro ⟨h1, h2, h3, h4, rest, rfl, h5⟩
    have hu : ∀ c ∈ det, isUpperAZ c = true := by
      intro c hc
      simpa [isUpperAZ] using h3 c hc
    obtain ⟨t1, t2⟩ := takeWhile_append_stop (p := isUpperAZ) (a := det) (b := n ++ rest) hu (by
      intro c hc
      cases n with
      | nil => exact absurd rfl h2
      | cons a n =>
        simp only [List.cons_append, List.head?_cons, Option.mem_some_iff] at hc
        subst hc
        exact upper_not_digit (h4 a List.mem_cons_self))
    obtain ⟨t3, -⟩ := takeWhile_append_stop (p := Char.isDigit) (a := n) (b := rest) h4 (by
      intro c hc
      simpa using h5 c hc)
    rw [List.append_assoc, t1, t2, t3, if_neg (by simp [h1, h2])]

/-- C85: a file of detector data: the detector and the module are those in the name. -/
theorem filename_detector {path rawcorr run src seg det n : Str} (h : Spec.HasName path rawcorr run src seg) (hs : Spec.IsSrc src det n)
    (hd : det = ch! "AGIPD" ∨ det = ch! "DSSC" ∨ det = ch! "LPD") :
    ∃ info, filenameInfo path = .ok info ∧ info.isDetector = true ∧ info.detectorName = some det ∧ info.detectorModuleno = some n ∧
      info.description = .text ((if rawcorr = ch! "RAW" then ch! "Raw" else if rawcorr = ch! "CORR" then ch! "Corrected" else ch! "?") ++
        ch! " detector data from " ++ det ++ ch! " module " ++ n) ∧
      info.basename = osBasename path := by
  obtain ⟨h1, h2, h3, h4, ext, b, hx, rfl, hb, hp⟩ := h
  have hne : det ≠ ch! "DA" := by rcases hd with rfl | rfl | rfl <;> decide
  have hin : det ∈ detectorNames := by rcases hd with rfl | rfl | rfl <;> decide
  refine ⟨⟨_, true, some det, some n, _⟩, ?_, rfl, rfl, rfl, rfl, (basename_of hb hp).symm⟩
  unfold filenameInfo
  simp only [basename_of hb hp, List.length_append, hx, Nat.add_sub_cancel]
  rw [List.take_append_of_le_length (by simp; omega), List.take_of_length_le (by simp; omega), split_name h1 h2 h3 h4]
  simp only [(match_iff src det n).2 hs, if_neg hne, if_pos hin, rawcorrDescr]

/-- C85: aggregated data and unknown sources are not detector data. -/
theorem filename_other {path rawcorr run src seg : Str} (h : Spec.HasName path rawcorr run src seg)
    (hd : ∀ det n, Spec.IsSrc src det n → det ≠ ch! "AGIPD" ∧ det ≠ ch! "DSSC" ∧ det ≠ ch! "LPD") :
    ∃ info, filenameInfo path = .ok info ∧ info.isDetector = false ∧ info.detectorName = none ∧ info.detectorModuleno = none ∧
      info.basename = osBasename path ∧
      ((∃ n, Spec.IsSrc src ch! "DA" n) → info.description = .text ch! "Aggregated data") ∧
      ((¬ ∃ n, Spec.IsSrc src ch! "DA" n) → info.description = .pair ch! "Unknown data source ({})" src) := by
  obtain ⟨h1, h2, h3, h4, ext, b, hx, rfl, hb, hp⟩ := h
  unfold filenameInfo
  simp only [basename_of hb hp, List.length_append, hx, Nat.add_sub_cancel]
  rw [List.take_append_of_le_length (by simp; omega), List.take_of_length_le (by simp; omega), split_name h1 h2 h3 h4]
  simp only
  cases hm : matchLettersDigits src with
  | none =>
    refine ⟨_, rfl, rfl, rfl, rfl, rfl, ?_, fun _ => rfl⟩
    rintro ⟨n, hn⟩
    rw [(match_iff _ _ _).2 hn] at hm
    simp at hm
  | some dn =>
    obtain ⟨det, n⟩ := dn
    have hs := (match_iff _ _ _).1 hm
    obtain ⟨d1, d2, d3⟩ := hd det n hs
    have hnot : det ∉ detectorNames := by simp [detectorNames, d1, d2, d3]
    simp only [if_neg hnot]
    by_cases hda : det = ch! "DA"
    · subst hda
      rw [if_pos rfl]
      exact ⟨_, rfl, rfl, rfl, rfl, rfl, fun _ => rfl, fun hno => absurd ⟨n, hs⟩ hno⟩
    · rw [if_neg hda]
      refine ⟨_, rfl, rfl, rfl, rfl, rfl, ?_, fun _ => rfl⟩
      rintro ⟨n', hn'⟩
      rw [(match_iff _ _ _).2 hn', Option.some.injEq, Prod.mk.injEq] at hm
      exact absurd hm.1.symm hda

/-- C85: any other name: AssertionError. -/
theorem filename_fails (path : Str) : filenameInfo path = .error .assertion ↔ ¬ ∃ rawcorr run src seg, Spec.HasName path rawcorr run src seg := by
  constructor
  · rintro h ⟨rawcorr, run, src, seg, hn⟩
    by_cases hd : ∃ det n, Spec.IsSrc src det n ∧ (det = ch! "AGIPD" ∨ det = ch! "DSSC" ∨ det = ch! "LPD")
    · obtain ⟨det, n, hs, hd⟩ := hd
      obtain ⟨info, hi, -⟩ := filename_detector hn hs hd
      rw [hi] at h
      simp at h
    · obtain ⟨info, hi, -⟩ := filename_other hn (by
        intro det n hs
        refine ⟨?_, ?_, ?_⟩ <;> rintro rfl <;> exact hd ⟨_, n, hs, by simp⟩)
      rw [hi] at h
      simp at h
  · intro h
    unfold filenameInfo
    simp only
    split
    · next rawcorr run src seg hsp =>
      exfalso
      obtain ⟨b1, b2⟩ := basename_spec path
      have hj := joinCh_splitCh '-' ((osBasename path).take ((osBasename path).length - 3))
      have hparts := splitCh_parts '-' ((osBasename path).take ((osBasename path).length - 3))
      rw [hsp] at hj hparts
      have hlen : 3 ≤ (osBasename path).length := by
        by_contra hlt
        have : (osBasename path).length - 3 = 0 := by omega
        rw [this, List.take_zero] at hj
        simp [joinCh] at hj
      refine h ⟨rawcorr, run, src, seg, hparts _ (by simp), hparts _ (by simp), hparts _ (by simp), hparts _ (by simp),
        (osBasename path).drop ((osBasename path).length - 3), osBasename path, ?_, ?_, b1, b2⟩
      · rw [List.length_drop]
        omega
      · conv_lhs => rw [← List.take_append_drop ((osBasename path).length - 3) (osBasename path)]
        rw [← hj]
        simp [joinCh]
    · rfl

/-- C85: the description of a file with an unknown source is not a text. -/
theorem filename_unknown_wrong : ∃ info, filenameInfo ch! "RAW-R0001-XYZ-S00000.h5" = .ok info ∧ ∀ s, info.description ≠ .text s :=
  ⟨⟨ch! "RAW-R0001-XYZ-S00000.h5", false, none, none, .pair ch! "Unknown data source ({})" ch! "XYZ"⟩, by decide, by simp⟩

example : Spec.HasName ch! "raw/CORR-R0034-AGIPD08-S00000.h5" ch! "CORR" ch! "R0034" ch! "AGIPD08" ch! "S00000" ∧
    Spec.IsSrc ch! "AGIPD08" ch! "AGIPD" ch! "08" :=
  ⟨⟨by decide, by decide, by decide, by decide, ch! ".h5", ch! "CORR-R0034-AGIPD08-S00000.h5", rfl, rfl, by decide, Or.inr ⟨ch! "raw", rfl⟩⟩,
    by decide, by decide, by decide, by decide, [], rfl, by simp⟩

end KD
