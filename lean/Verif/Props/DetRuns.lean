/-
C55, C56, C60. Detector arrays of files whose index is right within each run of consecutive trains only.
-/
import Verif.Spec.Runs
import Verif.Props.DetArray
import Verif.Props.DetSuccess
import Verif.Props.DetIterate

namespace KD
open Spec

variable {V : Type}

/-- The runs of increasing numbers cannot be continued at the front or at the end. -/
theorem chunk_maximal {T chunk : List Nat} (hT : T.Pairwise (· < ·)) (hc : chunk ∈ trainChunks T) :
    (∀ c, chunk[0]? = some c → ∀ s, s + 1 = c → s ∉ T) ∧ ∀ c, chunk.getLast? = some c → c + 1 ∉ T := by
  by_cases hne : T = []
  · subst hne; simp
  have hr := trainChunks_runs hne
  have hflat := hr.all
  have hsep := hT
  rw [← hflat, List.pairwise_flatten] at hsep
  obtain ⟨h1, h2⟩ := hsep
  rw [List.pairwise_iff_getElem] at h2
  obtain ⟨i, hi, rfl⟩ := List.getElem_of_mem hc
  have find : ∀ s ∈ T, ∃ i' : Nat, ∃ hi' : i' < (trainChunks T).length, s ∈ (trainChunks T)[i'] := by
    intro s hs
    rw [← hflat, List.mem_flatten] at hs
    obtain ⟨r, hr, hs⟩ := hs
    obtain ⟨i', hi', rfl⟩ := List.getElem_of_mem hr
    exact ⟨i', hi', hs⟩
  constructor
  · rintro c h0 s hs hsT
    have hcm := List.mem_of_getElem? h0
    obtain ⟨i', hi', hs'⟩ := find s hsT
    rcases Nat.lt_trichotomy i' i with hlt | rfl | hgt
    · -- the last of the run before
      have hi1 : i - 1 < (trainChunks T).length := by omega
      have hne1 := hr.nonempty _ (List.getElem_mem hi1)
      have hl := List.getLast?_eq_some_getLast hne1
      have hmem := List.getLast_mem hne1
      have b1 := h2 (i - 1) i hi1 hi (by omega) _ hmem c hcm
      have b2 : s ≤ (trainChunks T)[i - 1].getLast hne1 := by
        by_cases he : i' = i - 1
        · subst he
          obtain ⟨q, hq⟩ := List.getElem?_of_mem hs'
          have hql := (List.getElem?_eq_some_iff.1 hq).1
          have := increasing_step (h1 _ (List.getElem_mem hi1)) (i := q) (d := (trainChunks T)[i - 1].length - 1 - q) hq
            (by rw [show q + ((trainChunks T)[i - 1].length - 1 - q) = (trainChunks T)[i - 1].length - 1 by omega,
                  ← List.getLast?_eq_getElem?]; exact hl)
          omega
        · exact Nat.le_of_lt (h2 i' (i - 1) hi' hi1 (by omega) s hs' _ hmem)
      refine hr.maximal (i - 1) _ _ _ c (List.getElem?_eq_getElem hi1)
        (by rw [show i - 1 + 1 = i by omega]; exact List.getElem?_eq_getElem hi) hl (by rw [List.head?_eq_getElem?]; exact h0) ?_
      omega
    · obtain ⟨q, hq⟩ := List.getElem?_of_mem hs'
      have := increasing_step (h1 _ hc) (i := 0) (d := q) h0 (by rw [Nat.zero_add]; exact hq)
      omega
    · have := h2 i i' hi hi' hgt c hcm s hs'
      omega
  · rintro c hl hsT
    have hcm := List.mem_of_getLast? hl
    obtain ⟨i', hi', hs'⟩ := find (c + 1) hsT
    rcases Nat.lt_trichotomy i' i with hlt | rfl | hgt
    · have := h2 i' i hi' hi hlt _ hs' c hcm
      omega
    · obtain ⟨q, hq⟩ := List.getElem?_of_mem hs'
      have hql := (List.getElem?_eq_some_iff.1 hq).1
      have := increasing_step (h1 _ hc) (i := q) (d := (trainChunks T)[i'].length - 1 - q) hq
        (by rw [show q + ((trainChunks T)[i'].length - 1 - q) = (trainChunks T)[i'].length - 1 by omega,
              ← List.getLast?_eq_getElem?]; exact hl)
      omega
    · have hi1 : i + 1 < (trainChunks T).length := by omega
      have hne1 := hr.nonempty _ (List.getElem_mem hi1)
      obtain ⟨b, hb⟩ : ∃ b, (trainChunks T)[i + 1][0]? = some b :=
        ⟨_, List.getElem?_eq_getElem (List.length_pos_iff.2 hne1)⟩
      have hmem := List.mem_of_getElem? hb
      have b1 := h2 i (i + 1) hi hi1 (by omega) c hcm b hmem
      have b2 : b ≤ c + 1 := by
        by_cases he : i' = i + 1
        · subst he
          obtain ⟨q, hq⟩ := List.getElem?_of_mem hs'
          have := increasing_step (h1 _ (List.getElem_mem hi1)) (i := 0) (d := q) hb (by rw [Nat.zero_add]; exact hq)
          omega
        · exact Nat.le_of_lt (h2 (i + 1) i' hi1 hi' (by omega) b hmem _ hs')
      refine hr.maximal i _ _ c b (List.getElem?_eq_getElem hi) (List.getElem?_eq_getElem hi1) hl
        (by rw [List.head?_eq_getElem?]; exact hb) ?_
      omega

theorem chunkField_of_run {f : FileAccess V} {T : List Nat} {source key : Str} (h : RunField f T source key)
    (hT : T.Pairwise (· < ·)) {chunk : List Nat} (hc : chunk ∈ trainChunks T) : ChunkField f chunk source key := by
  obtain ⟨firsts, counts, ds, h1, h2, h3, h4, h5⟩ := h.data
  refine ⟨h.trains, h.someTrain, firsts, counts, ds, h1, h2, h3, h4, ?_⟩
  intro i j x y hij hi hj hyx hx hy hb he
  have at_ : ∀ k, i ≤ k → k ≤ j → f.trainIds[k]? = some (x + (k - i)) := by
    intro k e1 e2
    have := increasing_consecutive h.trains hi (n := j - i) (d := k - i)
      (by rw [show i + (j - i) = j by omega]; exact hj) hyx (by omega)
    rw [show i + (k - i) = k by omega] at this
    exact this
  have hmax := chunk_maximal hT hc
  have hin : ∀ t ∈ chunk, t ∈ T := by
    intro t ht
    rw [← trainChunks_flatten T]
    exact List.mem_flatten.2 ⟨chunk, hc, ht⟩
  have hne : chunk ≠ [] := by rintro rfl; simp at hx
  obtain ⟨c0, hc0⟩ : ∃ c0, chunk[0]? = some c0 := ⟨_, List.getElem?_eq_getElem (List.length_pos_iff.2 hne)⟩
  have hcl := List.getLast?_eq_some_getLast hne
  have hmem := run_mem (chunks_run hc) hc0 hcl
  have run : RunIn f T i j := by
    refine ⟨hij, ?_, ?_, ?_, ?_⟩
    · intro k e1 e2
      refine ⟨_, at_ k e1 e2, hin _ ((hmem _).2 ?_)⟩
      have := (hmem x).1 hx
      have := (hmem y).1 hy
      omega
    · intro k t u e1 e2 e3 e4
      rw [at_ k e1 (by omega)] at e3
      rw [at_ (k + 1) (by omega) (by omega)] at e4
      have := Option.some.inj e3
      have := Option.some.inj e4
      omega
    · rcases hb with hb | hb
      · exact Or.inl hb
      · exact Or.inr ⟨x, hi, hmax.1 x hb⟩
    · rcases he with he | he
      · exact Or.inl he
      · exact Or.inr ⟨y, hj, hmax.2 y he⟩
  exact fun a ha => h5 i j a run ha

theorem modulesRight_of_runs {kind : Option Str} {c : DC V} {name : Option Str} {modules : Option (List Nat)} {minModules : Int}
    {d : Det V} {num : V → Nat} {key : Str} (hd : Det.init kind c name modules minModules = .ok d)
    (hp : PlainSources d) (hv : ∀ x ∈ d.sourceToModno, RunsValid c d.data.trainIds x.1 key) : ModulesRight num d key := by
  intro x hx ps b hb
  obtain ⟨hn, hsort, -, -, h1, -⟩ := init_data hd hp
  refine moduleData_chunks hb hn ?_ (hsort.imp (fun h => by omega))
  intro f hf hh
  obtain ⟨r1, r2⟩ := hv x hx f (h1 f hf) hh
  exact ⟨r1.trains, fun ch hch => ⟨chunkField_of_run r1 hsort hch, chunkField_of_run r2 hsort hch⟩⟩

/-- C55, C56, C60. What is in an array of detector data, also for files whose index is not contiguous. It is enough that the index
is right within each run of consecutive trains which are kept. Missing: other indexes, see `get_array_index_wrong` and
`get_array_empty_last_wrong`. -/
theorem get_array_runs_partial {kind : Option Str} {c : DC V} {name : Option Str} {modules : Option (List Nat)} {minModules : Int}
    {d : Det V} {libs : Libs} {num : V → Nat} {key : Str} {arg : PulseArg} {a : DetArr V}
    (hd : Det.init kind c name modules minModules = .ok d) (h : d.getArray libs num key arg = .ok (.pulses a))
    (hp : PlainSources d) (hv : ∀ x ∈ d.sourceToModno, RunsValid c d.data.trainIds x.1 key)
    (hmax : ∀ x ∈ d.sourceToModno, PulsesBelowMax num c x.1 key) :
    (∀ m, m ∈ a.modules ↔ ∃ source, (source, m) ∈ d.sourceToModno) ∧
    (∀ t, t ∈ a.trains ↔ ∃ m p v, a.cell m t p = some v) ∧
    (∀ p, p ∈ a.pulses ↔ ∃ m t v, a.cell m t p = some v) ∧
    a.modules.Pairwise (· < ·) ∧ a.trains.Pairwise (· < ·) ∧ a.pulses.Pairwise (· < ·) ∧
    ∀ source m, (source, m) ∈ d.sourceToModno → ∀ t p v,
      (a.cell m t p = some v ↔ t ∈ d.data.trainIds ∧ ∃ k, FrameOf num c source key t k p v ∧ Asked arg k p) := by
  have hr := modulesRight_of_runs (num := num) hd hp hv
  obtain ⟨h1, h2, h3, h4, h5, h6⟩ := get_array_labels_of hd h hr
  exact ⟨h1, h2, h3, h4, h5, h6, fun source m hm t p v => get_array_exact_of hd h hp hr hmax hm t p v⟩

/-- C55, C56, C60. For such files an array is made in the same cases as for files with a contiguous index. -/
theorem get_array_runs_succeeds {kind : Option Str} {c : DC V} {name : Option Str} {modules : Option (List Nat)} {minModules : Int}
    {d : Det V} {libs : Libs} {num : V → Nat} {key : Str} {arg : PulseArg} {ps : Pulses} {shape : List Nat}
    (hd : Det.init kind c name modules minModules = .ok d) (hk : ∃ rest, key = ch! "image." ++ rest)
    (hps : checkPulses libs arg = .ok ps) (hl : ∀ l, arg = .by_ false (.list l) → l.Pairwise (· < ·) ∧ ∀ i ∈ l, 0 ≤ i)
    (hp : PlainSources d) (hv : ∀ x ∈ d.sourceToModno, RunsValid c d.data.trainIds x.1 key)
    (hcov : ∀ x ∈ d.sourceToModno, ∀ f ∈ c.files, Holds f x.1 → HasBetween f d.data.trainIds)
    (hsome : ∀ x ∈ d.sourceToModno, ∃ f ∈ c.files, Holds f x.1 ∧ ∃ t ∈ d.data.trainIds, t ∈ f.trainIds)
    (huniq : ∀ x ∈ d.sourceToModno, PulsesDistinct num c x.1 key)
    (hshape : ∀ x ∈ d.sourceToModno, ∀ f ∈ c.files, Holds f x.1 → ∀ ds, f.dataset (ch! "INSTRUMENT") x.1 key = .ok ds →
      ds.rowShape = shape)
    (hdim : (entryShape shape).length = 3 ∨ (entryShape shape).length = 2 ∨ (entryShape shape).length = 0) :
    ∃ a, d.getArray libs num key arg = .ok (.pulses a) ∧ a.rowShape = entryShape shape := by
  obtain ⟨-, hsort, -, -, h1, -⟩ := init_data hd hp
  exact get_array_succeeds_of hd hk hps hl hp (fun x hx f hf hh chunk hch =>
    ⟨chunkField_of_run (hv x hx f (h1 f hf) hh).1 hsort hch, chunkField_of_run (hv x hx f (h1 f hf) hh).2 hsort hch⟩)
    hcov hsome huniq hshape hdim

theorem runField_of_valid {f : FileAccess V} {T : List Nat} {source key : Str} (hf : ValidField f true source key) :
    RunField f T source key := by
  obtain ⟨firsts, counts, ds, h1, h2, h3, h4, h5⟩ := runRange_of_valid hf
  refine ⟨hf.trains, hf.someTrain, firsts, counts, ds, h1, h2, h3, h4, ?_⟩
  intro i j a hr ha
  obtain ⟨t, ht, -⟩ := hr.selected j hr.order (le_refl _)
  exact h5 i j hr.order (List.getElem?_eq_some_iff.1 ht).1 a ha

/-- A contiguous index is right within each run, whichever trains are selected. -/
theorem runsValid_of_valid {c : DC V} {T : List Nat} {source key : Str} (h : FramesValid c source key) :
    RunsValid c T source key := by
  exact fun f hf hh => ⟨runField_of_valid (h.1 f hf hh), runField_of_valid (h.2 f hf hh)⟩

/-- C57. Iterating agrees with the array of `get_array` also for files whose index is right within each run of consecutive trains
only. Missing: other indexes, see `get_array_index_wrong` and `get_array_empty_last_wrong`. -/
theorem iterate_agrees_runs_partial {kind : Option Str} {c : DC V} {name : Option Str} {modules : Option (List Nat)} {minModules : Int}
    {d : Det V} {libs libs' : Libs} {num : V → Nat} {key : Str} {arg : PulseArg} {items : List (Nat × Dict Str (IterVal V))}
    {whole : DetArr V}
    (hd : Det.init kind c name modules minModules = .ok d) (h : d.trains libs num arg = .ok items)
    (hw : d.getArray libs' num key arg = .ok (.pulses whole))
    (hp : PlainSources d) (hi : ∀ x ∈ d.sourceToModno, FramesIndexed c x.1 key)
    (hv : ∀ x ∈ d.sourceToModno, RunsValid c d.data.trainIds x.1 key)
    (hmax : ∀ x ∈ d.sourceToModno, PulsesBelowMax num c x.1 key)
    (hinc : ∀ start stop, IdRange arg start stop → ∀ x ∈ d.sourceToModno, PulsesIncrease num c x.1 key)
    {t : Nat} {x : Dict Str (IterVal V)} {a : DetArr V} (ht : (t, x) ∈ items) (hg : x.get? key = some (.pulses a))
    {source : Str} {m : Nat} (hm : (source, m) ∈ d.sourceToModno) {ks : List Str}
    (hks : d.data.keysForSource source = .ok ks) (hk : key ∈ ks) (p : Nat) :
    a.cell m t p = whole.cell m t p := by
  obtain ⟨hn, -, -, -, -, -⟩ := init_data hd hp
  obtain ⟨ps, hps, hsub, hass, hin⟩ := detTrains_ok hn h
  have htd : t ∈ d.data.trainIds := ((hin t).1 (List.mem_map.2 ⟨_, ht, rfl⟩)).1
  apply Option.ext
  intro v
  rw [iterate_exact_partial hd h hp hi hmax hinc ht hg hm hks hk, get_array_exact_of hd hw hp (modulesRight_of_runs hd hp hv) hmax hm]
  simp [htd]

/-! ### Examples -/

/-- Module 3 is read in two runs of trains with a gap of two rows between them, and has no frames in the middle of the first. -/
def exRuns : DC Nat where
  files := [exModule '3' [10, 11, 12, 14] [1, 0, 3, 7] [2, 0, 2, 2] [9, 5, 7, 5, 7, 9, 9, 5, 7] [0, 100, 101, 120, 121, 0, 0, 140, 141],
    exModule '0' [10, 11, 12, 14] [0, 2, 4, 6] [2, 2, 2, 2] [5, 7, 5, 7, 5, 7, 5, 7] [200, 201, 210, 211, 220, 221, 240, 241]]
  selection := [(exSource '3', none), (exSource '0', none)]
  trainIds := [10, 11, 12, 14]
  ctxCloses := true

/-- The detector object for it. -/
def exRunsDet : Det Nat where
  name := ch! "X_AGIPD1M-1"
  sourceToModno := [(exSource '3', 3), (exSource '0', 0)]
  framesPerTrain := 2
  data := { exRuns with ctxCloses := false }

set_option maxRecDepth 20000 in
theorem exRuns_init : Det.init (some (ch! "_AGIPD1M")) exRuns none none 1 = .ok exRunsDet := by decide

set_option maxRecDepth 20000 in
/-- The frames have the right labels. -/
example : exRunsDet.getArray ⟨true, true⟩ id (ch! "image.data") (.by_ false (.slice .none (.int 1) .none)) = .ok (.pulses
      ⟨[0, 3], [10, 11, 12, 14], [5], [2, 2],
      [(0, [((10, 5), 200), ((11, 5), 210), ((12, 5), 220), ((14, 5), 240)]),
        (3, [((10, 5), 100), ((12, 5), 120), ((14, 5), 140)])]⟩) := by decide

theorem exRuns_run {f : FileAccess Nat} (hf : f.trainIds = [10, 11, 12, 14]) {i j : Nat} (h : RunIn f [10, 11, 12, 14] i j) :
    (i = 0 ∧ j = 2) ∨ (i = 3 ∧ j = 3) := by
  obtain ⟨h1, h2, h3, h4, h5⟩ := h
  rw [hf] at h2 h3 h4 h5
  obtain ⟨t, ht, -⟩ := h2 j h1 (le_refl _)
  have hj : j < 4 := (List.getElem?_eq_some_iff.1 ht).1
  have hi : i < 4 := by omega
  have bad1 : i ≠ 1 := by
    rintro rfl
    rcases h4 with h4 | ⟨t, ht, h4⟩
    · simp at h4
    · simp at ht; exact h4 10 (by omega) (by simp)
  have bad2 : i ≠ 2 := by
    rintro rfl
    rcases h4 with h4 | ⟨t, ht, h4⟩
    · simp at h4
    · simp at ht; exact h4 11 (by omega) (by simp)
  have bad3 : j ≠ 0 := by
    rintro rfl
    rcases h5 with h5 | ⟨t, ht, h5⟩
    · simp at h5
    · simp at ht; subst ht; simp at h5
  have bad4 : j ≠ 1 := by
    rintro rfl
    rcases h5 with h5 | ⟨t, ht, h5⟩
    · simp at h5
    · simp at ht; subst ht; simp at h5
  have bad5 : ¬ (i = 0 ∧ j = 3) := by
    rintro ⟨rfl, rfl⟩
    have := h3 2 12 14 (by omega) (by omega) rfl rfl
    omega
  omega

/-- The example meets the hypotheses of `get_array_runs_partial`, although the index of module 3 is not contiguous. -/
theorem exRuns_valid : PlainSources exRunsDet ∧
    (∀ x ∈ exRunsDet.sourceToModno, RunsValid exRuns exRunsDet.data.trainIds x.1 (ch! "image.data")) ∧
    (∀ x ∈ exRunsDet.sourceToModno, PulsesBelowMax id exRuns x.1 (ch! "image.data")) ∧
    (∀ x ∈ exRunsDet.sourceToModno, FramesIndexed exRuns x.1 (ch! "image.data")) ∧
    ¬ FramesValid exRuns (exSource '3') (ch! "image.data") := by
  have hp : pulseIdKey (ch! "image.data") = ch! "image.pulseId" := by decide
  have hg : (partition '.' (ch! "image.data")).1 = ch! "image" := by decide
  have hT : exRunsDet.data.trainIds = [10, 11, 12, 14] := rfl
  have ix3 := exModule_index (n := '3') (tids := [10, 11, 12, 14]) (firsts := [1, 0, 3, 7]) (counts := [2, 0, 2, 2])
    (ids := [9, 5, 7, 5, 7, 9, 9, 5, 7]) (rows := [0, 100, 101, 120, 121, 0, 0, 140, 141]) (Or.inr rfl) rfl rfl (by decide) (by decide)
  have dat3 := exModule_data (n := '3') (tids := [10, 11, 12, 14]) (firsts := [1, 0, 3, 7]) (counts := [2, 0, 2, 2])
    (ids := [9, 5, 7, 5, 7, 9, 9, 5, 7]) (rows := [0, 100, 101, 120, 121, 0, 0, 140, 141]) (Or.inr rfl)
  have range3 : ∀ i j a, RunIn (exModule '3' [10, 11, 12, 14] [1, 0, 3, 7] [2, 0, 2, 2] [9, 5, 7, 5, 7, 9, 9, 5, 7]
      [0, 100, 101, 120, 121, 0, 0, 140, 141]) [10, 11, 12, 14] i j → [1, 0, 3, 7][i]? = some a →
      a + (([2, 0, 2, 2].drop i).take (j + 1 - i)).sum ≤ 9 ∧
      ∀ k b n, i ≤ k → k ≤ j → [1, 0, 3, 7][k]? = some b → [2, 0, 2, 2][k]? = some n → n ≠ 0 ∨ k = j →
        b = a + (([2, 0, 2, 2].drop i).take (k - i)).sum := by
    intro i j a hr ha
    rcases exRuns_run rfl hr with ⟨rfl, rfl⟩ | ⟨rfl, rfl⟩
    · simp at ha
      subst ha
      refine ⟨by decide, ?_⟩
      intro k b n _ hk hb hn hor
      have : k = 0 ∨ k = 1 ∨ k = 2 := by omega
      rcases this with rfl | rfl | rfl <;> simp at hb hn <;> subst hb <;> subst hn <;> simp at hor ⊢
    · simp at ha
      subst ha
      refine ⟨by decide, ?_⟩
      intro k b n h1 h2 hb _ _
      have : k = 3 := by omega
      subst this
      simp at hb
      simp [← hb]
  have r3 : RunField (exModule '3' [10, 11, 12, 14] [1, 0, 3, 7] [2, 0, 2, 2] [9, 5, 7, 5, 7, 9, 9, 5, 7]
      [0, 100, 101, 120, 121, 0, 0, 140, 141]) [10, 11, 12, 14] (exSource '3') (ch! "image.data") ∧
      RunField (exModule '3' [10, 11, 12, 14] [1, 0, 3, 7] [2, 0, 2, 2] [9, 5, 7, 5, 7, 9, 9, 5, 7]
      [0, 100, 101, 120, 121, 0, 0, 140, 141]) [10, 11, 12, 14] (exSource '3') (ch! "image.pulseId") :=
    ⟨⟨by decide, by decide, _, _, _, ix3, dat3.1, rfl, rfl, range3⟩,
      ⟨by decide, by decide, _, _, _, ix3, dat3.2.1, rfl, rfl, range3⟩⟩
  have v0 := exModule_valid (n := '0') (tids := [10, 11, 12, 14]) (firsts := [0, 2, 4, 6]) (counts := [2, 2, 2, 2])
    (ids := [5, 7, 5, 7, 5, 7, 5, 7])
    (rows := [200, 201, 210, 211, 220, 221, 240, 241]) (Or.inl rfl) (by decide) (by decide) rfl rfl
    (contiguous_cons rfl (contiguous_cons rfl (contiguous_cons rfl (contiguous_one _ _))))
    (inBounds_cons (by decide) (inBounds_cons (by decide) (inBounds_cons (by decide) (inBounds_cons (by decide) (inBounds_nil _)))))
    rfl (by decide) (by decide)
  have key : ∀ f ∈ exRuns.files, ∀ x ∈ exRunsDet.sourceToModno, Holds f x.1 →
      (f = exModule '3' [10, 11, 12, 14] [1, 0, 3, 7] [2, 0, 2, 2] [9, 5, 7, 5, 7, 9, 9, 5, 7]
        [0, 100, 101, 120, 121, 0, 0, 140, 141] ∧ x.1 = exSource '3') ∨
      (f = exModule '0' [10, 11, 12, 14] [0, 2, 4, 6] [2, 2, 2, 2] [5, 7, 5, 7, 5, 7, 5, 7]
        [200, 201, 210, 211, 220, 221, 240, 241] ∧ x.1 = exSource '0') := by
    intro f hf x hx hh
    simp only [exRuns, List.mem_cons, List.not_mem_nil, or_false] at hf
    simp only [exRunsDet, List.mem_cons, List.not_mem_nil, or_false] at hx
    rcases hf with rfl | rfl <;> rcases hx with rfl | rfl
    · exact Or.inl ⟨rfl, rfl⟩
    · exact absurd hh (by rintro (h | h) <;> revert h <;> decide)
    · exact absurd hh (by rintro (h | h) <;> revert h <;> decide)
    · exact Or.inr ⟨rfl, rfl⟩
  refine ⟨?_, ?_, ?_, ?_, ?_⟩
  · intro x hx
    simp only [exRunsDet, List.mem_cons, List.not_mem_nil, or_false] at hx
    rcases hx with rfl | rfl <;> (intro c hc; revert c; decide)
  · intro x hx f hf hh
    rw [hT, hp]
    rcases key f hf x hx hh with ⟨rfl, e⟩ | ⟨rfl, e⟩ <;> rw [e]
    · exact r3
    · exact ⟨runField_of_valid v0.1, runField_of_valid v0.2.1⟩
  · rintro x hx t k p v ⟨f, hf, hh, i, firsts, counts, first, count, w1, w2, w3, w4, w5, ⟨pds, w6, z, w7, w8⟩, _⟩
    rw [hp] at w6
    rw [hg] at w2
    have small : ∀ (l : List Nat) n, (∀ m ∈ l, m < 2700) → ∀ i : Nat, l[i]? = some n → n < 2700 :=
      fun l n h i hi => h n (List.mem_of_getElem? hi)
    rcases key f hf x hx hh with ⟨rfl, e⟩ | ⟨rfl, e⟩ <;> rw [e] at w2 w6
    · rw [ix3] at w2
      rw [dat3.2.1] at w6
      obtain ⟨rfl, rfl⟩ := Prod.mk.inj (Except.ok.inj w2)
      obtain rfl := Except.ok.inj w6
      have := small _ count (by decide) i w4
      have := small _ z (by decide) _ w7
      simp only [id] at w8
      omega
    · rw [exModule_index (firsts := [0, 2, 4, 6]) (counts := [2, 2, 2, 2]) (tids := [10, 11, 12, 14]) (ids := [5, 7, 5, 7, 5, 7, 5, 7])
        (rows := [200, 201, 210, 211, 220, 221, 240, 241]) (Or.inl rfl) rfl rfl (by decide) (by decide)] at w2
      rw [(exModule_data (Or.inl rfl)).2.1] at w6
      obtain ⟨rfl, rfl⟩ := Prod.mk.inj (Except.ok.inj w2)
      obtain rfl := Except.ok.inj w6
      have := small _ count (by decide) i w4
      have := small _ z (by decide) _ w7
      simp only [id] at w8
      omega
  · have b3 : InBounds [1, 0, 3, 7] [2, 0, 2, 2] 9 :=
      inBounds_cons (by decide) (inBounds_cons (by decide) (inBounds_cons (by decide) (inBounds_cons (by decide) (inBounds_nil _))))
    intro x hx
    constructor <;> intro f hf hh <;> rcases key f hf x hx hh with ⟨rfl, e⟩ | ⟨rfl, e⟩ <;> rw [e]
    · exact ⟨by decide, ⟨List.mem_singleton.2 rfl, by simp [exModule]⟩, _, _, _, ix3, dat3.1, rfl, rfl, b3⟩
    · exact v0.1.indexed
    · rw [hp]
      exact ⟨by decide, ⟨List.mem_singleton.2 rfl, by simp [exModule]⟩, _, _, _, ix3, dat3.2.1, rfl, rfl, b3⟩
    · rw [hp]
      exact v0.2.1.indexed
  · intro h
    obtain ⟨firsts, counts, ds, h1, -, -, -, h5, -⟩ := (h.1 _ (List.mem_cons_self) (Or.inr (List.mem_singleton.2 rfl))).data
    have hg' : groupName true (ch! "image.data") = ch! "image" := hg
    rw [hg', ix3] at h1
    obtain ⟨rfl, rfl⟩ := Prod.mk.inj (Except.ok.inj h1)
    have := h5 0 1 2 0 rfl rfl rfl
    omega

/-- Module 3 has no frames in the last train, and there its index is 0. -/
def exEmptyLast : DC Nat where
  files := [exModule '3' [10, 11] [0, 0] [2, 0] [5, 7] [100, 101],
    exModule '0' [10, 11] [0, 2] [2, 2] [5, 7, 5, 7] [200, 201, 210, 211]]
  selection := [(exSource '3', none), (exSource '0', none)]
  trainIds := [10, 11]
  ctxCloses := true

set_option maxRecDepth 20000 in
/-- C56 is wrong for files in which a train without frames has another place in the index than where the frames before it end, if
it is the last of a run: here the frames 100 and 101 of module 3 in train 10, with the pulse IDs 5 and 7, are not in the array
with these pulse IDs, and there is no exception. With `by_index` there is one. -/
theorem get_array_empty_last_wrong :
    ∃ d a, Det.init none exEmptyLast none none 1 = .ok d ∧
      d.getArray ⟨true, true⟩ id (ch! "image.data") (.by_ true (.list [5, 7])) = .ok (.pulses a) ∧
      a.cell 0 10 5 = some 200 ∧ a.cell 3 10 5 = none ∧ a.cell 3 10 7 = none ∧
      (∃ e, d.getArray ⟨true, true⟩ id (ch! "image.data") (.by_ false (.slice .none .none .none)) = .error e) ∧
      ∀ f ∈ exEmptyLast.files, exSource '3' ∈ f.instrumentSources →
        fileEntries f true (exSource '3') (ch! "image.data") 10 = [100, 101] ∧
        fileEntries f true (exSource '3') (ch! "image.pulseId") 10 = [5, 7] := by
  refine ⟨⟨ch! "X_AGIPD1M-1", [(exSource '3', 3), (exSource '0', 0)], 2, { exEmptyLast with ctxCloses := false }⟩,
    ⟨[0, 3], [10, 11], [5, 7], [2, 2], [(0, [((10, 5), 200), ((10, 7), 201), ((11, 5), 210), ((11, 7), 211)]), (3, [])]⟩,
    by decide, by decide, by decide, by decide, by decide, ⟨.value, by decide⟩, ?_⟩
  decide

end KD
