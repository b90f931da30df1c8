/- Property C105: data which passes validation is read right. -/
import Verif.Props.RunValidation
import Verif.Props.Arrays
import Verif.Props.OneTrain
import Verif.Props.Names

namespace KD
open Spec

variable {V W : Type}

theorem checkKey_nil {f : FileAccess V} {source key : Str} {ps : List Problem} (h : f.checkKey source key = .ok ps) :
    ∃ firsts counts size, FieldParts f source key firsts counts size := by
  unfold FileAccess.checkKey at h
  simp only at h
  split at h
  · simp at h
  next firsts counts hi =>
  split at h
  · simp at h
  next ds hd =>
  refine ⟨firsts, counts, ds.rows.length, hi, ds, ?_, rfl⟩
  rw [← hd]
  unfold FileAccess.dataset
  rw [← h5path_noslash]
  rfl

theorem checkGroup_nil {f : FileAccess V} {source group : Str} {firsts counts : List Nat}
    (hi : f.getIndex source group = .ok (firsts, counts)) (h : f.checkGroup source group = .ok []) :
    firsts.length = f.trainIds.length ∧ counts.length = f.trainIds.length ∧ firsts ≠ [] := by
  have hl := (lengths_report hi).1 [] h
  have h1 : firsts.length = counts.length := by
    by_contra hc
    obtain ⟨d, a, b, hm⟩ := hl.1.2 hc
    simp at hm
  have h2 : firsts.length = f.trainIds.length := by
    by_contra hc
    obtain ⟨d, a, b, hm⟩ := hl.2.1.2 hc
    simp at hm
  refine ⟨h2, h1.symm.trans h2, ?_⟩
  rintro rfl
  rw [(lengths_report hi).2.2.1 rfl] at h
  simp at h

theorem checkSource_nil {f : FileAccess V} {source : Str} (h : f.checkSource source = .ok []) :
    ∃ keys, f.getKeys source = .ok keys ∧ ∀ key ∈ keys, ∃ firsts counts size,
      FieldParts f source key firsts counts size ∧ firsts.length = f.trainIds.length ∧
      counts.length = f.trainIds.length ∧ firsts ≠ [] := by
  unfold FileAccess.checkSource at h
  split at h
  · simp at h
  next keys hk =>
  split at h
  · simp at h
  next pss hp =>
  split at h
  · simp at h
  next qss hq =>
  refine ⟨keys, hk, fun key hkey => ?_⟩
  have hnil := List.append_eq_nil_iff.1 (Except.ok.inj h)
  obtain ⟨ps, -, h1⟩ := mapE_ok_all hp hkey
  obtain ⟨firsts, counts, size, hparts⟩ := checkKey_nil h1
  have hg : (partition '.' key).1 ∈ (keys.map (fun k => (partition '.' k).1)).dedup :=
    List.mem_dedup.2 (List.mem_map.2 ⟨key, hkey, rfl⟩)
  obtain ⟨qs, -, h2⟩ := mapE_ok_all hq hg
  have hqs : qs = [] := List.flatten_eq_nil_iff.1 hnil.2 qs ((mapE_mem hq).2 ⟨_, hg, h2⟩)
  rw [hqs] at h2
  obtain ⟨l1, l2, l3⟩ := checkGroup_nil hparts.1 h2
  exact ⟨firsts, counts, size, hparts, l1, l2, l3⟩

theorem checkIndices_nil {f : FileAccess V} (h : f.checkIndices = .ok []) {source : Str} (hs : source ∈ f.instrumentSources) :
    f.checkSource source = .ok [] := by
  unfold FileAccess.checkIndices at h
  split at h
  · simp at h
  next pss hp =>
  obtain ⟨ps, -, h1⟩ := mapE_ok_all hp hs
  have : ps = [] := List.flatten_eq_nil_iff.1 (Except.ok.inj h) ps ((mapE_mem hp).2 ⟨_, hs, h1⟩)
  rw [h1, this]

theorem runChecks_nil {f : FileAccess V} (h : f.runChecks = .ok []) :
    f.checkIndices = .ok [] ∧ checkTrainIds f.file = .ok [] := by
  unfold FileAccess.runChecks at h
  split at h
  · simp at h
  next ps hp =>
  split at h
  · simp at h
  next qs hq =>
  obtain ⟨rfl, rfl⟩ := List.append_eq_nil_iff.1 (Except.ok.inj h)
  exact ⟨hp, hq⟩

theorem validate_none {f : FileAccess V} : f.validate = .ok none ↔ f.runChecks = .ok [] := by
  unfold FileAccess.validate
  cases f.runChecks with
  | error e => simp
  | ok ps => cases ps <;> simp

theorem validated_fields {f : FileAccess V} {h : H5File V} {name : Str} (ho : FileAccess.init name h none = .ok f)
    (hv : f.runChecks = .ok []) (hfit : NumbersFit f) {source : Str} (hs : source ∈ f.instrumentSources)
    (hc : source ∉ f.controlSources) :
    ∃ keys, f.getKeys source = .ok keys ∧ ∀ key ∈ keys, ValidField f true source key ∧ StartsAtZero f true source key := by
  obtain ⟨hi, ht⟩ := runChecks_nil hv
  obtain ⟨keys, hk, hkeys⟩ := checkSource_nil (checkIndices_nil hi hs)
  refine ⟨keys, hk, fun key hkey => ?_⟩
  obtain ⟨firsts, counts, size, hparts, l1, l2, hne⟩ := hkeys key hkey
  have htne : f.trainIds ≠ [] := by
    intro he
    rw [he] at l1
    exact hne (List.eq_nil_of_length_eq_zero l1)
  have hread : FieldsReadable f := by
    intro s' hs'
    obtain ⟨ks, h1, h2⟩ := checkSource_nil (checkIndices_nil hi hs')
    refine ⟨ks, h1, fun k hk => ?_⟩
    obtain ⟨a, b, c, h3, h4, h5, -⟩ := h2 k hk
    exact ⟨a, b, c, h3, h4, h5⟩
  obtain ⟨ps, hps, hgood⟩ := index_validation_partial hread htne hfit
  rw [hi] at hps
  obtain rfl := Except.ok.inj hps
  have hg := hgood.1 rfl source hs keys hk key hkey firsts counts size hparts
  have htr : f.trainIds.Pairwise (· < ·) := by
    unfold FileAccess.init at ho
    simp only at ho
    split at ho
    · simp at ho
    next tids htid =>
    split at ho
    · simp at ho
    obtain rfl := Except.ok.inj ho
    have htid' : h.trainId = some tids := by
      unfold need at htid
      split at htid
      next t he => rw [he, Except.ok.inj htid]
      · simp at htid
    obtain ⟨qs, q1, q2, -⟩ := train_id_check_exact htid'
    simp only at ht
    rw [ht] at q1
    have hinc := (q2.1 (Except.ok.inj q1).symm).2
    unfold StrictlyIncreasing at hinc
    have hnz : tids.filter (fun t => t != 0) = tids.filter (fun t => decide (t ≠ 0)) := by
      apply List.filter_congr
      intro x _
      cases x <;> simp
    simp only
    rw [hnz]
    exact hinc
  obtain ⟨hgi, ds, hds, rfl⟩ := hparts
  exact ⟨⟨htr, htne, ⟨hs, hc⟩, firsts, counts, ds, hgi, hds, l1, l2, hg.contiguous, hg.inBounds⟩,
    firsts, counts, hgi, hg.start⟩

/-- C105, one file, part. If validation of a file finds no problem, then the keys of each instrument source can be listed and each
of them is a valid field: increasing train IDs, and an index with one entry for each train, from 0 on, without gaps or
overlaps, inside the data. Missing for the full claim: control data (`validated_control_wrong`), and numbers which overflow
the arithmetic of the validation (`NumbersFit`, see `validation_overflow_wrong`). -/
theorem validated_file_partial {f : FileAccess V} {h : H5File V} {name : Str} (ho : FileAccess.init name h none = .ok f)
    (hv : f.validate = .ok none) (hfit : NumbersFit f) {source : Str} (hs : source ∈ f.instrumentSources)
    (hc : source ∉ f.controlSources) :
    ∃ keys, f.getKeys source = .ok keys ∧ ∀ key ∈ keys, ValidField f true source key ∧ StartsAtZero f true source key :=
  validated_fields ho (validate_none.1 hv) hfit hs hc

/-- Control data is not validated. In one file the index points behind the end of the data, in the other it says that the second
train comes first. Validation reports no problem; `get_array` fails for the one, and returns for the other the entry of
train 1 as the entry of train 2. -/
theorem validated_control_wrong :
    let f := exCtrl (ch! "a") [1, 2] [5, 6] [1, 1] [10, 20]
    let g := exCtrl (ch! "b") [1, 2] [1, 0] [1, 1] [10, 20]
    FileAccess.init (ch! "a") f.file none = .ok f ∧ f.validate = .ok none ∧
    FileAccess.init (ch! "b") g.file none = .ok g ∧ g.validate = .ok none ∧
    (DC.make [f] none none true).map (fun c => c.getArray (ch! "C") (ch! "x.value") id) = .ok (.error .type) ∧
    (DC.make [g] none none true).map (fun c => c.getArray (ch! "C") (ch! "x.value") id) =
      .ok (.ok ⟨[20, 20], some [1, 2], [], 0⟩) ∧
    fileEntries g false (ch! "C") (ch! "x.value") 2 = [10] :=
  ⟨by decide, by decide, by decide, by decide, by decide, by decide, by decide⟩

theorem validField_same {f g : FileAccess V} (h : SameFile f g) {instr : Bool} {source key : Str}
    (hv : ValidField f instr source key) : ValidField g instr source key := by
  obtain ⟨h1, h2, h3, h4, h5⟩ := h
  obtain ⟨a, b, c, firsts, counts, ds, d1, d2, d3, d4, d5, d6⟩ := hv
  refine ⟨h3 ▸ a, h3 ▸ b, ?_, firsts, counts, ds, ?_, ?_, h3 ▸ d3, h3 ▸ d4, d5, d6⟩
  · cases instr with
    | true => exact ⟨(h5 _).1 c.1, fun hh => c.2 ((h4 _).2 hh)⟩
    | false => exact ⟨(h4 _).1 c.1, fun hh => c.2 ((h5 _).2 hh)⟩
  · rw [← d1]
    unfold FileAccess.getIndex FileAccess.readIndex
    rw [h2, h3]
  · rw [← d2]
    unfold FileAccess.dataset
    rw [h2]

/-- The object for a file opened with a right description is the same as without one. -/
theorem openFile_same {disk : Str → Option (DiskFile V)} {dir name : Str} {f : FileAccess V} {ci : CacheInfo}
    (ho : Opens disk dir name f) (hs : SameInfo ci ⟨f.trainIds, f.controlSources, f.instrumentSources⟩) :
    SameOutcome (openFile disk (pathJoin dir name) name (some ci)) (openFile disk (pathJoin dir name) name none) := by
  have h0 := openFile_ok_iff.2 ho
  obtain ⟨⟨st, content⟩, h, h1, h2, h3⟩ := ho
  simp only at h2
  subst h2
  right
  refine ⟨⟨pathJoin dir name, ci.trainIds, ci.controlSources, ci.instrumentSources, h⟩, f, ?_, h0, ?_⟩
  · unfold openFile
    rw [h1]
    rfl
  · rw [init_readInfo] at h3
    split at h3
    · simp at h3
    obtain rfl := Except.ok.inj h3
    exact ⟨rfl, rfl, hs.1, hs.2.1, hs.2.2⟩

theorem validateRun_nil {disk : Str → Option (DiskFile V)} {candidates : List CacheFile} {dir : Str} {names : List Str}
    (h : validateRun disk candidates dir names = .ok []) :
    (∃ fs, names.map (fun n => openFile disk (pathJoin dir n) n none) = fs.map Except.ok ∧ fs ≠ [] ∧ NoConflict fs) ∧
    (∀ n ∈ names, ∀ f, Opens disk dir n f → f.runChecks = .ok []) ∧
    ∃ m, FilesMap.load candidates (fun f => (disk f).map DiskFile.stat) = .ok m ∧
      ∀ n ∈ names, ∀ f, Opens disk dir n f → ∃ ci, getInfo m.filesData true n = .ok (some ci) ∧
        SameInfo ci ⟨f.trainIds, f.controlSources, f.instrumentSources⟩ := by
  unfold validateRun at h
  split at h
  · simp at h
  next v hv =>
  obtain ⟨v1, v2⟩ := runVal_init hv
  unfold RunVal.runChecks at h
  split at h
  · simp at h
  next cs hcs =>
  split at h
  · simp at h
  next m hm =>
  split at h
  · simp at h
  next es hes =>
  have hnil := Except.ok.inj h
  rw [List.append_eq_nil_iff, List.append_eq_nil_iff] at hnil
  obtain ⟨⟨n1, n2⟩, n3⟩ := hnil
  unfold RunVal.checkOpenable at n1
  rw [List.append_eq_nil_iff] at n1
  have hex : v.excluded = [] := List.map_eq_nil_iff.1 n1.1
  have hfiles : v.files ≠ [] := by
    intro he
    rw [he] at n1
    simp at n1
  refine ⟨?_, ?_, m, hm, ?_⟩
  · refine ⟨v.files.map Prod.snd, ?_, by simpa using hfiles, ?_⟩
    · unfold RunVal.init at hv
      simp only at hv
      split at hv
      · simp at hv
      obtain rfl := Except.ok.inj hv
      simp only at hex ⊢
      clear * - hex
      induction names with
      | nil => rfl
      | cons n names ih =>
        simp only [List.map_cons] at hex ⊢
        cases ho : openFile disk (pathJoin dir n) n none with
        | error e => rw [ho] at hex; simp at hex
        | ok f =>
          rw [ho] at hex
          simp only [List.filterMap_cons] at hex ⊢
          rw [ih hex]
          rfl
    · unfold RunVal.init at hv
      simp only at hv
      split at hv
      · simp at hv
      next c hc =>
      obtain rfl := Except.ok.inj hv
      exact (make_ok_iff.1 hc).1
  · intro n hn f ho
    have hf := (v1 (n, f)).2 ⟨hn, ho⟩
    obtain ⟨l, hl, hcl⟩ := mapE_ok_all hcs hf
    rw [List.flatten_eq_nil_iff.1 n2 l hl] at hcl
    unfold checkFile at hcl
    split at hcl
    · simp at hcl
    next ps hps =>
    rw [hps, List.map_eq_nil_iff.1 (Except.ok.inj hcl)]
  · intro n hn f ho
    have hf := (v1 (n, f)).2 ⟨hn, ho⟩
    obtain ⟨l, hl, hcl⟩ := mapE_ok_all hes hf
    rw [List.flatten_eq_nil_iff.1 n3 l hl] at hcl
    unfold checkEntry at hcl
    split at hcl
    · simp at hcl
    · simp at hcl
    next ci hci =>
    refine ⟨ci, hci, ?_⟩
    split at hcl
    · simp at hcl
    next hw =>
    rw [not_or, not_or] at hw
    refine ⟨not_not.1 hw.2.2, sameSet_iff.1 ?_, sameSet_iff.1 ?_⟩
    · exact Bool.eq_true_of_not_eq_false hw.1
    · exact Bool.eq_true_of_not_eq_false hw.2.1

/-- C105, a run, part. If validation of a run directory finds no problem, then `RunDirectory` opens it, with all files and
without conflict; and for every instrument source and every key which all the files with this source have, the field is
valid in all of them. Missing for the full claim: control data (`validated_control_wrong`), and numbers which
overflow. -/
theorem validated_run_partial {disk : Str → Option (DiskFile V)} {candidates : List CacheFile} {dir : Str}
    {names : List Str} (h : validateRun disk candidates dir names = .ok [])
    (hn : ∀ n ∈ names, endsWith n (ch! ".h5") = true) (hfit : ∀ n ∈ names, ∀ f, Opens disk dir n f → NumbersFit f) :
    ∃ m c, runDirectory disk candidates dir names (ch! "*") = .ok (m, c) ∧ NoConflict c.files ∧ c.files ≠ [] ∧
      c.files.map FileAccess.filename = names.map (pathJoin dir) ∧
      ∀ source key, (∀ f ∈ c.files, source ∉ f.controlSources) →
        (∀ f ∈ c.files, Holds f source → ∃ ks, f.getKeys source = .ok ks ∧ key ∈ ks) → ValidIn c true source key := by
  obtain ⟨⟨fs, hfs, hne, hnc⟩, hchecks, m, hm, hinfo⟩ := validateRun_nil h
  have hopens : ∀ n ∈ names, ∃ f, Opens disk dir n f := by
    intro n hnn
    have : openFile disk (pathJoin dir n) n none ∈ fs.map Except.ok := by
      rw [← hfs]; exact List.mem_map.2 ⟨n, hnn, rfl⟩
    obtain ⟨f, -, hf⟩ := List.mem_map.1 this
    exact ⟨f, openFile_ok_iff.1 hf.symm⟩
  have hname : ∀ n f, Opens disk dir n f → f.filename = pathJoin dir n := by
    rintro n f ⟨_, hh, -, -, h3⟩
    rw [init_readInfo] at h3
    split at h3
    · simp at h3
    obtain rfl := Except.ok.inj h3
    rfl
  have hrun : runFiles names (ch! "*") = names := by
    unfold runFiles
    rw [List.filter_eq_self.2 hn, List.filter_eq_self.2 (fun n _ => star_matches n)]
  have hall : ∀ l : List Str, (∀ n ∈ l, n ∈ names) → ∃ as, openAll disk dir m.filesData l = .ok as ∧
      List.Forall₂ SameOutcome as (l.map (fun n => openFile disk (pathJoin dir n) n none)) := by
    intro l
    induction l with
    | nil => intro _; exact ⟨[], rfl, .nil⟩
    | cons n l ih =>
      intro hl
      obtain ⟨as, h1, h2⟩ := ih (fun x hx => hl x (by simp [hx]))
      obtain ⟨f, hf⟩ := hopens n (hl n (by simp))
      obtain ⟨ci, c1, c2⟩ := hinfo n (hl n (by simp)) f hf
      exact ⟨_, by simp only [openAll, c1, h1], .cons (openFile_same hf c2) h2⟩
  obtain ⟨as, ha1, ha2⟩ := hall names (fun _ hx => hx)
  have hnames : names ≠ [] := by
    rintro rfl
    exact hne (List.map_eq_nil_iff.1 hfs.symm)
  have hfilter : (fs.map (Except.ok (ε := PyErr))).filterMap Except.toOption = fs := by
    clear * -
    induction fs with
    | nil => rfl
    | cons f fs ih => simp only [List.map_cons, List.filterMap_cons, Except.toOption, ih]
  rw [hfs] at ha2
  have hd : DC.fromPaths (fs.map (Except.ok (ε := PyErr))) = DC.make fs none none true := by
    unfold DC.fromPaths
    simp only
    rw [hfilter, if_neg (by simpa using hne)]
  rcases fromPaths_same ha2 with ⟨e, -, h2⟩ | ⟨c, d, h1, h2, h3, -, -⟩
  · rw [hd, make_ok_iff.2 ⟨hnc, rfl⟩] at h2
    simp at h2
  rw [hd] at h2
  have hdf : d.files = fs := by rw [(make_ok_iff.1 h2).2]
  rw [hdf] at h3
  refine ⟨m, c, ?_, (noConflict_same h3).2 hnc, ?_, ?_, ?_⟩
  · unfold runDirectory
    simp only
    rw [hrun, if_neg (by simpa using hnames), hm]
    simp only
    rw [ha1]
    simp only
    rw [h1]
  · intro he
    have := h3.length_eq
    rw [he] at this
    exact hne (List.eq_nil_of_length_eq_zero this.symm)
  · have hg : ∀ (l : List Str) (gs : List (FileAccess V)),
        l.map (fun n => openFile disk (pathJoin dir n) n none) = gs.map Except.ok →
        gs.map FileAccess.filename = l.map (pathJoin dir) := by
      intro l
      induction l with
      | nil => intro gs hgs; rw [List.map_eq_nil_iff.1 hgs.symm]; rfl
      | cons n l ih =>
        intro gs hgs
        cases gs with
        | nil => simp at hgs
        | cons g gs =>
          simp only [List.map_cons, List.cons.injEq] at hgs ⊢
          exact ⟨hname n g (openFile_ok_iff.1 hgs.1), ih gs hgs.2⟩
    rw [← hg names fs hfs]
    generalize c.files = cf at h3
    clear * - h3
    induction h3 with
    | nil => rfl
    | cons hab _ ih => simp only [List.map_cons, ih, hab.1]
  · intro source key hcs hkeys f hf hh
    have hex : ∃ g ∈ fs, SameFile f g := by
      generalize c.files = cf at h3 hf
      clear * - h3 hf
      induction h3 with
      | nil => simp at hf
      | cons hab _ ih =>
        rcases List.mem_cons.1 hf with rfl | hf
        · exact ⟨_, by simp, hab⟩
        · obtain ⟨g, hg, hs⟩ := ih hf
          exact ⟨g, by simp [hg], hs⟩
    obtain ⟨g, hg, hsame⟩ := hex
    have : (.ok g : R (FileAccess V)) ∈ names.map (fun n => openFile disk (pathJoin dir n) n none) := by
      rw [hfs]; exact List.mem_map.2 ⟨g, hg, rfl⟩
    obtain ⟨n, hnn, hopen⟩ := List.mem_map.1 this
    have hog := openFile_ok_iff.1 hopen
    obtain ⟨-, hh5, -, -, hinit⟩ := id hog
    have hc := hcs f hf
    obtain ⟨ks, hks, hkey⟩ := hkeys f hf hh
    have hs : source ∈ f.instrumentSources := by
      rcases hh with hh | hh
      · exact absurd hh hc
      · exact hh
    obtain ⟨ks', hks', hvalid⟩ := validated_fields hinit (hchecks n hnn g hog) (hfit n hnn g hog)
      ((hsame.2.2.2.2 source).1 hs) (fun hx => hc ((hsame.2.2.2.1 source).2 hx))
    have hk : f.getKeys source = g.getKeys source := by
      have h1 : source ∉ g.controlSources := fun hx => hc ((hsame.2.2.2.1 source).2 hx)
      have h2 := (hsame.2.2.2.2 source).1 hs
      unfold FileAccess.getKeys FileAccess.readKeys
      rw [if_neg hc, if_neg h1, if_pos hs, if_pos h2, hsame.2.1]
    rw [hk, hks'] at hks
    obtain rfl := Except.ok.inj hks
    obtain ⟨a, b, cc, dd, e⟩ := hsame
    exact validField_same ⟨a.symm, b.symm, cc.symm, fun s => (dd s).symm, fun s => (e s).symm⟩ (hvalid key hkey).1

/-- C105, reading a run, part. If validation of a run directory finds no problem, then for every instrument source and key
which the run has, in all files with the source, `get_array` refuses only files which disagree on the shape of entries or the type,
and otherwise gives for each train exactly the entries the file has for it. -/
theorem validated_run_read_partial {disk : Str → Option (DiskFile V)} {candidates : List CacheFile} {dir : Str}
    {names : List Str} (h : validateRun disk candidates dir names = .ok [])
    (hn : ∀ n ∈ names, endsWith n (ch! ".h5") = true) (hfit : ∀ n ∈ names, ∀ f, Opens disk dir n f → NumbersFit f) :
    ∃ m c, runDirectory disk candidates dir names (ch! "*") = .ok (m, c) ∧
      ∀ source key (roi : V → W), Available c source key → (∀ f ∈ c.files, source ∉ f.controlSources) →
        (∀ f ∈ c.files, Holds f source → ∃ ks, f.getKeys source = .ok ks ∧ key ∈ ks) →
        (Mismatch c true source key ∧ c.getArray source key roi = .error .generic) ∨
        ∃ a, c.getArray source key roi = .ok a ∧ AllLabelled a ∧ ∀ f ∈ c.files, Holds f source → ∀ t ∈ f.trainIds,
          labelled a t = (fileEntries f true source key t).map roi := by
  obtain ⟨m, c, h1, h2, -, -, h3⟩ := validated_run_partial h hn hfit
  refine ⟨m, c, h1, fun source key roi ha hcs hks => ?_⟩
  have hv := h3 source key hcs hks
  obtain ⟨r1, r2⟩ := get_array_refuses_mismatch roi h2 hv ha
  by_cases hm : Mismatch c true source key
  · exact Or.inl ⟨hm, r1 hm⟩
  · obtain ⟨a, ga, -⟩ := r2 hm
    obtain ⟨x1, x2, -⟩ := get_array_exact h2 hv ga
    refine Or.inr ⟨a, ga, x1, fun f hf hh t ht => x2 t ?_ f hf hh ht⟩
    unfold runDirectory at h1
    simp only at h1
    split at h1
    · simp at h1
    split at h1
    · simp at h1
    split at h1
    · simp at h1
    split at h1
    · simp at h1
    next d hd =>
    obtain ⟨-, rfl⟩ := Prod.mk.inj (Except.ok.inj h1)
    unfold DC.fromPaths at hd
    simp only at hd
    split at hd
    · simp at hd
    rw [(make_ok_iff.1 hd).2] at hf ⊢
    simp only [Option.getD_none] at hf ⊢
    exact mem_sortedSet.2 (List.mem_flatMap.2 ⟨f, hf, ht⟩)

/-- A run with two files and a right cache: it passes validation, the numbers fit, and the field is in both. -/
def exValidDisk : Str → Option (DiskFile Nat) := fun n =>
  if n = ch! "a.h5" then some ⟨⟨1, 5⟩, .ok (exInst (ch! "a") [1, 2] [0, 2] [2, 1] [10, 11, 12]).file⟩
  else if n = ch! "b.h5" then some ⟨⟨2, 6⟩, .ok (exInst (ch! "b") [3, 4] [0, 1] [1, 1] [20, 21]).file⟩
  else none

def exValidMap : List CacheFile :=
  [.document [⟨some (ch! "a.h5"), some 1, some 5, some [1, 2], some [], some [ch! "D:o"]⟩,
    ⟨some (ch! "b.h5"), some 2, some 6, some [3, 4], some [], some [ch! "D:o"]⟩]]

/-- `NumbersFit` as a computation, for examples. -/
def fits (f : FileAccess V) : Bool :=
  f.instrumentSources.all (fun s => match f.getKeys s with
    | .error _ => true
    | .ok ks => ks.all (fun k => match f.getIndex s (groupName true k), f.dataset (sectionName true) s k with
      | .ok (firsts, counts), .ok ds => decide (ds.rows.length < 2 ^ 53) &&
          (firsts.zip counts).all (fun x => decide (x.1 + x.2 < 2 ^ 64))
      | _, _ => true))

theorem numbersFit_of_fits {f : FileAccess V} (h : fits f = true) : NumbersFit f := by
  intro source hs keys hk key hkey firsts counts size hp
  have h1 := List.all_eq_true.1 h source hs
  rw [hk] at h1
  have h2 := List.all_eq_true.1 h1 key hkey
  obtain ⟨p1, ds, p2, rfl⟩ := hp
  rw [p1, p2] at h2
  simp only [Bool.and_eq_true, List.all_eq_true, decide_eq_true_eq] at h2
  refine ⟨h2.1, fun i a n ha hn => h2.2 (a, n) (List.mem_iff_getElem?.2 ⟨i, ?_⟩)⟩
  rw [List.getElem?_zip_eq_some]
  exact ⟨ha, hn⟩

example : ∀ n ∈ [ch! "a.h5", ch! "b.h5"], ∀ f, Opens exValidDisk (ch! "r") n f → NumbersFit f := by
  intro n hn f ho
  apply numbersFit_of_fits
  have h0 := openFile_ok_iff.2 ho
  have key : ∀ n ∈ [ch! "a.h5", ch! "b.h5"], (openFile exValidDisk (pathJoin (ch! "r") n) n none).map fits = .ok true := by
    decide
  have := key n hn
  rw [h0] at this
  exact Except.ok.inj this

example : validateRun exValidDisk exValidMap (ch! "r") [ch! "a.h5", ch! "b.h5"] = .ok [] ∧
    (∀ n ∈ [ch! "a.h5", ch! "b.h5"], endsWith n (ch! ".h5") = true) ∧
    (runDirectory exValidDisk exValidMap (ch! "r") [ch! "a.h5", ch! "b.h5"] (ch! "*")).map (fun x =>
      (x.2.checkField (ch! "D:o") (ch! "data.y"), x.2.getArray (ch! "D:o") (ch! "data.y") id)) =
      .ok (.ok (), .ok ⟨[10, 11, 12, 20, 21], some [1, 1, 2, 3, 4], [], 0⟩) := ⟨by decide, by decide, by decide⟩

end KD
