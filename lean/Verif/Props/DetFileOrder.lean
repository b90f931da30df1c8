/- Property C132: the order of the files does not matter to the detector interface. -/
import Verif.Spec.DetFileOrder
import Verif.Props.FileOrder
import Verif.Props.DetIterate
import Verif.Props.DetInit
import Verif.Props.DetSuccess
import Verif.Props.DetIterSuccess
import Verif.Props.DetRuns

set_option linter.unusedSimpArgs false

namespace KD
open Spec

variable {V : Type}

theorem sameContents_trans {a b c : DC V} (h1 : SameContents a b) (h2 : SameContents b c) : SameContents a c := by
  refine ⟨h1.files.trans h2.files, h1.trains.trans h2.trains, fun s => ?_⟩
  have e1 := h1.selection s
  have e2 := h2.selection s
  generalize a.selection.get? s = x at e1
  generalize b.selection.get? s = y at e1 e2
  generalize c.selection.get? s = z at e2
  cases e1 with
  | absent => exact e2
  | allKeys => exact e2
  | keys h => cases e2 with | keys h' => exact .keys (fun k => (h k).trans (h' k))

theorem nodup_instrumentSources (c : DC V) : c.instrumentSources.Nodup := by
  unfold DC.instrumentSources
  exact List.nodup_dedup _

theorem perm_instrumentSources {c d : DC V} (h : SameContents c d) : c.instrumentSources.Perm d.instrumentSources :=
  (List.perm_ext_iff_of_nodup (nodup_instrumentSources c) (nodup_instrumentSources d)).2 (same_instrumentSources h)

theorem same_detectorName {c d : DC V} (h : SameContents c d) {kind : Option Str} {n : Str}
    (hn : findDetectorName kind c = .ok n) : findDetectorName kind d = .ok n := by
  unfold findDetectorName at hn ⊢
  have hp : (c.instrumentSources.filterMap (detectorName kind)).dedup.Perm (d.instrumentSources.filterMap (detectorName kind)).dedup :=
    ((perm_instrumentSources h).filterMap _).dedup
  generalize (c.instrumentSources.filterMap (detectorName kind)).dedup = l at hn hp
  generalize (d.instrumentSources.filterMap (detectorName kind)).dedup = l' at hp
  match l, hn with
  | [x], hn => rw [← List.singleton_perm.1 hp]; exact hn

theorem same_identifySources {c d : DC V} (h : SameContents c d) {n : Str} {modules : Option (List Nat)} {l : Dict Str Nat}
    (hl : identifySources c n modules = .ok l) : ∃ l', identifySources d n modules = .ok l' ∧ List.Perm l l' := by
  unfold identifySources at hl ⊢
  have hp := (perm_instrumentSources h).filterMap (wantedModule n modules)
  generalize c.instrumentSources.filterMap (wantedModule n modules) = a at hl hp
  generalize d.instrumentSources.filterMap (wantedModule n modules) = a' at hp
  cases a with
  | nil => simp at hl
  | cons x a =>
    obtain rfl := Except.ok.inj hl
    cases a' with
    | nil => exact absurd hp.symm.nil_eq (by simp)
    | cons y a' => exact ⟨_, rfl, hp⟩

/-- The order of the patterns does not matter. -/
theorem select_globs_perm {c c' : DC V} {l l' : List (Str × Str)} (hp : l.Perm l') (h : c.select (.globs l) = .ok c') :
    ∃ c'', c.select (.globs l') = .ok c'' ∧ SameContents c' c'' := by
  obtain ⟨S, h1, h2, rfl⟩ := select_ok_iff.1 h
  unfold DC.expandSelection at h1
  simp only at h1
  cases hm : mapE (fun sk => c.selectGlob sk.1 sk.2) l with
  | error e => simp [hm] at h1
  | ok sels =>
    simp only [hm] at h1
    obtain rfl := Except.ok.inj h1
    obtain ⟨sels', h3, h4⟩ := mapE_perm hp hm
    have hfl : sels.flatten.Perm sels'.flatten := h4.flatten
    have hsel : SameSelection (unionSelections sels) (unionSelections sels') :=
      same_unionSelections ⟨fun s => hfl.mem_iff, fun s => by simp only [hfl.mem_iff], fun s k => by simp only [hfl.mem_iff]⟩
    have hrefl : SameContents c c := ⟨.refl _, rfl, fun _ => sameChoice_refl _⟩
    have hf := same_filesFor hrefl hsel
    refine ⟨_, select_ok_iff.2 ⟨unionSelections sels', ?_, (noConflict_perm hf).1 h2, rfl⟩, hf, rfl, hsel⟩
    unfold DC.expandSelection
    simp only [h3]

theorem mapE_congr_ok {α β : Type _} {f g : α → R β} {l : List α} {r : List β} (hfg : ∀ x ∈ l, ∀ y, f x = .ok y → g x = .ok y)
    (h : mapE f l = .ok r) : mapE g l = .ok r := by
  induction l generalizing r with
  | nil => exact h
  | cons a l ih =>
    obtain ⟨b, bs, h1, h2, rfl⟩ := mapE_cons_ok.1 h
    exact mapE_cons_ok.2 ⟨b, bs, hfg a (by simp) b h1, ih (fun x hx => hfg x (by simp [hx])) h2, rfl⟩

theorem select_listsKeys {c e : DC V} {sel : SelArg} (he : c.select sel = .ok e) :
    NoConflict e.files ∧ ∀ f ∈ e.files, f ∈ c.files := by
  obtain ⟨S, h1, h2, rfl⟩ := select_ok_iff.1 he
  exact ⟨h2, fun f hf => (List.mem_filter.1 hf).1⟩

theorem countValues_perm {l l' : List (List (Nat × Nat))} (h : l.Perm l') {n : Nat} (hl : countValues l = [n]) :
    countValues l' = [n] := by
  have : (countValues l).Perm (countValues l') := ((h.flatten.map _).filter _).dedup
  rw [hl] at this
  exact (List.singleton_perm.1 this).symm

theorem trainsWithModules_perm {l l' : List (List (Nat × Nat))} (h : l.Perm l') (n : Int) :
    trainsWithModules l n = trainsWithModules l' n := by
  unfold trainsWithModules
  have e1 : sortedSet (l.flatten.map Prod.fst) = sortedSet (l'.flatten.map Prod.fst) := by
    refine eq_of_pairwise_lt (sortedSet_pairwise _) (sortedSet_pairwise _) (fun t => ?_)
    rw [mem_sortedSet, mem_sortedSet, (h.flatten.map Prod.fst).mem_iff]
  have e2 : modulesPresent l = modulesPresent l' := by
    funext t
    exact h.countP_eq _
  rw [e1, e2]

/-- The whole of `__init__`, from its parts. -/
theorem init_intro {kind : Option Str} {c : DC V} {name : Option Str} {modules : Option (List Nat)} {minModules : Int} {d : Det V}
    (h1 : ∀ n, name = some n → d.name = n) (h2 : name = none → findDetectorName kind c = .ok d.name)
    (h3 : identifySources c d.name modules = .ok d.sourceToModno) (h4 : (d.sourceToModno.map Prod.snd).Nodup)
    {e : DC V} {sers : List (List (Nat × Nat))}
    (h5 : c.select (.globs (d.sourceToModno.map (fun x => (x.1, ch! "*")))) = .ok e)
    (h6 : mapE (fun x : Str × Nat => e.getDataCounts x.1 (ch! "image.data")) d.sourceToModno = .ok sers)
    (h7 : countValues sers = [d.framesPerTrain]) (h8 : trainsWithModules sers minModules ≠ [])
    (h9 : e.selectTrains (.idList ((trainsWithModules sers minModules).map Int.ofNat)) = .ok d.data) :
    Det.init kind c name modules minModules = .ok d := by
  have hlen := (invertDict_length_iff d.sourceToModno).2 h4
  obtain ⟨dn, s2m, fr, dat⟩ := d
  simp only at *
  unfold Det.init
  cases name with
  | some n =>
    obtain rfl := h1 n rfl
    simp only [h3, h5, h6, h7]
    rw [if_neg h8]
    simp only [h9]
    rw [if_neg (by simpa using hlen)]
  | none =>
    simp only [h2 rfl, h3, h5, h6, h7]
    rw [if_neg h8]
    simp only [h9]
    rw [if_neg (by simpa using hlen)]

theorem select_allSources_files {c e : DC V} {sel : SelArg} (he : c.select sel = .ok e) (hk : SameKeys c.files)
    (hl : ListsKeys c.files) : SameKeys e.files ∧ ListsKeys e.files := by
  obtain ⟨-, hf⟩ := select_listsKeys he
  exact ⟨fun f h1 g h2 => hk f (hf f h1) g (hf g h2), fun f h1 => hl f (hf f h1)⟩

/-- C132. The detector object of the files in another order is the same: same name, modules, frames per train and trains. -/
theorem detector_files_order {kind : Option Str} {c c' : DC V} {name : Option Str} {modules : Option (List Nat)} {minModules : Int}
    {d : Det V} (h : SameContents c c') (hk : SameKeys c.files) (hl : ListsKeys c.files)
    (hd : Det.init kind c name modules minModules = .ok d) :
    ∃ d', Det.init kind c' name modules minModules = .ok d' ∧ SameDetector d d' := by
  obtain ⟨g1, g2, g3, g4, e, sers, g5, g6, g7, g8, g9⟩ := init_ok hd
  obtain ⟨s2m, i1, i2⟩ := same_identifySources h g3
  obtain ⟨e1, i3, i4⟩ := same_select h hk hl g5
  obtain ⟨e2, i5, i6⟩ := select_globs_perm (i2.map (fun x : Str × Nat => (x.1, ch! "*"))) i3
  have hse : SameContents e e2 := sameContents_trans i4 i6
  have hec := (select_listsKeys g5).1
  have hek := (select_allSources_files g5 hk hl).1
  have g6' := mapE_congr_ok (g := fun x : Str × Nat => e2.getDataCounts x.1 (ch! "image.data"))
    (fun x _ y hy => same_counts hse hec hek hy) g6
  obtain ⟨sers', i7, i8⟩ := mapE_perm i2 g6'
  have htw := trainsWithModules_perm i8 minModules
  obtain ⟨dd, i9, i10⟩ := same_selectTrains hse g9
  rw [htw] at g8 i9
  refine ⟨⟨d.name, s2m, d.framesPerTrain, dd⟩, ?_, rfl, fun x => i2.mem_iff, rfl, i10⟩
  exact init_intro g1 (fun hn => same_detectorName h (g2 hn)) i1 ((i2.map Prod.snd).nodup_iff.1 g4) i5 i7
    (countValues_perm i8 g7) g8 i9

/-! ### Arrays -/

theorem init_files {kind : Option Str} {c : DC V} {name : Option Str} {modules : Option (List Nat)} {minModules : Int} {d : Det V}
    (h : Det.init kind c name modules minModules = .ok d) :
    NoConflict d.data.files ∧ d.data.trainIds.Pairwise (· < ·) ∧ ∀ f ∈ d.data.files, f ∈ c.files := by
  obtain ⟨-, -, -, -, e, sers, he, -, -, -, hd⟩ := init_ok h
  obtain ⟨h1, h2⟩ := select_listsKeys he
  obtain ⟨new, h3, h4⟩ := (selectTrains_ok_iff h1).1 hd
  have hids := select_trains_by_id_list e.trainIds ((trainsWithModules sers minModules).map Int.ofNat)
  have hex : ∃ t ∈ e.trainIds, (t : Int) ∈ (trainsWithModules sers minModules).map Int.ofNat := by
    by_contra hc
    have := hids.1.2 (fun t ht hti => hc ⟨t, ht, hti⟩)
    rw [this] at h3
    simp at h3
  obtain ⟨r, hr, hsort, hrm⟩ := hids.2 hex
  rw [hr] at h3
  obtain rfl := Except.ok.inj h3
  rw [h4]
  exact ⟨List.Pairwise.sublist List.filter_sublist h1, hsort,
    fun f hf => h2 f (List.mem_filter.1 hf).1⟩

theorem modules_eq {d d' : Det V} (h : SameDetector d d') (hn : (d.sourceToModno.map Prod.snd).Nodup)
    (hn' : (d'.sourceToModno.map Prod.snd).Nodup) : d.modules = d'.modules := by
  have hp : List.Perm d.sourceToModno d'.sourceToModno :=
    (List.perm_ext_iff_of_nodup (List.Nodup.of_map _ hn) (List.Nodup.of_map _ hn')).2 h.modules
  unfold Det.modules
  rw [(invertDict_full ((invertDict_length_iff _).2 hn)).2, (invertDict_full ((invertDict_length_iff _).2 hn')).2]
  refine sortBy_perm_eq (hp.map _) ?_
  rw [List.pairwise_map]
  have := List.pairwise_map.1 hn
  exact this

theorem chunk_empty {num : V → Nat} {source key : Str} {ps : Pulses} {chunk : List Nat} {f : FileAccess V} {a : PArr V}
    (h : ChunkSpec num source key ps chunk f a) (he : a.cells = []) : ∃ ds, f.dataset (ch! "INSTRUMENT") source key = .ok ds ∧
      a = ⟨[], [], squeezeShape ds.rowShape, []⟩ := by
  obtain ⟨ds, h1, h2⟩ := h.shape
  refine ⟨ds, h1, ?_⟩
  have h3 := h.trains
  have h4 := h.pulses
  obtain ⟨tr, pu, sh, ce⟩ := a
  simp only at *
  subst he
  rw [h2, h3, h4]
  rfl

theorem same_moduleData {d d' : Det V} (h : SameContents d.data d'.data) (hc : NoConflict d.data.files)
    (hT : d.data.trainIds.Pairwise (· < ·)) {num : V → Nat} {source key : Str} {ps : Pulses}
    (hv : RunsValid d.data d.data.trainIds source key)
    (hs : OneShape d.data.files source key) {a : PArr V} (ha : d.moduleData num source key ps = .ok a) :
    d'.moduleData num source key ps = .ok a := by
  have hn : d.data.trainIds.Nodup := hT.imp (fun {a b} h => Nat.ne_of_lt h)
  have fd : ∀ {f : FileAccess V} {as : List (PArr V)}, fileData num source key ps (trainChunks d.data.trainIds) f = .ok as →
      f ∈ d.data.files → Holds f source → ∀ a ∈ as, ∃ chunk ∈ trainChunks d.data.trainIds, ChunkSpec num source key ps chunk f a :=
    fun {f as} hfd h1 h2 => (fileData_runs hfd hn (hv f h1 h2).1.trains (fun ch hch => chunkField_of_run (hv f h1 h2).1 hT hch)
      (fun ch hch => chunkField_of_run (hv f h1 h2).2 hT hch)).1
  unfold Det.moduleData at ha ⊢
  rw [← h.trains]
  cases hm : mapE (fileData num source key ps (trainChunks d.data.trainIds)) (d.data.sourceIndex source) with
  | error e => simp [hm] at ha
  | ok l =>
    obtain ⟨l', hm', hp⟩ := mapE_perm (same_sourceIndex h source) hm
    simp only [hm] at ha
    simp only [hm']
    have hspec : ∀ as ∈ l, ∃ f, (f ∈ d.data.files ∧ Holds f source) ∧
        ∀ a ∈ as, ∃ chunk ∈ trainChunks d.data.trainIds, ChunkSpec num source key ps chunk f a := by
      intro as has
      obtain ⟨f, hf, hfd⟩ := (mapE_mem hm).1 has
      obtain ⟨hf1, hf2⟩ := mem_sourceIndex.1 hf
      exact ⟨f, ⟨hf1, hf2⟩, fd hfd hf1 hf2⟩
    have hpf : l.flatten.Perm l'.flatten := hp.flatten
    have hpe := hpf.filter (fun a : PArr V => !a.cells.isEmpty)
    by_cases hne : l.flatten.filter (fun a => !a.cells.isEmpty) = []
    · have hne' : l'.flatten.filter (fun a => !a.cells.isEmpty) = [] := by rw [hne] at hpe; exact hpe.symm.eq_nil
      rw [hne] at ha
      rw [hne']
      simp only at ha ⊢
      cases hl : l.flatten with
      | nil => rw [hl] at ha; simp at ha
      | cons x xs =>
        rw [hl] at ha
        obtain rfl := Except.ok.inj ha
        cases hl' : l'.flatten with
        | nil => rw [hl, hl'] at hpf; exact absurd hpf.symm.nil_eq (by simp)
        | cons y ys =>
          have hempty : ∀ z ∈ l.flatten, ∃ f, f ∈ d.data.files ∧ Holds f source ∧
              ∃ ds, f.dataset (ch! "INSTRUMENT") source key = .ok ds ∧ z = ⟨[], [], squeezeShape ds.rowShape, []⟩ := by
            intro z hz
            have hcz : z.cells = [] := by
              by_contra hcz
              have : z ∈ l.flatten.filter (fun a => !a.cells.isEmpty) := List.mem_filter.2 ⟨hz, by simpa using hcz⟩
              rw [hne] at this
              simp at this
            obtain ⟨as, has, hza⟩ := List.mem_flatten.1 hz
            obtain ⟨f, ⟨hf1, hf2⟩, hf3⟩ := hspec as has
            obtain ⟨chunk, -, hch⟩ := hf3 z hza
            exact ⟨f, hf1, hf2, chunk_empty hch hcz⟩
          obtain ⟨f, f1, f2, ds, f3, f4⟩ := hempty x (by rw [hl]; simp)
          obtain ⟨g, e1, e2, ds', e3, e4⟩ := hempty y (hpf.mem_iff.2 (by rw [hl']; simp))
          simp only
          rw [f4, e4, hs f f1 g e1 f2 e2 ds ds' f3 e3]
    · have hne' : l'.flatten.filter (fun a => !a.cells.isEmpty) ≠ [] := by
        intro hc'
        rw [hc'] at hpe
        exact hne hpe.eq_nil
      have e1 : concatTrains (l.flatten.filter (fun a => !a.cells.isEmpty)) = .ok a := by
        revert ha hne
        generalize l.flatten.filter (fun a : PArr V => !a.cells.isEmpty) = m
        intro ha hne
        cases m with
        | nil => exact absurd rfl hne
        | cons => exact ha
      have e2 : concatTrains (l'.flatten.filter (fun a => !a.cells.isEmpty)) = .ok a := by
        rw [← e1]
        unfold concatTrains
        have hsort : sortBy PArr.firstTrain (l'.flatten.filter (fun a => !a.cells.isEmpty)) =
            sortBy PArr.firstTrain (l.flatten.filter (fun a => !a.cells.isEmpty)) := by
          rw [List.filter_flatten, List.filter_flatten]
          refine (sortBy_blocks (hp.map _) ?_).symm
          rw [List.pairwise_map]
          have hcs : (d.data.sourceIndex source).Pairwise Compatible := List.Pairwise.sublist List.filter_sublist hc
          refine mapE_pairwise_of hcs hm ?_
          intro f hf g hg as bs hfg has hbs x hx y hy hxy
          obtain ⟨hf1, hf2⟩ := mem_sourceIndex.1 hf
          obtain ⟨hg1, hg2⟩ := mem_sourceIndex.1 hg
          have key : ∀ {f : FileAccess V} {as : List (PArr V)} {x : PArr V}, f ∈ d.data.files → Holds f source →
              fileData num source key ps (trainChunks d.data.trainIds) f = .ok as →
              x ∈ as.filter (fun a => !a.cells.isEmpty) → x.firstTrain ∈ f.trainIds := by
            intro f as x hf1 hf2 has hx
            obtain ⟨hx1, hx2⟩ := List.mem_filter.1 hx
            obtain ⟨chunk, -, hch⟩ := fd has hf1 hf2 x hx1
            refine (hch.mem_trains ?_).2
            unfold PArr.firstTrain
            cases ht : x.trains with
            | cons t ts => simp
            | nil =>
              rw [hch.trains] at ht
              cases hcells : x.cells with
              | nil => simp [hcells] at hx2
              | cons z zs =>
                have : z.1.1 ∈ sortedSet (x.cells.map (fun c => c.1.1)) := by
                  rw [mem_sortedSet, hcells]; simp
                rw [ht] at this
                simp at this
          have k1 := key hf1 hf2 has hx
          have k2 := key hg1 hg2 hbs hy
          rw [hxy] at k1
          exact hfg source y.firstTrain hf2 hg2 k1 k2
        rw [hsort]
      revert e2 hne'
      generalize l'.flatten.filter (fun a : PArr V => !a.cells.isEmpty) = m
      intro hne' e2
      cases m with
      | nil => exact absurd rfl hne'
      | cons => exact e2

/-- C132. `get_array` gives exactly the same array. -/
theorem detector_array_files_order {kind : Option Str} {c c' : DC V} {name : Option Str} {modules : Option (List Nat)} {minModules : Int}
    {d d' : Det V} (h : SameContents c c') (hk : SameKeys c.files) (hl : ListsKeys c.files)
    (hd : Det.init kind c name modules minModules = .ok d) (hd' : Det.init kind c' name modules minModules = .ok d')
    {libs : Libs} {num : V → Nat} {key : Str} {arg : PulseArg} {a : DetResult V}
    (hv : (∃ rest, key = ch! "image." ++ rest) →
      ∀ x ∈ d.sourceToModno, RunsValid c d.data.trainIds x.1 key ∧ OneShape c.files x.1 key)
    (ha : d.getArray libs num key arg = .ok a) : d'.getArray libs num key arg = .ok a := by
  obtain ⟨d2, hd2, hsame⟩ := detector_files_order h hk hl hd
  rw [hd'] at hd2
  obtain rfl := Except.ok.inj hd2
  have hmods := modules_eq hsame (init_ok hd).2.2.2.1 (init_ok hd').2.2.2.1
  obtain ⟨h1, h2, h3⟩ := init_files hd
  have hmem : ∀ x ∈ d.modules, (x.2, x.1) ∈ d.sourceToModno := by
    intro x hx
    unfold Det.modules at hx
    rw [(sortBy_perm _ _).mem_iff, (invertDict_full ((invertDict_length_iff _).2 (init_ok hd).2.2.2.1)).2, List.mem_map] at hx
    obtain ⟨y, hy, rfl⟩ := hx
    exact hy
  unfold Det.getArray at ha ⊢
  cases hp : checkPulses libs arg with
  | error e => simp [hp] at ha
  | ok ps =>
    simp only [hp] at ha ⊢
    rw [← hmods]
    by_cases hi : startsWith key (ch! "image.") = true
    · rw [if_pos hi] at ha ⊢
      cases hm : mapE (d.modulePart num key ps) d.modules with
      | error e => simp [hm] at ha
      | ok l =>
        have : mapE (d'.modulePart num key ps) d.modules = .ok l := by
          refine mapE_congr_ok (fun x hx y hy => ?_) hm
          obtain ⟨e1, e2⟩ := modulePart_ok hy
          have hx' := hmem x hx
          obtain ⟨hv1, hs⟩ := hv (startsWith_iff.1 hi) _ hx'
          have hvd : RunsValid d.data d.data.trainIds x.2 key := fun f hf => hv1 f (h3 f hf)
          have := same_moduleData hsame.data h1 h2 hvd (fun f hf g hg => hs f (h3 f hf) g (h3 g hg)) e2
          unfold Det.modulePart
          rw [this, ← e1]
        rw [this]
        simpa only [hm] using ha
    · rw [if_neg hi] at ha ⊢
      cases hm : mapE (d.slowPart key) d.modules with
      | error e => simp [hm] at ha
      | ok l =>
        have : mapE (d'.slowPart key) d.modules = .ok l := by
          refine mapE_congr_ok (fun x hx y hy => ?_) hm
          unfold Det.slowPart at hy ⊢
          cases hg : d.data.getArray x.2 key id with
          | error e => simp [hg] at hy
          | ok b =>
            rw [same_array hsame.data h1 (fun f hf g hg => hk f (h3 f hf) g (h3 g hg)) hg]
            simpa only [hg] using hy
        rw [this]
        simpa only [hm] using ha

/-! ### Iterating -/

theorem same_detPureKey {d d' : Det V} (h : SameContents d.data d'.data) (hc : NoConflict d.data.files) (libs : Libs) (num : V → Nat)
    (ps : Pulses) (t : Nat) : d.pureKey libs num ps t = d'.pureKey libs num ps t := by
  have : ∀ s k, d.pureFind s k t = d'.pureFind s k t := by
    intro s k
    unfold Det.pureFind
    rw [same_findData h hc]
  funext w
  unfold Det.pureKey
  rw [this]

theorem filter_tag_short {β : Type} {l : List (Str × β)} (h : (l.map Prod.fst).Nodup) (key : Str) :
    ¬ (l.filter (fun x => x.1 = key)).length > 1 := by
  induction l with
  | nil => simp
  | cons x l ih =>
    rw [List.map_cons, List.nodup_cons] at h
    by_cases hx : x.1 = key
    · rw [List.filter_cons_of_pos (by simpa using hx)]
      have : l.filter (fun x => x.1 = key) = [] := by
        rw [List.filter_eq_nil_iff]
        intro y hy hc
        apply h.1
        rw [hx]
        exact List.mem_map.2 ⟨y, hy, by simpa using hc⟩
      rw [this]
      simp
    · rw [List.filter_cons_of_neg (by simpa using hx)]
      exact ih h.2

/-- What is read of the keys of all modules, key by key. -/
theorem same_collected {d d' : Det V} (h : SameContents d.data d'.data) (hk : SameKeys d.data.files) (hl : ListsKeys d.data.files)
    (libs : Libs) (num : V → Nat) (ps : Pulses) (t : Nat) : ∀ (ms : List (Nat × Str)) {work : List (List (Nat × Str × Str))}
    {l : List (Option (Str × Nat × ModData V))}, mapE d.workOf ms = .ok work →
    mapE (d.pureKey libs num ps t) work.flatten = .ok l →
    ∃ work' l', mapE d'.workOf ms = .ok work' ∧ mapE (d.pureKey libs num ps t) work'.flatten = .ok l' ∧
      ∀ key, (l.filterMap id).filter (fun x => x.1 = key) = (l'.filterMap id).filter (fun x => x.1 = key) := by
  intro ms
  induction ms with
  | nil =>
    intro work l h1 h2
    obtain rfl := Except.ok.inj h1
    exact ⟨[], l, rfl, h2, fun _ => rfl⟩
  | cons x ms ih =>
    intro work l h1 h2
    obtain ⟨w, ws, h3, h4, rfl⟩ := mapE_cons_ok.1 h1
    rw [List.flatten_cons] at h2
    obtain ⟨l1, l2, h5, h6, rfl⟩ := mapE_append.1 h2
    obtain ⟨ws', l2', i1, i2, i3⟩ := ih h4 h6
    obtain ⟨ks, hks, rfl⟩ := workOf_ok h3
    obtain ⟨ks', hks', hkk⟩ := same_keys h hk hl hks
    have hp : ks.Perm ks' := (List.perm_ext_iff_of_nodup (keysForSource_nodup hks) (keysForSource_nodup hks')).2 hkk
    obtain ⟨l1', i4, i5⟩ := mapE_perm (hp.map (fun k => (x.1, x.2, k))) h5
    refine ⟨ks'.map (fun k => (x.1, x.2, k)) :: ws', l1' ++ l2', mapE_cons_ok.2 ⟨_, _, ?_, i1, rfl⟩, ?_, fun key => ?_⟩
    · unfold Det.workOf; rw [hks']
    · rw [List.flatten_cons]; exact mapE_append.2 ⟨l1', l2', i4, i2, rfl⟩
    · rw [List.filterMap_append, List.filterMap_append, List.filter_append, List.filter_append, i3]
      congr 1
      refine perm_short ((i5.filterMap id).filter _) (filter_tag_short ?_ key)
      have hsub := (collected_sublist h5).map Prod.fst
      rw [List.map_map, List.map_map, List.map_map] at hsub
      refine List.Nodup.sublist hsub ?_
      refine (keysForSource_nodup hks).map (fun a b hab => ?_)
      exact hab

theorem joinKey_congr {items items' : List (Str × Nat × ModData V)} {key : Str}
    (h : items.filter (fun x => x.1 = key) = items'.filter (fun x => x.1 = key)) : joinKey items key = joinKey items' key := by
  unfold joinKey
  rw [h]

theorem same_detAssemble {d d' : Det V} (h : SameContents d.data d'.data) (hm : d.modules = d'.modules) (hc : NoConflict d.data.files)
    (hk : SameKeys d.data.files) (hl : ListsKeys d.data.files) {libs : Libs} {num : V → Nat} {ps : Pulses} {t : Nat}
    {x : Dict Str (IterVal V)} (hx : d.pureAssemble libs num ps t = .ok x) :
    ∃ x', d'.pureAssemble libs num ps t = .ok x' ∧ ∀ key, x.get? key = x'.get? key := by
  unfold Det.pureAssemble at hx ⊢
  rw [← hm, ← same_detPureKey h hc]
  cases hw : mapE d.workOf d.modules with
  | error e => simp [hw] at hx
  | ok work =>
    simp only [hw] at hx
    cases hl' : mapE (d.pureKey libs num ps t) work.flatten with
    | error e => simp [hl'] at hx
    | ok l =>
      simp only [hl'] at hx
      obtain ⟨work', l', h1, h2, h3⟩ := same_collected h hk hl libs num ps t _ hw hl'
      simp only [h1, h2]
      generalize l.filterMap id = items at hx h3
      generalize l'.filterMap id = items' at h3
      have hj : joinKey items = joinKey items' := funext fun key => joinKey_congr (h3 key)
      have hmem : ∀ {a b : List (Str × Nat × ModData V)}, (∀ key, a.filter (fun x => x.1 = key) = b.filter (fun x => x.1 = key)) →
          ∀ k, k ∈ (a.map Prod.fst).dedup → k ∈ (b.map Prod.fst).dedup := by
        intro a b hab k hk
        rw [List.mem_dedup, List.mem_map] at hk ⊢
        obtain ⟨y, hy, rfl⟩ := hk
        have : y ∈ a.filter (fun x => x.1 = y.1) := List.mem_filter.2 ⟨hy, by simp⟩
        rw [hab] at this
        exact ⟨y, (List.mem_filter.1 this).1, rfl⟩
      have hp : (items.map Prod.fst).dedup.Perm (items'.map Prod.fst).dedup :=
        (List.perm_ext_iff_of_nodup (List.nodup_dedup _) (List.nodup_dedup _)).2
          (fun k => ⟨hmem h3 k, hmem (fun key => (h3 key).symm) k⟩)
      obtain ⟨x', e1, e2⟩ := mapE_perm hp hx
      rw [← hj]
      refine ⟨x', e1, get?_of_mem_iff (fun y => e2.mem_iff) ?_⟩
      intro k v w hv hw
      obtain ⟨k1, -, f1⟩ := (mapE_mem hx).1 hv
      obtain ⟨k2, -, f2⟩ := (mapE_mem hx).1 hw
      obtain rfl : k = k1 := joinKey_fst f1
      obtain rfl : k = k2 := joinKey_fst f2
      rw [f1] at f2
      exact (Prod.mk.inj (Except.ok.inj f2)).2.symm

/-- C132. Iterating gives the same trains, and for each the same keys with exactly the same arrays. -/
theorem detector_trains_files_order {kind : Option Str} {c c' : DC V} {name : Option Str} {modules : Option (List Nat)} {minModules : Int}
    {d d' : Det V} (h : SameContents c c') (hk : SameKeys c.files) (hl : ListsKeys c.files)
    (hd : Det.init kind c name modules minModules = .ok d) (hd' : Det.init kind c' name modules minModules = .ok d')
    (hg : GoodData d.data) {libs : Libs} {num : V → Nat} {arg : PulseArg} {l : List (Nat × Dict Str (IterVal V))}
    (hi : d.trains libs num arg = .ok l) :
    ∃ l', d'.trains libs num arg = .ok l' ∧
      List.Forall₂ (fun x y => x.1 = y.1 ∧ ∀ key, x.2.get? key = y.2.get? key) l l' := by
  obtain ⟨d2, hd2, hsame⟩ := detector_files_order h hk hl hd
  rw [hd'] at hd2
  obtain rfl := Except.ok.inj hd2
  have hmods := modules_eq hsame (init_ok hd).2.2.2.1 (init_ok hd').2.2.2.1
  obtain ⟨h1, h2, h3⟩ := init_files hd
  have hs := hsame.data
  have hcd : NoConflict d'.data.files := (noConflict_perm hs.files).1 h1
  have hk' : SameKeys d.data.files := fun f hf g hg => hk f (h3 f hf) g (h3 g hg)
  have hl' : ListsKeys d.data.files := fun f hf => hl f (h3 f hf)
  unfold Det.trains at hi ⊢
  cases hp : checkPulses libs arg with
  | error e => simp [hp] at hi
  | ok ps =>
    simp only [hp] at hi ⊢
    rw [detIterate_pure h1 libs num ps _ _ (fun s k f ds h => by simp at h)] at hi
    rw [detIterate_pure hcd libs num ps _ _ (fun s k f ds h => by simp at h), ← hs.trains]
    have hmiss : ∀ t, d.data.checkDataMissing t = d'.data.checkDataMissing t := by
      intro t
      rw [checkDataMissing_good h1 hg, checkDataMissing_good hcd (same_goodData hs hk' hl' hg)]
      have : Complete d.data t ↔ Complete d'.data t :=
        ⟨same_complete hs hk' t, same_complete (sameContents_symm hs) (sameKeys_perm hs.files hk') t⟩
      by_cases hcm : Complete d.data t
      · simp [hcm, this.1 hcm]
      · simp [hcm, mt this.2 hcm]
    have hstep : ∀ t o, d.pureStep libs num ps t = .ok o → ∃ o', d'.pureStep libs num ps t = .ok o' ∧
        ((o = none ∧ o' = none) ∨ ∃ m m', o = some (t, m) ∧ o' = some (t, m') ∧ ∀ key, m.get? key = m'.get? key) := by
      intro t o ho
      unfold Det.pureStep at ho ⊢
      rw [← hmiss t]
      split at ho
      · simp at ho
      · obtain rfl := Except.ok.inj ho; exact ⟨none, rfl, .inl ⟨rfl, rfl⟩⟩
      · cases hpa : d.pureAssemble libs num ps t with
        | error e => simp [hpa] at ho
        | ok m =>
          simp only [hpa] at ho
          obtain rfl := Except.ok.inj ho
          obtain ⟨m', h1, h2⟩ := same_detAssemble hs hmods h1 hk' hl' hpa
          exact ⟨some (t, m'), by rw [h1], .inr ⟨m, m', rfl, rfl, h2⟩⟩
    have hall : ∀ ts items, mapE (d.pureStep libs num ps) ts = .ok items → ∃ items', mapE (d'.pureStep libs num ps) ts = .ok items' ∧
        List.Forall₂ (fun x y => x.1 = y.1 ∧ ∀ key, x.2.get? key = y.2.get? key) (items.filterMap id) (items'.filterMap id) := by
      intro ts
      induction ts with
      | nil => intro items hi; obtain rfl := Except.ok.inj hi; exact ⟨[], rfl, .nil⟩
      | cons t ts ih =>
        intro items hi
        obtain ⟨b, bs, h1, h2, rfl⟩ := mapE_cons_ok.1 hi
        obtain ⟨bs', h3, h4⟩ := ih bs h2
        obtain ⟨o', h5, h6⟩ := hstep t b h1
        refine ⟨o' :: bs', mapE_cons_ok.2 ⟨o', bs', h5, h3, rfl⟩, ?_⟩
        rcases h6 with ⟨rfl, rfl⟩ | ⟨m, m', rfl, rfl, h7⟩
        · exact h4
        · exact .cons ⟨rfl, h7⟩ h4
    cases hm2 : mapE (d.pureStep libs num ps) d.data.trainIds with
    | error e => simp [hm2, Except.map] at hi
    | ok items =>
      simp only [hm2, Except.map] at hi
      obtain rfl := Except.ok.inj hi
      obtain ⟨items', e1, e2⟩ := hall _ _ hm2
      exact ⟨_, by rw [e1]; rfl, e2⟩

end KD

namespace KD
open Spec

/-! ### Examples -/

/-- The collection `exDetData` with the files the other way round. -/
def exDetRev : DC Nat := { exDetData with files := exDetData.files.reverse, selection := exDetData.selection.reverse }

theorem exDetRev_same : SameContents exDetData exDetRev := by
  refine ⟨(List.reverse_perm _).symm, rfl, fun s => ?_⟩
  have e1 : exDetData.selection.get? s = if exSource '3' = s then some none else if exSource '0' = s then some none else none := by
    show Dict.get? [(exSource '3', none), (exSource '0', none)] s = _
    rw [Dict.get?_cons, Dict.get?_cons, Dict.get?_nil]
  have e2 : exDetRev.selection.get? s = if exSource '0' = s then some none else if exSource '3' = s then some none else none := by
    show Dict.get? [(exSource '0', none), (exSource '3', none)] s = _
    rw [Dict.get?_cons, Dict.get?_cons, Dict.get?_nil]
  rw [e1, e2]
  by_cases h1 : exSource '3' = s
  · subst h1; exact .allKeys
  · by_cases h2 : exSource '0' = s
    · subst h2; exact .allKeys
    · rw [if_neg h1, if_neg h2, if_neg h2, if_neg h1]; exact .absent

theorem exDetData_keys : SameKeys exDetData.files ∧ ListsKeys exDetData.files := by
  have hk : ∀ f ∈ exDetData.files, ∀ s, Holds f s →
      f.getKeys s = .ok [ch! "image.pulseId", ch! "image.data", ch! "image.cellId"] := by
    intro f hf s hs
    have : ∀ f ∈ exDetData.files, ∀ s ∈ f.controlSources ++ f.instrumentSources,
      f.getKeys s = .ok [ch! "image.pulseId", ch! "image.data", ch! "image.cellId"] := by decide
    exact this f hf s (List.mem_append.2 hs)
  refine ⟨fun f hf g hg s h1 h2 k => ?_, fun f hf s h => ⟨_, hk f hf s h⟩⟩
  unfold FileHasKey
  rw [hk f hf s h1, hk g hg s h2]

/-- The example meets the hypotheses: the detector object of the files in the other order, which lists its modules in another order,
gives the same array and the same when iterating. -/
example : ∃ d', Det.init (some (ch! "_AGIPD1M")) exDetRev none none 1 = .ok d' ∧ d'.sourceToModno ≠ exDet.sourceToModno ∧
    d'.getArray ⟨true, true⟩ id (ch! "image.data") (.by_ true (.list [7])) = .ok (.pulses ⟨[0, 3], [10, 11, 12], [7], [2, 2],
      [(0, [((10, 7), 201), ((11, 7), 211), ((12, 7), 221)]), (3, [((10, 7), 101), ((11, 7), 111)])]⟩) ∧
    ∃ l', d'.trains ⟨true, true⟩ id (.by_ true (.slice (.int 5) .none .none)) = .ok l' ∧ l'.map Prod.fst = [10, 11] := by
  obtain ⟨hk, hl⟩ := exDetData_keys
  obtain ⟨d', h1, h2⟩ := detector_files_order exDetRev_same hk hl exDet_init
  refine ⟨d', h1, ?_, ?_, ?_⟩
  · have : (identifySources exDetRev (ch! "X_AGIPD1M-1") none) = .ok [(exSource '0', 0), (exSource '3', 3)] := by decide
    have h3 := (init_ok h1).2.2.1
    rw [← h2.name, show exDet.name = ch! "X_AGIPD1M-1" from rfl, this] at h3
    rw [← Except.ok.inj h3]
    decide
  · refine detector_array_files_order exDetRev_same hk hl exDet_init h1 (fun _ x hx => ⟨runsValid_of_valid (exDet_valid.2.1 x hx), ?_⟩) exDet_array.1
    intro f hf g hg hhf hhg a b ha hb
    obtain ⟨-, -, -, shape, -, hsh⟩ := exDet_keys (k := ch! "image.data") (Or.inl rfl)
    rw [hsh x hx f hf hhf a ha, hsh x hx g hg hhg b hb]
  · have he := exDet_iterate.1
    cases ht : exDet.trains ⟨true, true⟩ id (.by_ true (.slice (.int 5) .none .none)) with
    | error e => rw [ht] at he; simp [Except.map] at he
    | ok l =>
      rw [ht] at he
      obtain ⟨l', i1, i2⟩ := detector_trains_files_order exDetRev_same hk hl exDet_init h1 exDet_good ht
      refine ⟨l', i1, ?_⟩
      rw [← Except.ok.inj he]
      clear i1 he ht
      induction i2 with
      | nil => rfl
      | cons hxy _ ih => simp only [List.map_cons, ih, hxy.1]

/-- One module in two files, where images have different shapes. -/
def exShapes (rows : List (FileAccess Nat)) : DC Nat where
  files := rows
  selection := [(exSource '0', none)]
  trainIds := [10, 11]
  ctxCloses := true

/-- A file with images of 3 times 3 pixels. -/
def exLarge : FileAccess Nat :=
  let f := exModule '0' [11] [0] [1] [7] [210]
  { f with file := { f.file with datasets := f.file.datasets.map (fun x => (x.1, { x.2 with rowShape := if x.2.rowShape = [] then [] else [3, 3] })) } }

set_option maxRecDepth 20000 in
/-- C132. Where the files do not agree on the shape of images, an array without any frame has the shape in the first file. -/
theorem detector_shape_order_wrong :
    let small := exModule '0' [10] [0] [1] [5] [200]
    let shape := fun files => (Det.init none (exShapes files) none none 1).map (fun d =>
      d.getArray ⟨true, true⟩ id (ch! "image.data") (.by_ true (.int 6)))
    shape [small, exLarge] = .ok (.ok (.pulses ⟨[0], [], [], [2, 2], [(0, [])]⟩)) ∧
    shape [exLarge, small] = .ok (.ok (.pulses ⟨[0], [], [], [3, 3], [(0, [])]⟩)) := by
  decide

end KD
