/-
C151: paths and axes in CXI files.
-/
import Verif.Props.Cxi
import Verif.Spec.CxiTree

namespace KD

open Spec

variable {V W : Type}

theorem mapLoop_cols {ix : Dict Nat Nat} {perFrame : List Nat} {b : Bool} {data : List W} {col : Nat} :
    ∀ (fuel start : Nat) (ts : List Nat) (g g' : Grid W), mapLoop ix perFrame b data col fuel start ts g = .ok g' →
      g'.cols = g.cols := by
  intro fuel
  induction fuel with
  | zero =>
    intro start ts g g' h
    cases ts with
    | nil => unfold mapLoop at h; rw [Except.ok.inj h]
    | cons t ts => simp [mapLoop] at h
  | succ fuel ih =>
    intro start ts g g' h
    cases ts with
    | nil => unfold mapLoop at h; rw [Except.ok.inj h]
    | cons t ts =>
      unfold mapLoop at h
      split at h
      · simp at h
      · simp only at h
        split at h
        · simp at h
        · split at h
          · simp at h
          · split at h
            · simp at h
            · rename_i g1 hg1
              rw [ih _ _ _ _ h]
              unfold Grid.assign at hg1
              repeat' split at hg1
              all_goals first
                | simp at hg1; done
                | (obtain rfl := Except.ok.inj hg1; rfl)

theorem mapSource_cols {d : Det V} {b : Bool} {key : Str} {conv : Dataset V → R (List W)} {g g' : Grid W} {x : Str × Nat}
    (h : mapSource d b key conv g x = .ok g') : g'.cols = g.cols := by
  unfold mapSource at h
  split at h
  · simp at h
  · rename_i chunks _
    refine foldE_keep (P := fun g' => g'.cols = g.cols) ?_ chunks g g' rfl h
    intro s ch s' hs hs'
    split at hs'
    · simp at hs'
    · split at hs'
      · split at hs'
        · obtain rfl := Except.ok.inj hs'; exact hs
        · simp at hs'
      · unfold mapChunk at hs'
        split at hs'
        · simp at hs'
        · rw [mapLoop_cols _ _ _ _ _ hs', hs]

/-- All virtual datasets have a row for each frame and a column for each of the 16 modules. -/
theorem layout_size {d : Det V} {num : V → Nat} {moduleShape : List Nat} {x : Cxi V} (hx : d.writeVirtualCxi num moduleShape = .ok x)
    {l : Layout V} (hl : l ∈ x.layouts) : l.grid.rows = d.nframes ∧ l.grid.cols = 16 := by
  obtain ⟨source, m, rest, f, fs, shapes, l0, ls, hpi, hs, hfs, hsh, hls, -⟩ := writeVirtualCxi_ok hx
  obtain ⟨y, hy, hly⟩ := (mapE_mem hls).1 hl
  obtain ⟨-, -, e3⟩ := layout_ok hly
  unfold Det.collectLayout at e3
  exact ⟨foldE_keep (P := fun g : Grid (Option V) => g.rows = d.nframes) (fun s a s' hs hs' => by rw [mapSource_rows hs', hs]) _ _ _ rfl e3,
    foldE_keep (P := fun g : Grid (Option V) => g.cols = 16) (fun s a s' hs hs' => by rw [mapSource_cols hs', hs]) _ _ _ rfl e3⟩

/-! ### Paths -/

theorem objAt_append (a b : List (CxiObj V)) (p : List Str) : objAt (a ++ b) p = (objAt a p).or (objAt b p) := by
  unfold objAt; rw [List.find?_append]

theorem objAt_layout (x : Cxi V) (name : Str) (path : List Str) (axes : Str) (p : List Str) :
    objAt (layoutObj x name path axes) p =
      if path = p then (x.layout? name).map (fun l => ⟨path, .layout l, some axes⟩) else none := by
  unfold layoutObj objAt
  cases x.layout? name with
  | none => simp
  | some l => by_cases h : path = p <;> simp [h]

theorem objAt_gain (x : Cxi V) (p : List Str) :
    objAt (gainObjs x) p = if entryPath (ch! "data_gain") = p then x.dataGain.map (fun l => ⟨entryPath (ch! "data_gain"), .strings l, none⟩)
      else if detectorPath (ch! "data_gain") = p then
        x.dataGain.map (fun _ => ⟨detectorPath (ch! "data_gain"), .link (entryPath (ch! "data_gain")), none⟩) else none := by
  unfold gainObjs objAt
  cases x.dataGain with
  | none => simp
  | some l =>
    by_cases h : entryPath (ch! "data_gain") = p
    · simp [h]
    · by_cases h2 : detectorPath (ch! "data_gain") = p
      · have : (entryPath (ch! "data_gain") == p) = false := by simpa using h
        simp [this, h, h2]
      · simp [h, h2]

theorem objAt_cons (o : CxiObj V) (b : List (CxiObj V)) (p : List Str) : objAt (o :: b) p = if o.path = p then some o else objAt b p := by
  unfold objAt
  by_cases h : o.path = p <;> simp [h]

theorem objAt_nil (p : List Str) : objAt ([] : List (CxiObj V)) p = none := rfl

/-- What is directly below `entry_1/instrument_1/detector_1`. -/
theorem objAt_detector (x : Cxi V) (n : Str) : objAt (cxiTree x) (detectorPath n) =
    if n = ch! "data_gain" then x.dataGain.map (fun _ => ⟨detectorPath (ch! "data_gain"), .link (entryPath (ch! "data_gain")), none⟩)
    else if n = ch! "data" then (x.layout? n).map (fun l => ⟨detectorPath n, .layout l, some (axesOf x)⟩)
    else if n = ch! "gain" then (x.layout? n).map (fun l => ⟨detectorPath n, .layout l, some (axesOf x)⟩)
    else if n = ch! "mask" then (x.layout? n).map (fun l => ⟨detectorPath n, .layout l, some (axesOf x)⟩)
    else if n = ch! "experiment_identifier" then some ⟨detectorPath n, .link (entryPath n), none⟩
    else if n = ch! "module_identifier" then some ⟨detectorPath n, .numbers x.modules, none⟩
    else none := by
  unfold cxiTree
  simp only [objAt_append, objAt_cons, objAt_nil, objAt_layout, objAt_gain, detectorPath, entryPath]
  by_cases h1 : n = ch! "data_gain"
  · subst h1; simp
  by_cases h2 : n = ch! "data"
  · subst h2; simp
  by_cases h3 : n = ch! "gain"
  · subst h3; simp
  by_cases h4 : n = ch! "mask"
  · subst h4; simp
  by_cases h5 : n = ch! "experiment_identifier"
  · subst h5; simp
  by_cases h6 : n = ch! "module_identifier"
  · subst h6; simp
  have : ∀ {a b : Str}, a ≠ b → ¬ b = a := fun h h' => h h'.symm
  simp [h1, h2, h3, h4, h5, h6, this h1, this h2, this h3, this h4, this h5, this h6]

/-- What is directly below `entry_1`. -/
theorem objAt_entry (x : Cxi V) (n : Str) : objAt (cxiTree x) (entryPath n) =
    if n = ch! "experiment_identifier" then some ⟨entryPath n, .strings x.experimentIds, none⟩
    else if n = ch! "pulseId" then some ⟨entryPath n, .numbers x.pulseIds, none⟩
    else if n = ch! "trainId" then some ⟨entryPath n, .numbers x.trainIds, none⟩
    else if n = ch! "cellId" then (x.layout? n).map (fun l => ⟨entryPath n, .layout l, some (ch! "experiment_identifier:module_identifier")⟩)
    else if n = ch! "data_gain" then x.dataGain.map (fun l => ⟨entryPath n, .strings l, none⟩)
    else if n = ch! "data_1" then some ⟨entryPath n, .link [ch! "entry_1", ch! "instrument_1", ch! "detector_1"], none⟩
    else none := by
  unfold cxiTree
  simp only [objAt_append, objAt_cons, objAt_nil, objAt_layout, objAt_gain, detectorPath, entryPath]
  by_cases h1 : n = ch! "experiment_identifier"
  · subst h1; simp
  by_cases h2 : n = ch! "pulseId"
  · subst h2; simp
  by_cases h3 : n = ch! "trainId"
  · subst h3; simp
  by_cases h4 : n = ch! "cellId"
  · subst h4; simp
  by_cases h5 : n = ch! "data_gain"
  · subst h5; simp
  by_cases h6 : n = ch! "data_1"
  · subst h6; simp
  have : ∀ {a b : Str}, a ≠ b → ¬ b = a := fun h h' => h h'.symm
  simp [h1, h2, h3, h4, h5, h6, this h1, this h2, this h3, this h4, this h5, this h6]

theorem objAt_groups (x : Cxi V) : objAt (cxiTree x) [ch! "entry_1"] = none ∧
    objAt (cxiTree x) [ch! "entry_1", ch! "instrument_1", ch! "detector_1"] =
      some ⟨[ch! "entry_1", ch! "instrument_1", ch! "detector_1"], .group, none⟩ := by
  unfold cxiTree
  simp only [objAt_append, objAt_cons, objAt_nil, objAt_layout, objAt_gain, detectorPath, entryPath]
  simp

theorem resolve_plain {t : List (CxiObj V)} {k : Nat} {here : List Str} {n : Str} {rest : List Str}
    (h : ∀ o, objAt t (here ++ [n]) = some o → ∀ target, o.node ≠ .link target) :
    resolve t k here (n :: rest) = resolve t k (here ++ [n]) rest := by
  rw [resolve]
  split
  · rename_i heq
    exact absurd rfl (h _ heq _)
  · rfl

theorem resolve_link {t : List (CxiObj V)} {k : Nat} {here : List Str} {n : Str} {rest p target : List Str} {a : Option Str}
    (h : objAt t (here ++ [n]) = some ⟨p, .link target, a⟩) :
    resolve t (k + 1) here (n :: rest) = resolve t k [] (target ++ rest) := by
  rw [resolve, h]

theorem resolve_end (t : List (CxiObj V)) (k : Nat) (here : List Str) : resolve t k here [] = some here := by
  rw [resolve]

/-- Objects below `entry_1` which are no links. -/
theorem open_entry (x : Cxi V) (k : Nat) {n : Str} (hn : n ≠ ch! "data_1") :
    resolve (cxiTree x) k [] (entryPath n) = some (entryPath n) := by
  unfold entryPath
  rw [resolve_plain (by simp [(objAt_groups x).1]), resolve_plain, resolve_end]
  · rfl
  · intro o ho target
    rw [show [] ++ [ch! "entry_1"] ++ [n] = entryPath n from rfl, objAt_entry] at ho
    simp only [hn, if_false] at ho
    repeat' split at ho
    all_goals first
      | (obtain rfl := Option.some.inj ho; simp)
      | (simp at ho; done)
      | (obtain ⟨l, -, rfl⟩ := Option.map_eq_some_iff.1 ho; simp)

/-- Going to the group of the detector. -/
theorem resolve_detector (x : Cxi V) (k : Nat) (rest : List Str) :
    resolve (cxiTree x) k [] ([ch! "entry_1", ch! "instrument_1", ch! "detector_1"] ++ rest) =
      resolve (cxiTree x) k [ch! "entry_1", ch! "instrument_1", ch! "detector_1"] rest := by
  have hi : objAt (cxiTree x) [ch! "entry_1", ch! "instrument_1"] = none := by
    rw [show [ch! "entry_1", ch! "instrument_1"] = entryPath (ch! "instrument_1") from rfl, objAt_entry]
    simp
  simp only [List.cons_append, List.nil_append]
  rw [resolve_plain (by simp [(objAt_groups x).1])]
  simp only [List.nil_append]
  rw [resolve_plain (by simp [hi])]
  simp only [List.cons_append, List.nil_append]
  rw [resolve_plain]
  · rfl
  · simp only [List.cons_append, List.nil_append]
    rw [(objAt_groups x).2]
    intro o ho
    obtain rfl := Option.some.inj ho
    simp

/-- What is found below the detector. -/
theorem open_detector (x : Cxi V) (k : Nat) (n : Str) :
    resolve (cxiTree x) (k + 1) [] (detectorPath n) =
      some (if n = ch! "experiment_identifier" ∨ (n = ch! "data_gain" ∧ x.dataGain ≠ none) then entryPath n else detectorPath n) := by
  rw [show detectorPath n = [ch! "entry_1", ch! "instrument_1", ch! "detector_1"] ++ [n] from rfl, resolve_detector]
  have ho := objAt_detector x n
  by_cases h1 : n = ch! "experiment_identifier"
  · subst h1
    simp only [if_true, true_or] at ho ⊢
    rw [resolve_link (p := _) (target := entryPath (ch! "experiment_identifier")) (a := none) ho, List.append_nil, open_entry x k (by decide)]
  by_cases h2 : n = ch! "data_gain" ∧ x.dataGain ≠ none
  · obtain ⟨rfl, h2⟩ := h2
    cases hg : x.dataGain with
    | none => exact absurd hg h2
    | some l =>
      rw [if_pos rfl, hg] at ho
      rw [if_pos (.inr ⟨rfl, by simp⟩), resolve_link ho, List.append_nil, open_entry x k (by decide)]
  rw [if_neg (by tauto), resolve_plain, resolve_end]
  intro o h target
  rw [show [ch! "entry_1", ch! "instrument_1", ch! "detector_1"] ++ [n] = detectorPath n from rfl, ho] at h
  repeat' split at h
  · rename_i hn
    have : x.dataGain = none := by
      by_contra hc
      exact h2 ⟨hn, hc⟩
    rw [this] at h
    simp at h
  all_goals first
    | (exact absurd (by assumption) h1)
    | (obtain rfl := Option.some.inj h; simp)
    | (simp at h; done)
    | (obtain ⟨l, -, rfl⟩ := Option.map_eq_some_iff.1 h; simp)

/-- C151. Everything below `entry_1/instrument_1/detector_1` is found below `entry_1/data_1`, and nothing else is. -/
theorem cxi_data_link (x : Cxi V) (n : Str) : nextToFrames (cxiTree x) n = openPath (cxiTree x) (detectorPath n) := by
  unfold nextToFrames openPath
  have : resolve (cxiTree x) 16 [] [ch! "entry_1", ch! "data_1", n] = resolve (cxiTree x) 15 [] (detectorPath n) := by
    rw [resolve_plain (by simp [(objAt_groups x).1])]
    have hl := objAt_entry x (ch! "data_1")
    rw [if_neg (by decide), if_neg (by decide), if_neg (by decide), if_neg (by decide), if_neg (by decide), if_pos rfl] at hl
    rw [resolve_link hl]
    rfl
  rw [this, open_detector x 14 n, open_detector x 15 n]

theorem layout?_eq {x : Cxi V} (hn : (x.layouts.map Layout.name).Nodup) {l : Layout V} (hl : l ∈ x.layouts) : x.layout? l.name = some l := by
  unfold Cxi.layout?
  cases hf : x.layouts.find? (fun l' => l'.name == l.name) with
  | none =>
    have := List.find?_eq_none.1 hf l hl
    simp at this
  | some l' =>
    have h1 := List.find?_some hf
    have h2 := List.mem_of_find?_eq_some hf
    rw [List.inj_on_of_nodup_map hn h2 hl (by simpa using h1)]

theorem next_experiment (x : Cxi V) : nextToFrames (cxiTree x) (ch! "experiment_identifier") =
    some ⟨entryPath (ch! "experiment_identifier"), .strings x.experimentIds, none⟩ := by
  rw [cxi_data_link]
  unfold openPath
  rw [open_detector x 15, if_pos (.inl rfl)]
  simp only [objAt_entry, if_true]

theorem next_gain {x : Cxi V} {l : List Str} (h : x.dataGain = some l) : nextToFrames (cxiTree x) (ch! "data_gain") =
    some ⟨entryPath (ch! "data_gain"), .strings l, none⟩ := by
  rw [cxi_data_link]
  unfold openPath
  rw [open_detector x 15, if_pos (.inr ⟨rfl, by simp [h]⟩)]
  simp [objAt_entry, h]

theorem next_other (x : Cxi V) {n : Str} (h1 : n ≠ ch! "experiment_identifier") (h2 : n ≠ ch! "data_gain") :
    nextToFrames (cxiTree x) n = objAt (cxiTree x) (detectorPath n) := by
  rw [cxi_data_link]
  unfold openPath
  rw [open_detector x 15, if_neg (by tauto)]

theorem axes_flat {F : Str → Option (CxiObj V)} {dims : List Nat} {o : CxiObj V} {k : Nat} (h0 : F (ch! "experiment_identifier") = some o)
    (hk : labelCount o.node = some k) (hd : dims[0]? = some k) (hy : F (ch! "y") = none) (hx : F (ch! "x") = none) (i : Nat) (n : Str)
    (hi : [ch! "experiment_identifier", ch! "module_identifier", ch! "y", ch! "x"][i]? = some n) (hn : n ≠ ch! "module_identifier") :
    ((n = ch! "y" ∨ n = ch! "x") ∧ F n = none) ∨ ∃ o k, F n = some o ∧ labelCount o.node = some k ∧ dims[i]? = some k := by
  match i, hi with
  | 0, hi => rw [← Option.some.inj hi]; exact .inr ⟨o, k, h0, hk, hd⟩
  | 1, hi => exact absurd (Option.some.inj hi).symm hn
  | 2, hi => rw [← Option.some.inj hi]; exact .inl ⟨.inl rfl, hy⟩
  | 3, hi => rw [← Option.some.inj hi]; exact .inl ⟨.inr rfl, hx⟩
  | i + 4, hi => simp at hi

theorem axes_stages {F : Str → Option (CxiObj V)} {dims : List Nat} {o o' : CxiObj V} {k k' : Nat}
    (h0 : F (ch! "experiment_identifier") = some o) (hk : labelCount o.node = some k) (hd : dims[0]? = some k)
    (h2 : F (ch! "data_gain") = some o') (hk' : labelCount o'.node = some k') (hd' : dims[2]? = some k')
    (hy : F (ch! "y") = none) (hx : F (ch! "x") = none) (i : Nat) (n : Str)
    (hi : [ch! "experiment_identifier", ch! "module_identifier", ch! "data_gain", ch! "y", ch! "x"][i]? = some n)
    (hn : n ≠ ch! "module_identifier") :
    ((n = ch! "y" ∨ n = ch! "x") ∧ F n = none) ∨ ∃ o k, F n = some o ∧ labelCount o.node = some k ∧ dims[i]? = some k := by
  match i, hi with
  | 0, hi => rw [← Option.some.inj hi]; exact .inr ⟨o, k, h0, hk, hd⟩
  | 1, hi => exact absurd (Option.some.inj hi).symm hn
  | 2, hi => rw [← Option.some.inj hi]; exact .inr ⟨o', k', h2, hk', hd'⟩
  | 3, hi => rw [← Option.some.inj hi]; exact .inl ⟨.inl rfl, hy⟩
  | 4, hi => rw [← Option.some.inj hi]; exact .inl ⟨.inr rfl, hx⟩
  | i + 5, hi => simp at hi

theorem axes_names : AxisNames (ch! "experiment_identifier:module_identifier:y:x")
      [ch! "experiment_identifier", ch! "module_identifier", ch! "y", ch! "x"] ∧
    AxisNames (ch! "experiment_identifier:module_identifier:data_gain:y:x")
      [ch! "experiment_identifier", ch! "module_identifier", ch! "data_gain", ch! "y", ch! "x"] := by
  unfold AxisNames
  decide

theorem gain_stages {d : Det V} {num : V → Nat} {moduleShape : List Nat} {x : Cxi V} (hx : d.writeVirtualCxi num moduleShape = .ok x)
    (hms : moduleShape.length = 2) {l : Layout V} (hl : l ∈ x.layouts) (hn : l.name ≠ ch! "cellId")
    (hdim : l.rowShape.length = 2 ∨ l.rowShape.length = 3) :
    (l.rowShape.length = 2 ∧ x.dataGain = none) ∨ ∃ n a b g, l.rowShape = [n, a, b] ∧ x.dataGain = some g ∧ g.length = n := by
  obtain ⟨source, m, f, -, -, -, hnames, hnd, hsh⟩ := cxi_datasets hx
  obtain ⟨m1, m2, m3, m4, m5⟩ := hsh l hl
  by_cases hg : HasImageKey f source (ch! "gain")
  · left
    have e := m3 hn hg
    refine ⟨by rw [e, hms], ?_⟩
    have hd : ch! "data" ∈ x.layouts.map Layout.name := (hnames _).2 (.inl rfl)
    obtain ⟨l0, hl0, hl0n⟩ := List.mem_map.1 hd
    obtain ⟨-, -, q3, -, q5⟩ := hsh l0 hl0
    exact (q5 hl0n).1 (by rw [q3 (by rw [hl0n]; decide) hg, hms])
  · have hd : l.name = ch! "data" := by
      have := (hnames l.name).1 (List.mem_map.2 ⟨l, hl, rfl⟩)
      tauto
    rcases hdim with h2 | h3
    · exact .inl ⟨h2, (m5 hd).1 h2⟩
    · right
      obtain ⟨n, a, b, hr⟩ := List.length_eq_three.1 h3
      obtain ⟨q1, q2⟩ := (m5 hd).2 n [a, b] hr (by simp)
      by_cases hn2 : n = 2
      · exact ⟨n, a, b, _, hr, q1 hn2, by simp [hn2]⟩
      · exact ⟨n, a, b, _, hr, q2 hn2, by simp⟩

/-- C151, the part which is right. Frames (data, and gain and mask of corrected data) are found below `entry_1/data_1`, with the attribute
axes naming their dimensions, as many as there are. Names of frames and of gain stages are found there too, one for each entry of the
dimension; the last two dimensions have no labels. -/
theorem cxi_axes_partial {d : Det V} {num : V → Nat} {moduleShape : List Nat} {x : Cxi V} (hx : d.writeVirtualCxi num moduleShape = .ok x)
    (hms : moduleShape.length = 2) {l : Layout V} (hl : l ∈ x.layouts) (hn : l.name ≠ ch! "cellId")
    (hdim : l.rowShape.length = 2 ∨ l.rowShape.length = 3) :
    ∃ axes names, nextToFrames (cxiTree x) l.name = some ⟨detectorPath l.name, .layout l, some axes⟩ ∧ AxisNames axes names ∧
      names.length = (dimensions l).length ∧ names[0]? = some (ch! "experiment_identifier") ∧ names[1]? = some (ch! "module_identifier") ∧
      ∀ (i : Nat) n, names[i]? = some n → n ≠ ch! "module_identifier" →
        ((n = ch! "y" ∨ n = ch! "x") ∧ nextToFrames (cxiTree x) n = none) ∨
        ∃ o k, nextToFrames (cxiTree x) n = some o ∧ labelCount o.node = some k ∧ (dimensions l)[i]? = some k := by
  obtain ⟨source, m, f, -, -, -, hnames, hnd, hsh⟩ := cxi_datasets hx
  obtain ⟨m1, m2, m3, m4, m5⟩ := hsh l hl
  obtain ⟨hrows, hcols⟩ := layout_size hx hl
  have hexp : x.experimentIds.length = d.nframes := by
    obtain ⟨_, _, _, _, _, _, _, _, hpi, -, -, -, -, -, -, -, hexp, -⟩ := writeVirtualCxi_ok hx
    rw [hexp, List.length_zipWith, collectPulseIds_length hpi]
    have : d.tidsPerFrame.length = d.nframes := rep_length _ _
    rw [this, Nat.min_self]
  have hname : l.name = ch! "data" ∨ l.name = ch! "gain" ∨ l.name = ch! "mask" := by
    have := (hnames l.name).1 (List.mem_map.2 ⟨l, hl, rfl⟩)
    tauto
  have hfound : nextToFrames (cxiTree x) l.name = some ⟨detectorPath l.name, .layout l, some (axesOf x)⟩ := by
    have hlay := layout?_eq hnd hl
    rw [next_other x (by rcases hname with h | h | h <;> rw [h] <;> decide) (by rcases hname with h | h | h <;> rw [h] <;> decide),
      objAt_detector, hlay]
    rcases hname with h | h | h <;> simp [h]
  have hy : nextToFrames (cxiTree x) (ch! "y") = none := by
    rw [next_other x (by decide) (by decide), objAt_detector]; simp
  have hxx : nextToFrames (cxiTree x) (ch! "x") = none := by
    rw [next_other x (by decide) (by decide), objAt_detector]; simp
  rcases gain_stages hx hms hl hn hdim with ⟨h2, hg⟩ | ⟨n, a, b, g, hr, hg, hgl⟩
  · have hax : axesOf x = ch! "experiment_identifier:module_identifier:y:x" := by unfold axesOf; rw [hg]
    refine ⟨_, [ch! "experiment_identifier", ch! "module_identifier", ch! "y", ch! "x"], hfound, ?_, by simp [dimensions, h2], rfl, rfl,
      axes_flat (next_experiment x) rfl (by simp [dimensions, hrows, hexp]) hy hxx⟩
    rw [hax]
    exact axes_names.1
  · have hax : axesOf x = ch! "experiment_identifier:module_identifier:data_gain:y:x" := by unfold axesOf; rw [hg]
    refine ⟨_, [ch! "experiment_identifier", ch! "module_identifier", ch! "data_gain", ch! "y", ch! "x"], hfound, ?_,
      by simp [dimensions, hr], rfl, rfl,
      axes_stages (next_experiment x) rfl (by simp [dimensions, hrows, hexp]) (next_gain hg) rfl (by simp [dimensions, hr, hgl]) hy hxx⟩
    rw [hax]
    exact axes_names.2

/-- C151, the paths. What is found where in a file written by `write_virtual_cxi`: the version, the train ID, the pulse ID and the name of
each frame, the frames themselves (also below `entry_1/data_1`), the cell IDs and the numbers of the modules with data. -/
theorem cxi_paths {d : Det V} {num : V → Nat} {moduleShape : List Nat} {x : Cxi V} (hx : d.writeVirtualCxi num moduleShape = .ok x) :
    (openPath (cxiTree x) [ch! "cxi_version"]).map CxiObj.node = some (.numbers [150]) ∧
    (openPath (cxiTree x) [ch! "entry_1", ch! "trainId"]).map CxiObj.node = some (.numbers x.trainIds) ∧
    (openPath (cxiTree x) [ch! "entry_1", ch! "pulseId"]).map CxiObj.node = some (.numbers x.pulseIds) ∧
    (openPath (cxiTree x) [ch! "entry_1", ch! "experiment_identifier"]).map CxiObj.node = some (.strings x.experimentIds) ∧
    (openPath (cxiTree x) [ch! "entry_1", ch! "data_1", ch! "module_identifier"]).map CxiObj.node = some (.numbers x.modules) ∧
    (∀ l ∈ x.layouts, l.name = ch! "cellId" → (openPath (cxiTree x) [ch! "entry_1", ch! "cellId"]).map CxiObj.node = some (.layout l)) ∧
    ∀ l ∈ x.layouts, l.name ≠ ch! "cellId" →
      (openPath (cxiTree x) [ch! "entry_1", ch! "data_1", l.name]).map CxiObj.node = some (.layout l) ∧
      (openPath (cxiTree x) [ch! "entry_1", ch! "instrument_1", ch! "detector_1", l.name]).map CxiObj.node = some (.layout l) := by
  obtain ⟨source, m, f, -, -, -, hnames, hnd, -⟩ := cxi_datasets hx
  have hentry : ∀ n, n ≠ ch! "data_1" → openPath (cxiTree x) [ch! "entry_1", n] = objAt (cxiTree x) (entryPath n) := by
    intro n hn
    unfold openPath
    rw [show [ch! "entry_1", n] = entryPath n from rfl, open_entry x 16 hn]
  refine ⟨?_, ?_, ?_, ?_, ?_, ?_, ?_⟩
  · have hv : objAt (cxiTree x) [ch! "cxi_version"] = some ⟨[ch! "cxi_version"], .numbers [150], none⟩ := rfl
    unfold openPath
    rw [resolve_plain (by simp [hv]), resolve_end]
    simp [hv]
  · rw [hentry _ (by decide), objAt_entry]; simp
  · rw [hentry _ (by decide), objAt_entry]; simp
  · rw [hentry _ (by decide), objAt_entry]; simp
  · have := next_other x (n := ch! "module_identifier") (by decide) (by decide)
    unfold nextToFrames at this
    rw [this, objAt_detector]; simp
  · intro l hl hn
    rw [hentry _ (by decide), objAt_entry]
    have := layout?_eq hnd hl
    rw [hn] at this
    simp [this]
  · intro l hl hn
    have hname : l.name = ch! "data" ∨ l.name = ch! "gain" ∨ l.name = ch! "mask" := by
      have := (hnames l.name).1 (List.mem_map.2 ⟨l, hl, rfl⟩)
      tauto
    have hfound : nextToFrames (cxiTree x) l.name = some ⟨detectorPath l.name, .layout l, some (axesOf x)⟩ := by
      have hlay := layout?_eq hnd hl
      rw [next_other x (by rcases hname with h | h | h <;> rw [h] <;> decide) (by rcases hname with h | h | h <;> rw [h] <;> decide),
        objAt_detector, hlay]
      rcases hname with h | h | h <;> simp [h]
    have h2 := cxi_data_link x l.name
    rw [hfound] at h2
    unfold nextToFrames at hfound
    rw [hfound]
    refine ⟨rfl, ?_⟩
    rw [show [ch! "entry_1", ch! "instrument_1", ch! "detector_1", l.name] = detectorPath l.name from rfl, ← h2]
    rfl

/-- C151, for modules. If all sixteen modules have data, their numbers are found below `entry_1/data_1`, one for each entry along the
dimension of modules, and they are the positions along it. -/
theorem cxi_modules_axis_partial {kind : Option Str} {c : DC V} {name : Option Str} {modules : Option (List Nat)} {minModules : Int}
    {d : Det V} (h : Det.init kind c name modules minModules = .ok d) (hm : ∀ m, (∃ source, (source, m) ∈ d.sourceToModno) ↔ m < 16)
    {num : V → Nat} {moduleShape : List Nat} {x : Cxi V} (hx : d.writeVirtualCxi num moduleShape = .ok x) {l : Layout V} (hl : l ∈ x.layouts) :
    ∃ o ms, nextToFrames (cxiTree x) (ch! "module_identifier") = some o ∧ o.node = .numbers ms ∧ (dimensions l)[1]? = some ms.length ∧
      ∀ i, i < ms.length → ms[i]? = some i := by
  have hmods : x.modules = List.range 16 := by
    obtain ⟨_, _, _, _, _, _, _, _, -, -, -, -, -, -, -, -, -, hmod⟩ := writeVirtualCxi_ok hx
    have hn := (init_ok h).2.2.2.1
    have hinv := (invertDict_full ((invertDict_length_iff _).2 hn)).2
    have hkeys : (invertDict d.sourceToModno).keys = d.sourceToModno.map Prod.snd := by
      rw [hinv]; unfold Dict.keys; rw [List.map_map]; rfl
    rw [hmod, hkeys]
    have hp : (d.sourceToModno.map Prod.snd).Perm (List.range 16) := by
      rw [List.perm_ext_iff_of_nodup hn List.nodup_range]
      intro m
      rw [List.mem_range, ← hm m, List.mem_map]
      exact ⟨fun ⟨y, hy, e⟩ => ⟨y.1, by rw [← e]; exact hy⟩, fun ⟨s, hs⟩ => ⟨_, hs, rfl⟩⟩
    exact List.Perm.eq_of_pairwise (fun a b _ _ h1 h2 => Nat.le_antisymm h1 h2) (List.pairwise_insertionSort (· ≤ ·) _)
      (List.pairwise_le_range) ((List.perm_insertionSort (· ≤ ·) _).trans hp)
  refine ⟨⟨detectorPath (ch! "module_identifier"), .numbers x.modules, none⟩, x.modules, ?_, rfl, ?_, ?_⟩
  · rw [next_other x (by decide) (by decide), objAt_detector]; simp
  · simp [dimensions, (layout_size hx hl).2, hmods]
  · intro i hi
    rw [hmods] at hi ⊢
    simp only [List.length_range] at hi
    simp [hi]

/-! ### Where it is wrong, and examples -/

set_option maxRecDepth 20000 in
/-- C151 is wrong for modules when some have no data: the numbers of the modules are 0 and 3, for a dimension of 16 modules. The second
number, 3, is not the module of the second entry along this dimension (which is module 1, without data). -/
theorem cxi_modules_axis_wrong : ∃ (d : Det Nat) (x : Cxi Nat) (l : Layout Nat) (o : CxiObj Nat),
    Det.init (some (ch! "_AGIPD1M")) exDetData none none 1 = .ok d ∧ d.writeVirtualCxi id [2, 2] = .ok x ∧ l ∈ x.layouts ∧ l.name = ch! "data" ∧
    nextToFrames (cxiTree x) (ch! "module_identifier") = some o ∧ o.node = .numbers [0, 3] ∧ (dimensions l)[1]? = some 16 ∧
    l.grid.cell 0 1 = none ∧ l.grid.cell 0 3 = some 100 := by
  obtain ⟨h1, -, -, h2, h3⟩ := exDet_write
  cases hx : exDet.writeVirtualCxi id [2, 2] with
  | error e => rw [hx] at h1; simp [Except.map] at h1
  | ok x =>
    have hm : x.modules = [0, 3] := by
      rw [hx] at h1
      simp only [Except.map, Except.ok.injEq, Prod.mk.injEq] at h1
      exact h1.2.2
    have h4 : (exDet.writeVirtualCxi id [2, 2]).map (fun x => x.layouts.map (fun l => l.grid.cell 0 1)) = .ok [none, none] := by decide
    rw [hx] at h2 h3 h4
    simp only [Except.map, Except.ok.injEq] at h2 h3 h4
    cases hl : x.layouts with
    | nil => rw [hl] at h2; simp at h2
    | cons l ls =>
      rw [hl] at h2 h3 h4
      simp only [List.map_cons, List.cons.injEq, Prod.mk.injEq] at h2 h3 h4
      refine ⟨exDet, x, l, ⟨detectorPath (ch! "module_identifier"), .numbers x.modules, none⟩, exDet_init, hx, by rw [hl]; simp, h2.1.1, ?_,
        by simp only [hm], ?_, h4.1, ?_⟩
      · rw [next_other x (by decide) (by decide), objAt_detector]; simp
      · simp [dimensions, h2.1.2.2.2]
      · exact (List.cons.inj h3.1).1

/-- C151 is wrong for cell IDs, in every file: `module_identifier` is an axis of `entry_1/cellId`, and is not to be found in `entry_1`. -/
theorem cxi_cell_axis_wrong {d : Det V} {num : V → Nat} {moduleShape : List Nat} {x : Cxi V} (hx : d.writeVirtualCxi num moduleShape = .ok x) :
    (∃ l ∈ x.layouts, openPath (cxiTree x) (entryPath (ch! "cellId")) =
      some ⟨entryPath (ch! "cellId"), .layout l, some (ch! "experiment_identifier:module_identifier")⟩) ∧
    openPath (cxiTree x) (entryPath (ch! "module_identifier")) = none := by
  obtain ⟨source, m, f, -, -, -, hnames, hnd, hsh⟩ := cxi_datasets hx
  obtain ⟨l, hl, hn⟩ := List.mem_map.1 ((hnames (ch! "cellId")).2 (.inr (.inl rfl)))
  have hlay := layout?_eq hnd hl
  rw [hn] at hlay
  unfold openPath
  constructor
  · refine ⟨l, hl, ?_⟩
    rw [open_entry x 16 (by decide)]
    simp [objAt_entry, hlay]
  · rw [open_entry x 16 (by decide)]
    simp [objAt_entry]

set_option maxRecDepth 20000 in
/-- The example meets the conditions: its data has five dimensions. -/
example : ∃ x l, exDet.writeVirtualCxi id [2, 2] = .ok x ∧ l ∈ x.layouts ∧ l.name = ch! "data" ∧ dimensions l = [6, 16, 1, 2, 2] ∧
    ∃ o, nextToFrames (cxiTree x) (ch! "data_gain") = some o ∧ o.node = .strings [ch! "data"] := by
  obtain ⟨-, h1, -, h2, -⟩ := exDet_write
  cases hx : exDet.writeVirtualCxi id [2, 2] with
  | error e => rw [hx] at h1; simp [Except.map] at h1
  | ok x =>
    rw [hx] at h1 h2
    simp only [Except.map, Except.ok.injEq] at h1 h2
    cases hl : x.layouts with
    | nil => rw [hl] at h2; simp at h2
    | cons l ls =>
      rw [hl] at h2
      simp only [List.map_cons, List.cons.injEq, Prod.mk.injEq] at h2
      exact ⟨x, l, rfl, by rw [hl]; simp, h2.1.1, by simp [dimensions, h2.1], _, next_gain h1, rfl⟩

/-- The name of module `i` of the detector, below `INSTRUMENT` or `INDEX`. -/
def exPath (i : Nat) : List Str := [ch! "X_AGIPD1M-1", ch! "DET", natStr i ++ ch! "CH0:xtdf", ch! "image"]

/-- The source for module `i`. -/
def exSourceN (i : Nat) : Str := ch! "X_AGIPD1M-1/DET/" ++ natStr i ++ ch! "CH0:xtdf"

/-- A file with all sixteen modules, one frame each. -/
def exAllModules : FileAccess Nat :=
  ⟨ch! "all", [10], [], (List.range 16).map exSourceN,
    { trainId := some [10], version := some (ch! "1.0"), sources05 := none,
      sources10 := some ((List.range 16).map (fun i => ch! "INSTRUMENT/" ++ exSourceN i ++ ch! "/image")),
      index := (List.range 16).map (fun i => (ch! "INDEX" :: exPath i, ⟨some [0#64], some [1#64], none, none⟩)),
      groups := [],
      datasets := (List.range 16).flatMap (fun i =>
        [([ch! "INSTRUMENT"] ++ exPath i ++ [ch! "pulseId"], ⟨[5], [], 0⟩),
         ([ch! "INSTRUMENT"] ++ exPath i ++ [ch! "data"], ⟨[100 + i], [1, 2, 2], 0⟩),
         ([ch! "INSTRUMENT"] ++ exPath i ++ [ch! "cellId"], ⟨[3], [], 0⟩)]) }⟩

def exAllData : DC Nat where
  files := [exAllModules]
  selection := (List.range 16).map (fun i => (exSourceN i, none))
  trainIds := [10]
  ctxCloses := true

def exAllDet : Det Nat where
  name := ch! "X_AGIPD1M-1"
  sourceToModno := (List.range 16).map (fun i => (exSourceN i, i))
  framesPerTrain := 1
  data := { exAllData with ctxCloses := false }

set_option maxRecDepth 50000 in
/-- The example with all modules: the conditions are met. -/
example : Det.init (some (ch! "_AGIPD1M")) exAllData none none 1 = .ok exAllDet ∧
    (∀ m, (∃ source, (source, m) ∈ exAllDet.sourceToModno) ↔ m < 16) ∧
    (exAllDet.writeVirtualCxi id [2, 2]).map (fun x => (x.modules, x.layouts.length)) = .ok (List.range 16, 2) := by
  refine ⟨by decide +kernel, ?_, by decide +kernel⟩
  intro m
  simp only [exAllDet, List.mem_map, List.mem_range, Prod.mk.injEq]
  constructor
  · rintro ⟨s, i, hi, -, rfl⟩; exact hi
  · intro hm; exact ⟨_, m, hm, rfl, rfl⟩

end KD
