/-
C77 CrystFEL geometry files; C78 rigid groups in them.
-/
import Verif.Spec.CrystFEL
import Verif.Props.Tiles
import Verif.Props.Quads
import Verif.Lemmas.Strings

set_option linter.unusedSimpArgs false
set_option linter.unusedSectionVars false

namespace KD

namespace Geo

variable {K : Type} [Field K] [LinearOrder K] [IsStrictOrderedRing K] [FloorRing K]

theorem panelName_eq (p a : Nat) : panelName p a = Spec.panel p a := rfl

theorem panelName_inj {p a p' a' : Nat} (h : panelName p a = panelName p' a') : p = p' ∧ a = a' := by
  have hn : ∀ n, 'a' ∉ natStr n := fun n hc => absurd (natStr_digit hc) (by decide)
  unfold panelName at h
  simp only [List.append_assoc, List.cons_append, List.nil_append, List.cons.injEq, true_and] at h
  have := congrArg (splitCh 'a') h
  rw [splitCh_append, splitCh_append, splitCh_notMem (hn _), splitCh_notMem (hn _), splitCh_notMem (hn _),
    splitCh_notMem (hn _)] at this
  simp only [List.cons_append, List.nil_append, List.cons.injEq, and_true] at this
  exact ⟨natStr_inj this.1, natStr_inj this.2⟩

/-! ### Dimensions -/

theorem splitDims_concat (dims : List DimName) (d : DimName) : splitDims (dims ++ [d]) = dimStep (splitDims dims) (d, dims.length) := by
  unfold splitDims
  rw [List.zipIdx_append, List.foldl_append]
  simp

/-- The dimensions: the last one called frame, and all others by their numbers. -/
theorem splitDims_spec (dims : List DimName) :
    (∀ i d, (i, d) ∈ (splitDims dims).2 ↔ dims[i]? = some d ∧ d ≠ .name (ch! "frame")) ∧
    ((splitDims dims).1 = none ↔ .name (ch! "frame") ∉ dims) ∧
    (∀ i, (splitDims dims).1 = some i → dims[i]? = some (.name (ch! "frame")) ∧ ∀ j, i < j → dims[j]? ≠ some (.name (ch! "frame"))) := by
  induction dims using List.reverseRecOn with
  | nil => simp [splitDims]
  | append_singleton dims d ih =>
    obtain ⟨ih1, ih2, ih3⟩ := ih
    rw [splitDims_concat]
    unfold dimStep
    by_cases hd : d = .name (ch! "frame")
    · rw [if_pos hd]
      subst hd
      refine ⟨?_, ?_, ?_⟩
      · intro i d
        simp only
        rw [ih1, List.getElem?_append]
        by_cases hi : i < dims.length
        · rw [if_pos hi]
        · rw [if_neg hi, List.getElem?_eq_none (by omega)]
          constructor
          · rintro ⟨h, -⟩; simp at h
          · rintro ⟨h1, h2⟩
            exfalso
            rw [List.getElem?_singleton] at h1
            split at h1
            · exact h2 (Option.some.inj h1).symm
            · simp at h1
      · simp
      · intro i hi
        simp only [Option.some.injEq] at hi
        subst hi
        refine ⟨by simp, ?_⟩
        intro j hj
        rw [List.getElem?_eq_none (by simp; omega)]
        simp
    · rw [if_neg hd]
      refine ⟨?_, ?_, ?_⟩
      · intro i e
        simp only [List.mem_append, List.mem_singleton, Prod.mk.injEq]
        rw [ih1, List.getElem?_append]
        by_cases hi : i < dims.length
        · rw [if_pos hi]
          constructor
          · rintro (h | ⟨h, -⟩)
            · exact h
            · omega
          · exact Or.inl
        · rw [if_neg hi, List.getElem?_eq_none (by omega), List.getElem?_singleton]
          constructor
          · rintro (⟨h, -⟩ | ⟨rfl, rfl⟩)
            · simp at h
            · exact ⟨by simp, hd⟩
          · rintro ⟨h1, h2⟩
            split at h1
            · exact Or.inr ⟨by omega, (Option.some.inj h1).symm⟩
            · simp at h1
      · simp only [List.mem_append, List.mem_singleton, not_or, ih2]
        exact ⟨fun h => ⟨h, fun e => hd e.symm⟩, fun h => h.1⟩
      · intro i hi
        obtain ⟨h1, h2⟩ := ih3 i hi
        have hl : i < dims.length := (List.getElem?_eq_some_iff.1 h1).1
        refine ⟨by rw [List.getElem?_append_left hl]; exact h1, ?_⟩
        intro j hj
        rw [List.getElem?_append]
        by_cases hjl : j < dims.length
        · rw [if_pos hjl]; exact h2 j hj
        · rw [if_neg hjl, List.getElem?_singleton]
          split
          · simpa using hd
          · simp

/-! ### The lines of a panel -/

/-- The lines of a panel except for the dimensions. -/
def fixedLines (f : Frag K) (r : Region) (px : K) : List (Str × CfVal K) :=
  [(ch! "min_fs", .int r.x0), (ch! "min_ss", .int r.y0), (ch! "max_fs", .int ((r.x1 : Int) - 1)),
   (ch! "max_ss", .int ((r.y1 : Int) - 1)), (ch! "fs", cfVec (f.fs.div px)), (ch! "ss", cfVec (f.ss.div px)),
   (ch! "corner_x", .num (f.corner.div px).x), (ch! "corner_y", .num (f.corner.div px).y), (ch! "coffset", .num (f.corner.div px).z)]

theorem fixedLines_unique {f : Frag K} {r : Region} {px : K} {k : Str} {v v' : CfVal K} (h : (k, v) ∈ fixedLines f r px)
    (h' : (k, v') ∈ fixedLines f r px) : v' = v := by
  have hn : ((fixedLines f r px).map Prod.fst).Nodup := by
    have e : (fixedLines f r px).map Prod.fst = [ch! "min_fs", ch! "min_ss", ch! "max_fs", ch! "max_ss", ch! "fs", ch! "ss",
      ch! "corner_x", ch! "corner_y", ch! "coffset"] := rfl
    rw [e]
    decide
  have := List.inj_on_of_nodup_map hn h h' rfl
  exact (congrArg Prod.snd this).symm

theorem fixedLines_not_dim {f : Frag K} {r : Region} {px : K} {s : Str} {v : CfVal K} : (ch! "dim" ++ s, v) ∉ fixedLines f r px := by
  simp [fixedLines]

theorem mem_panelLines {f : Frag K} {p a : Nat} {r : Region} {dims : List (Nat × DimName)} {px : K} {n k : Str} {v : CfVal K} :
    .panel n k v ∈ panelLines f p a r dims px ↔ n = panelName p a ∧
      ((∃ d ∈ dims, k = ch! "dim" ++ natStr d.1 ∧ v = dimValue p d.2) ∨ (k, v) ∈ fixedLines f r px) := by
  unfold panelLines
  simp only [List.mem_append, List.mem_map]
  have e : CfLine.panel n k v ∈ ([.panel (panelName p a) (ch! "min_fs") (.int r.x0), .panel (panelName p a) (ch! "min_ss") (.int r.y0),
      .panel (panelName p a) (ch! "max_fs") (.int ((r.x1 : Int) - 1)), .panel (panelName p a) (ch! "max_ss") (.int ((r.y1 : Int) - 1)),
      .panel (panelName p a) (ch! "fs") (cfVec (f.fs.div px)), .panel (panelName p a) (ch! "ss") (cfVec (f.ss.div px)),
      .panel (panelName p a) (ch! "corner_x") (.num (f.corner.div px).x), .panel (panelName p a) (ch! "corner_y") (.num (f.corner.div px).y),
      .panel (panelName p a) (ch! "coffset") (.num (f.corner.div px).z)] : List (CfLine K)) ↔
      n = panelName p a ∧ (k, v) ∈ fixedLines f r px := by
    have : ([.panel (panelName p a) (ch! "min_fs") (.int r.x0), .panel (panelName p a) (ch! "min_ss") (.int r.y0),
      .panel (panelName p a) (ch! "max_fs") (.int ((r.x1 : Int) - 1)), .panel (panelName p a) (ch! "max_ss") (.int ((r.y1 : Int) - 1)),
      .panel (panelName p a) (ch! "fs") (cfVec (f.fs.div px)), .panel (panelName p a) (ch! "ss") (cfVec (f.ss.div px)),
      .panel (panelName p a) (ch! "corner_x") (.num (f.corner.div px).x), .panel (panelName p a) (ch! "corner_y") (.num (f.corner.div px).y),
      .panel (panelName p a) (ch! "coffset") (.num (f.corner.div px).z)] : List (CfLine K)) =
      (fixedLines f r px).map (fun x => .panel (panelName p a) x.1 x.2) := rfl
    rw [this, List.mem_map]
    constructor
    · rintro ⟨x, hx, e⟩
      simp only [CfLine.panel.injEq] at e
      obtain ⟨rfl, rfl, rfl⟩ := e
      exact ⟨rfl, hx⟩
    · rintro ⟨rfl, h⟩
      exact ⟨_, h, rfl⟩
  rw [e]
  constructor
  · rintro (⟨d, hd, e⟩ | ⟨h1, h2⟩)
    · simp only [CfLine.panel.injEq] at e
      exact ⟨e.1.symm, Or.inl ⟨d, hd, e.2.1.symm, e.2.2.symm⟩⟩
    · exact ⟨h1, Or.inr h2⟩
  · rintro ⟨rfl, ⟨d, hd, rfl, rfl⟩ | h⟩
    · exact Or.inl ⟨d, hd, rfl⟩
    · exact Or.inr ⟨rfl, h⟩

theorem not_panel_header {o : CfOptions K} {frame : Nat} {px : K} {n k : Str} {v : CfVal K} : .panel n k v ∉ headerLines o frame px := by
  unfold headerLines
  simp only [List.mem_append, List.mem_cons, List.not_mem_nil, or_false, reduceCtorEq, false_or, not_or]
  refine ⟨?_, ?_, ?_, ?_⟩
  · unfold maskLine; split <;> (try split) <;> simp
  all_goals unfold optionLine; split <;> simp

theorem not_panel_rigid {m t q : Nat} {n k : Str} {v : CfVal K} : .panel n k v ∉ (rigidGroups m t q : List (CfLine K)) := by
  simp [rigidGroups]

/-- Which lines of panels the file has. -/
theorem mem_file {g : Geom K} {o : CfOptions K} {file : List (CfLine K)} (h : g.writeCrystfel o = .ok file) {n k : Str} {v : CfVal K} :
    .panel n k v ∈ file ↔ ∃ p a f, Spec.IsTile g p a f ∧ n = panelName p a ∧
      ((∃ d ∈ (splitDims o.dims).2, k = ch! "dim" ++ natStr d.1 ∧ v = dimValue p d.2) ∨
        (k, v) ∈ fixedLines f (cfRegion g.det o.dims p a) g.det.pixelSize) := by
  unfold Geom.writeCrystfel at h
  split at h
  · simp at h
  · obtain rfl := Except.ok.inj h
    simp only [List.mem_append, not_panel_header, not_panel_rigid, false_or, List.mem_flatMap, moduleLines, mem_panelLines,
      List.mem_zipIdx_iff_getElem?]
    constructor
    · rintro ⟨m, hm, t, ht, h1, h2⟩
      exact ⟨m.2, t.2, t.1, ⟨m.1, hm, ht⟩, h1, h2⟩
    · rintro ⟨p, a, f, ⟨mod, h1, h2⟩, h3, h4⟩
      exact ⟨(mod, p), h1, (f, a), h2, h3, h4⟩

theorem isTile_unique {g : Geom K} {p a : Nat} {f f' : Frag K} (h : Spec.IsTile g p a f) (h' : Spec.IsTile g p a f') : f' = f := by
  obtain ⟨m, h1, h2⟩ := h
  obtain ⟨m', h1', h2'⟩ := h'
  rw [h1] at h1'
  obtain rfl := Option.some.inj h1'
  rw [h2] at h2'
  exact (Option.some.inj h2').symm

theorem says_fixed {g : Geom K} {o : CfOptions K} {file : List (CfLine K)} (h : g.writeCrystfel o = .ok file) {p a : Nat} {f : Frag K}
    (hf : Spec.IsTile g p a f) {k : Str} {v : CfVal K} (hk : (k, v) ∈ fixedLines f (cfRegion g.det o.dims p a) g.det.pixelSize) :
    Spec.Says file (panelName p a) k v := by
  refine ⟨(mem_file h).2 ⟨p, a, f, hf, rfl, Or.inr hk⟩, ?_⟩
  intro v' hv'
  obtain ⟨p', a', f', hf', hn, hl⟩ := (mem_file h).1 hv'
  obtain ⟨rfl, rfl⟩ := panelName_inj hn
  obtain rfl := isTile_unique hf hf'
  rcases hl with ⟨d, -, rfl, -⟩ | hl
  · exact absurd hk fixedLines_not_dim
  · exact fixedLines_unique hk hl

/-! ### The other lines -/

theorem says_res {g : Geom K} {o : CfOptions K} {file : List (CfLine K)} (h : g.writeCrystfel o = .ok file) :
    Spec.SaysTop file (ch! "res") (.num (1 / g.det.pixelSize)) := by
  unfold Geom.writeCrystfel at h
  split at h
  · simp at h
  · obtain rfl := Except.ok.inj h
    constructor
    · simp [headerLines]
    · intro v hv
      simp only [List.mem_append] at hv
      rcases hv with (hv | hv) | hv
      · unfold headerLines at hv
        simp only [List.mem_append, List.mem_cons, List.not_mem_nil, or_false, reduceCtorEq, false_or, CfLine.top.injEq] at hv
        rcases hv with (hv | hv) | hv | hv | hv | hv | hv
        · simp at hv
        · unfold maskLine at hv
          split at hv
          · simp at hv
          · split at hv <;> simp at hv
        · simp at hv
        · exact hv.2
        all_goals unfold optionLine at hv; split at hv <;> simp at hv
      · simp [rigidGroups] at hv
      · simp only [List.mem_flatMap, moduleLines] at hv
        obtain ⟨m, -, t, -, hv⟩ := hv
        simp [panelLines] at hv

/-! ### C77 -/

/-- C77: without a frame dimension nothing is written (ValueError); otherwise the file is written. -/
theorem crystfel_written (g : Geom K) (o : CfOptions K) :
    (.name (ch! "frame") ∉ o.dims → g.writeCrystfel o = .error .value) ∧
      (.name (ch! "frame") ∈ o.dims → ∃ file, g.writeCrystfel o = .ok file) := by
  obtain ⟨-, h, -⟩ := splitDims_spec o.dims
  unfold Geom.writeCrystfel
  constructor
  · intro hn
    rw [h.2 hn]
  · intro hn
    cases hs : (splitDims o.dims).1 with
    | none => exact absurd hn (h.1 hs)
    | some frame => exact ⟨_, rfl⟩

/-- The panel which is read for a tile. -/
def panelOf (g : Geom K) (o : CfOptions K) (p a : Nat) (f : Frag K) : CfPanel K :=
  let px : K := g.det.pixelSize
  let r := cfRegion g.det o.dims p a
  ⟨1 / px, f.corner.x / px, f.corner.y / px, f.corner.z / px, f.ss.div px, f.fs.div px, r.y0, (r.y1 : Int) - 1, r.x0, (r.x1 : Int) - 1⟩

theorem saysVec_cfVec {file : List (CfLine K)} {n k : Str} {v : Vec K} (h : Spec.Says file n k (cfVec v)) : Spec.SaysVec file n k v := by
  refine ⟨if v.z ≠ 0 then some v.z else none, h, ?_⟩
  split
  · rfl
  · next hz => simpa using hz

theorem saysVec_unique {file : List (CfLine K)} {n k : Str} {v w : Vec K} (h : Spec.SaysVec file n k v) (h' : Spec.SaysVec file n k w) :
    v = w := by
  obtain ⟨z, h1, h2⟩ := h
  obtain ⟨z', h1', h2'⟩ := h'
  have := h1.2 _ h1'.1
  simp only [CfVal.vec.injEq] at this
  obtain ⟨e1, e2, e3⟩ := this
  exact Vec.ext e1.symm e2.symm (by rw [h2, h2', e3])

theorem says_unique {file : List (CfLine K)} {n k : Str} {v w : CfVal K} (h : Spec.Says file n k v) (h' : Spec.Says file n k w) : v = w :=
  (h.2 _ h'.1).symm

theorem reads_unique {file : List (CfLine K)} {n : Str} {d d' : CfPanel K} (h : Spec.Reads file n d) (h' : Spec.Reads file n d') : d = d' := by
  have e1 := CfVal.num.inj (h'.res.2 _ h.res.1)
  have e2 := CfVal.num.inj (says_unique h.cnx h'.cnx)
  have e3 := CfVal.num.inj (says_unique h.cny h'.cny)
  have e4 := CfVal.num.inj (says_unique h.coffset h'.coffset)
  have e5 := saysVec_unique h.ss h'.ss
  have e6 := saysVec_unique h.fs h'.fs
  have e7 := CfVal.int.inj (says_unique h.minSs h'.minSs)
  have e8 := CfVal.int.inj (says_unique h.maxSs h'.maxSs)
  have e9 := CfVal.int.inj (says_unique h.minFs h'.minFs)
  have e10 := CfVal.int.inj (says_unique h.maxFs h'.maxFs)
  cases d; cases d'
  simp_all

/-- C77: for every tile of the geometry, the file has a panel with its name. -/
theorem reads_tile {g : Geom K} {o : CfOptions K} {file : List (CfLine K)} (h : g.writeCrystfel o = .ok file) {p a : Nat} {f : Frag K}
    (hf : Spec.IsTile g p a f) : Spec.Reads file (panelName p a) (panelOf g o p a f) where
  res := says_res h
  cnx := says_fixed h hf (by simp [fixedLines, panelOf, Vec.div])
  cny := says_fixed h hf (by simp [fixedLines, panelOf, Vec.div])
  coffset := says_fixed h hf (by simp [fixedLines, panelOf, Vec.div])
  ss := saysVec_cfVec (says_fixed h hf (by simp [fixedLines, panelOf]))
  fs := saysVec_cfVec (says_fixed h hf (by simp [fixedLines, panelOf]))
  minSs := says_fixed h hf (by simp [fixedLines, panelOf])
  maxSs := says_fixed h hf (by simp [fixedLines, panelOf])
  minFs := says_fixed h hf (by simp [fixedLines, panelOf])
  maxFs := says_fixed h hf (by simp [fixedLines, panelOf])

theorem pixelSize_ne (d : Det) : (d.pixelSize : K) ≠ 0 := by
  cases d <;> simp [Det.pixelSize]

theorem cfRegion_size (d : Det) (dims : List DimName) (p a : Nat) :
    (cfRegion d dims p a).y1 = (cfRegion d dims p a).y0 + (Spec.tileShape d).1 ∧
      (cfRegion d dims p a).x1 = (cfRegion d dims p a).x0 + (Spec.tileShape d).2 := by
  unfold cfRegion
  cases d <;> simp only [Det.tileSlice, Spec.tileShape, Det.ssPixels, Det.fsPixels] <;> repeat' split
  all_goals (constructor <;> simp only <;> omega)

theorem panelOf_back {g : Geom K} (o : CfOptions K) {p a : Nat} {f : Frag K} (hs : f.ssPixels = (Spec.tileShape g.det).1)
    (hs' : f.fsPixels = (Spec.tileShape g.det).2) : Frag.fromPanel (panelOf g o p a f) = f := by
  have hp := pixelSize_ne (K := K) g.det
  obtain ⟨r1, r2⟩ := cfRegion_size g.det o.dims p a
  have e : ∀ x : K, x / g.det.pixelSize / (1 / g.det.pixelSize) = x := by intro x; field_simp
  have ev : ∀ v : Vec K, (v.div g.det.pixelSize).div (1 / g.det.pixelSize) = v := by
    intro v
    simp only [Vec.div]
    exact Vec.ext (e _) (e _) (e _)
  obtain ⟨c, ss, fs, n, m⟩ := f
  simp only at hs hs'
  simp only [Frag.fromPanel, panelOf, ev, Frag.mk.injEq, true_and]
  refine ⟨Vec.ext (e _) (e _) (e _), ?_, ?_⟩
  · rw [r1, hs]; push_cast; ring
  · rw [r2, hs']; push_cast; ring

/-- C77: reading a file which was written from a complete geometry gives back the same geometry: every corner, vector and size. -/
theorem crystfel_round_trip_partial (g : Geom K) (hc : Spec.Complete g) (hr : Spec.RightSize g) (o : CfOptions K) (file : List (CfLine K))
    (h : g.writeCrystfel o = .ok file) (panels : Str → Option (CfPanel K)) (hp : Spec.ReadAll file panels) :
    fromCrystfel g.det panels = .ok g := by
  have hn : g.det.nTiles = Spec.tiles g.det := by cases g.det <;> rfl
  have hm : g.det.nModules = (Spec.shape g.det).1 := by cases g.det <;> rfl
  have tile : ∀ p a f, Spec.IsTile g p a f → tileFromPanels panels p a = .ok f := by
    intro p a f hf
    unfold tileFromPanels
    rw [(hp _ _).2 (reads_tile h hf)]
    simp only [Except.ok.injEq]
    obtain ⟨mod, h1, h2⟩ := hf
    obtain ⟨s1, s2⟩ := hr mod (List.mem_of_getElem? h1) f (List.mem_of_getElem? h2)
    exact panelOf_back o s1 s2
  have listE : ∀ {α : Type} (l : List α) (φ : Nat → R α), (∀ i x, l[i]? = some x → φ i = .ok x) →
      mapE φ (List.range l.length) = .ok l := by
    intro α l φ hφ
    induction l using List.reverseRecOn with
    | nil => rfl
    | append_singleton l x ih =>
      have e := ih (fun i y hi => hφ i y (by
        rw [List.getElem?_append_left (List.getElem?_eq_some_iff.1 hi).1]; exact hi))
      rw [List.length_append, List.length_singleton, List.range_succ, mapE_append, e]
      have hx := hφ l.length x (by simp)
      simp [mapE, hx]
  have row : ∀ p mod, g.modules[p]? = some mod → mapE (tileFromPanels panels p) (List.range g.det.nTiles) = .ok mod := by
    intro p mod hmod
    have hl := hc.2 mod (List.mem_of_getElem? hmod)
    rw [hn, ← hl]
    exact listE mod _ (fun a f hf => tile p a f ⟨mod, hmod, hf⟩)
  have all := listE g.modules (fun p => mapE (tileFromPanels panels p) (List.range g.det.nTiles)) row
  unfold fromCrystfel
  rw [hm, ← hc.1, all]

/-- There is a way to read the file: values of panels are unique. -/
theorem readAll_exists (file : List (CfLine K)) : ∃ panels, Spec.ReadAll file panels := by
  classical
  refine ⟨fun n => if h : ∃ d, Spec.Reads file n d then some h.choose else none, ?_⟩
  intro n d
  simp only
  constructor
  · intro hd
    split at hd
    · next hx => rw [← Option.some.inj hd]; exact hx.choose_spec
    · simp at hd
  · intro hd
    rw [dif_pos ⟨d, hd⟩]
    exact congrArg some (reads_unique (Exists.choose_spec _) hd)

/-- C77: a panel is missing: KeyError. -/
theorem crystfel_missing (d : Det) (panels : Str → Option (CfPanel K)) (p a : Nat) (hp : p < 16) (ha : a < Spec.tiles d)
    (h : panels (Spec.panel p a) = none) : fromCrystfel d panels = .error .key := by
  have hn : d.nTiles = Spec.tiles d := by cases d <;> rfl
  have hm : d.nModules = 16 := by cases d <;> rfl
  unfold fromCrystfel
  rw [hm, hn]
  have hk : ∀ p a e, tileFromPanels panels p a = .error e → e = .key := by
    intro p a e he
    unfold tileFromPanels at he
    split at he
    · exact (Except.error.inj he).symm
    · simp at he
  cases hr : mapE (fun p => mapE (tileFromPanels panels p) (List.range (Spec.tiles d))) (List.range 16) with
  | error e =>
    obtain ⟨p', -, he⟩ := mapE_error_of hr
    obtain ⟨a', -, he'⟩ := mapE_error_of he
    rw [hk _ _ _ he']
  | ok ms =>
    exfalso
    obtain ⟨b, -, hb⟩ := mapE_ok_all hr (a := p) (by simpa using hp)
    obtain ⟨c, -, hc⟩ := mapE_ok_all hb (a := a) (by simpa using ha)
    unfold tileFromPanels at hc
    rw [panelName_eq, h] at hc
    simp at hc

/-- C77: the pixels of a panel in the data are the ones of the tile: in the module (which `crystfel_dims` gives) if the data have a
dimension for modules; otherwise the modules follow each other along the slow-scan dimension. -/
theorem crystfel_ranges (g : Geom K) (o : CfOptions K) (file : List (CfLine K)) (h : g.writeCrystfel o = .ok file) (p a : Nat)
    (f : Frag K) (hf : Spec.IsTile g p a f) (ha : a < Spec.tiles g.det) :
    ∃ minSs maxSs minFs maxFs : Int, Spec.Says file (Spec.panel p a) (ch! "min_ss") (.int minSs) ∧
      Spec.Says file (Spec.panel p a) (ch! "max_ss") (.int maxSs) ∧ Spec.Says file (Spec.panel p a) (ch! "min_fs") (.int minFs) ∧
      Spec.Says file (Spec.panel p a) (ch! "max_fs") (.int maxFs) ∧
      ∀ i j, i < (Spec.shape g.det).2.1 → j < (Spec.shape g.det).2.2 →
        (DimName.name (ch! "modno") ∈ o.dims →
          ((minSs ≤ i ∧ (i : Int) ≤ maxSs ∧ minFs ≤ j ∧ (j : Int) ≤ maxFs) ↔ Spec.tileOf g.det i j = a)) ∧
        (DimName.name (ch! "modno") ∉ o.dims → ∀ m row : Nat, row = m * (Spec.shape g.det).2.1 + i →
          ((minSs ≤ row ∧ (row : Int) ≤ maxSs ∧ minFs ≤ j ∧ (j : Int) ≤ maxFs) ↔ m = p ∧ Spec.tileOf g.det i j = a)) := by
  refine ⟨_, _, _, _, (reads_tile h hf).minSs, (reads_tile h hf).maxSs, (reads_tile h hf).minFs, (reads_tile h hf).maxFs, ?_⟩
  intro i j hi hj
  have hreg := tile_region g.det hi hj ha
  have hin := tile_inside g.det ha
  have hsh : g.det.dataShape = Spec.shape g.det := by cases g.det <;> rfl
  rw [eq_comm] at hreg
  simp only [panelOf]
  unfold Spec.InRegion at hreg
  unfold cfRegion
  constructor
  · intro hd
    rw [if_pos hd, ← hreg]
    omega
  · intro hd m row hrow
    rw [if_neg hd, hsh, ← hreg]
    simp only
    by_cases hm : m = p
    · subst hm
      omega
    · constructor
      · rintro ⟨h1, h2, -⟩
        exfalso
        rcases Nat.lt_or_gt_of_ne hm with hlt | hlt
        · have := Nat.mul_le_mul_right (Spec.shape g.det).2.1 (show m + 1 ≤ p from hlt)
          rw [Nat.add_mul, Nat.one_mul] at this
          omega
        · have := Nat.mul_le_mul_right (Spec.shape g.det).2.1 (show p + 1 ≤ m from hlt)
          rw [Nat.add_mul, Nat.one_mul] at this
          omega
      · rintro ⟨h1, -⟩
        exact absurd h1 hm

/-- C77: the dimensions of the data: the frame dimension is the last one called frame; the other ones of a panel have the name or
index given, and the module dimension has the number of the module. -/
theorem crystfel_dims (g : Geom K) (o : CfOptions K) (file : List (CfLine K)) (h : g.writeCrystfel o = .ok file) :
    (∃ n, o.dims[n]? = some (.name (ch! "frame")) ∧ (∀ j, n < j → o.dims[j]? ≠ some (.name (ch! "frame"))) ∧
      .top (ch! "dim" ++ Nat.toDigits 10 n) (.text (ch! "%")) ∈ file) ∧
    ∀ p a f, Spec.IsTile g p a f → ∀ n d, o.dims[n]? = some d → d ≠ .name (ch! "frame") →
      Spec.Says file (Spec.panel p a) (ch! "dim" ++ Nat.toDigits 10 n)
        (Spec.dim p d) := by
  obtain ⟨s1, s2, s3⟩ := splitDims_spec o.dims
  have h' := h
  constructor
  · unfold Geom.writeCrystfel at h'
    cases hs : (splitDims o.dims).1 with
    | none => rw [hs] at h'; simp at h'
    | some n =>
      rw [hs] at h'
      obtain rfl := Except.ok.inj h'
      obtain ⟨a1, a2⟩ := s3 n hs
      refine ⟨n, a1, a2, ?_⟩
      simp only [List.mem_append, headerLines]
      refine Or.inl (Or.inl (Or.inr ?_))
      exact List.mem_cons_self
  · intro p a f hf n d hd hne
    have hv : Spec.dim p d = (dimValue p d : CfVal K) := by cases d <;> rfl
    rw [hv]
    refine ⟨(mem_file h).2 ⟨p, a, f, hf, rfl, Or.inl ⟨(n, d), (s1 n d).2 ⟨hd, hne⟩, rfl, rfl⟩⟩, ?_⟩
    intro v' hv'
    obtain ⟨p', a', f', hf', hn, hl⟩ := (mem_file h).1 hv'
    obtain ⟨rfl, rfl⟩ := panelName_inj (show panelName p a = panelName p' a' from hn)
    rcases hl with ⟨d', hd', e1, e2⟩ | hl
    · simp only [List.cons_append, List.nil_append, List.cons.injEq, true_and] at e1
      have en : n = d'.1 := natStr_inj e1
      have := (s1 d'.1 d'.2).1 hd'
      rw [← en, hd] at this
      rw [e2, Option.some.inj this.1]
    · exact absurd hl fixedLines_not_dim

/-- C77: the offset of a panel is in pixels, as the code reads it, though CrystFEL takes it in metres: for a tile which is not at
z = 0 the value is not its z. -/
theorem crystfel_offset_wrong (g : Geom K) (o : CfOptions K) (file : List (CfLine K)) (h : g.writeCrystfel o = .ok file) (p a : Nat)
    (f : Frag K) (hf : Spec.IsTile g p a f) (hz : f.corner.z ≠ 0) : ¬ Spec.Says file (Spec.panel p a) (ch! "coffset") (.num f.corner.z) := by
  intro hc
  have := CfVal.num.inj (says_unique hc (reads_tile h hf).coffset)
  simp only [panelOf] at this
  have h1 : (g.det.pixelSize : K) ≠ 1 := by
    cases g.det <;> simp only [Det.pixelSize] <;> norm_num
  have hp := pixelSize_ne (K := K) g.det
  apply h1
  rw [eq_div_iff hp] at this
  exact mul_left_cancel₀ hz (by rw [this, mul_one])

/-! ### C78 -/

theorem arraySplit_even {α : Type} (l : List α) (k m : Nat) (hk : 0 < k) (hl : l.length = k * m) :
    arraySplit l k = (List.range k).map (fun i => (l.drop (i * m)).take m) := by
  unfold arraySplit
  rw [hl, Nat.mul_mod_right, Nat.mul_div_cancel_left _ hk]
  simp

/-- The parts have all elements in order, and there are as many as asked for. -/
theorem arraySplit_parts {α : Type} (l : List α) (k : Nat) (hk : 0 < k) : (arraySplit l k).length = k ∧ (arraySplit l k).flatten = l := by
  refine ⟨by simp [arraySplit], ?_⟩
  have hmod := Nat.mod_lt l.length hk
  have hdiv := Nat.div_add_mod l.length k
  have key : ∀ n, n ≤ k → (((List.range n).map (fun i =>
      (l.drop (i * (l.length / k) + min i (l.length % k))).take (l.length / k + if i < l.length % k then 1 else 0))).flatten) =
      l.take (n * (l.length / k) + min n (l.length % k)) := by
    intro n
    induction n with
    | zero => intro _; simp
    | succ n ih =>
      intro hn
      rw [List.range_succ, List.map_append, List.flatten_append, ih (by omega)]
      simp only [List.map_cons, List.map_nil, List.flatten_cons, List.flatten_nil, List.append_nil]
      rw [← List.take_add]
      congr 1
      rw [Nat.add_mul, Nat.one_mul]
      split <;> omega
  unfold arraySplit
  rw [key k (le_refl k), Nat.min_eq_right (by omega), hdiv, List.take_length]

theorem names_slice (n t a b : Nat) (h : a + b ≤ n) :
    (((List.range n).flatMap (fun p => (List.range t).map (fun c => panelName p c))).drop (a * t)).take (b * t) = Spec.panels a (a + b) t := by
  have hlen : ∀ l : List Nat, (l.flatMap (fun p => (List.range t).map (fun c => panelName p c))).length = l.length * t := by
    intro l
    induction l with
    | nil => simp
    | cons x l ih => rw [List.flatMap_cons, List.length_append, ih]; simp [Nat.add_mul, Nat.add_comm]
  have hs : List.range n = List.range' 0 a ++ (List.range' a b ++ List.range' (a + b) (n - (a + b))) := by
    rw [List.range_eq_range']
    have e2 : List.range' a b ++ List.range' (a + b) (n - (a + b)) = List.range' a (n - a) := by
      rw [show a + b = a + 1 * b by omega, List.range'_append]
      congr 1
      omega
    have e3 : List.range' 0 a ++ List.range' a (n - a) = List.range' 0 n := by
      have := List.range'_append (s := 0) (m := a) (n := n - a) (step := 1)
      simp only [Nat.one_mul, Nat.zero_add] at this
      rw [this]
      congr 1
      omega
    rw [e2, e3]
  rw [hs, List.flatMap_append, List.flatMap_append]
  rw [List.drop_append_of_le_length (by rw [hlen]; simp)]
  rw [List.drop_of_length_le (by rw [hlen]; simp), List.nil_append]
  rw [List.take_append_of_le_length (by rw [hlen]; simp), List.take_of_length_le (by rw [hlen]; simp)]
  unfold Spec.panels
  rw [Nat.add_sub_cancel_left]
  rfl

theorem comma_panel (p a : Nat) : ',' ∉ Spec.panel p a := by
  unfold Spec.panel
  simp only [List.mem_append, List.mem_cons, List.not_mem_nil, or_false, not_or]
  have hn : ∀ n, ',' ∉ Nat.toDigits 10 n := fun n hc => absurd (natStr_digit (n := n) hc) (by decide)
  exact ⟨⟨⟨by decide, hn _⟩, by decide⟩, hn _⟩

theorem mem_panels {p0 p1 t p a : Nat} : Spec.panel p a ∈ Spec.panels p0 p1 t ↔ p0 ≤ p ∧ p < p1 ∧ a < t := by
  unfold Spec.panels
  simp only [List.mem_flatMap, List.mem_range'_1, List.mem_map, List.mem_range]
  constructor
  · rintro ⟨p', hp', a', ha', e⟩
    obtain ⟨rfl, rfl⟩ := panelName_inj (show panelName p' a' = panelName p a from e)
    omega
  · rintro ⟨h1, h2, h3⟩
    exact ⟨p, by omega, a, h3, rfl⟩

theorem panels_nodup (p0 p1 t : Nat) : (Spec.panels p0 p1 t).Nodup := by
  unfold Spec.panels
  rw [List.nodup_flatMap]
  constructor
  · intro p _
    exact List.Nodup.map (fun a a' e => (panelName_inj (show panelName p a = panelName p a' from e)).2) List.nodup_range
  · refine List.Pairwise.imp ?_ (List.nodup_range' (s := p0) (n := p1 - p0))
    intro p p' hne x hx hx'
    obtain ⟨a, -, rfl⟩ := List.mem_map.1 hx
    obtain ⟨a', -, e⟩ := List.mem_map.1 hx'
    exact hne (panelName_inj (show panelName p' a' = panelName p a from e)).1.symm

theorem split_panels (p0 p1 t : Nat) (h : p0 < p1) (ht : 0 < t) : splitCh ',' (joinCh ',' (Spec.panels p0 p1 t)) = Spec.panels p0 p1 t := by
  apply splitCh_joinCh
  · intro hn
    have := mem_panels (p0 := p0) (p1 := p1) (t := t) (p := p0) (a := 0)
    rw [hn] at this
    simp at this
    omega
  · intro s hs
    unfold Spec.panels at hs
    simp only [List.mem_flatMap, List.mem_map] at hs
    obtain ⟨p, -, a, -, rfl⟩ := hs
    exact comma_panel p a

/-- C78, for any number of quadrants with m modules each and t tiles in a module: the group of a quadrant has the panels of its
modules, the group of a module has its panels, and the collections have all groups. -/
theorem rigid_groups (nQuads m t : Nat) (hq : 0 < nQuads) (hm : 0 < m) :
    let lines := (rigidGroups (nQuads * m) t nQuads : List (CfLine K))
    (∀ q v, .top (ch! "rigid_group_q" ++ Nat.toDigits 10 q) v ∈ lines ↔
      q < nQuads ∧ v = .text (joinCh ',' (Spec.panels (q * m) (q * m + m) t))) ∧
    (∀ p v, .top (ch! "rigid_group_p" ++ Nat.toDigits 10 p) v ∈ lines ↔
      p < nQuads * m ∧ v = .text (joinCh ',' (Spec.panels p (p + 1) t))) ∧
    (∀ v, .top (ch! "rigid_group_collection_quadrants") v ∈ lines ↔
      v = .text (joinCh ',' ((List.range nQuads).map (fun q => ch! "q" ++ Nat.toDigits 10 q)))) ∧
    (∀ v, .top (ch! "rigid_group_collection_asics") v ∈ lines ↔
      v = .text (joinCh ',' ((List.range (nQuads * m)).map (fun p => ch! "p" ++ Nat.toDigits 10 p)))) := by
  have hlen : ((List.range (nQuads * m)).flatMap (fun p => (List.range t).map (fun a => panelName p a))).length = nQuads * m * t := by
    simp [List.length_flatMap]
  have hk : 0 < nQuads * m := Nat.mul_pos hq hm
  simp only [rigidGroups]
  rw [arraySplit_even _ nQuads (m * t) hq (by rw [hlen, Nat.mul_assoc]), arraySplit_even _ (nQuads * m) t hk hlen]
  have eq : ∀ q, q < nQuads → (((List.range (nQuads * m)).flatMap (fun p => (List.range t).map (fun a => panelName p a))).drop
      (q * (m * t))).take (m * t) = Spec.panels (q * m) (q * m + m) t := by
    intro q hq
    rw [← Nat.mul_assoc]
    apply names_slice
    calc q * m + m = (q + 1) * m := by ring
      _ ≤ nQuads * m := Nat.mul_le_mul_right m hq
  have ep : ∀ p, p < nQuads * m → (((List.range (nQuads * m)).flatMap (fun p => (List.range t).map (fun a => panelName p a))).drop
      (p * t)).take t = Spec.panels p (p + 1) t := by
    intro p hp
    have := names_slice (nQuads * m) t p 1 (by omega)
    rwa [Nat.one_mul] at this
  simp only [List.mem_append, List.mem_map, List.mem_zipIdx_iff_getElem?, List.getElem?_map, List.mem_cons, List.not_mem_nil, or_false,
    CfLine.top.injEq, Prod.exists, Option.map_eq_some_iff]
  refine ⟨?_, ?_, ?_, ?_⟩
  · intro q v
    constructor
    · rintro ((⟨l, i, ⟨j, hj, rfl⟩, e1, e2⟩ | ⟨l, i, ⟨j, hj, rfl⟩, e1, e2⟩) | ⟨e, -⟩ | ⟨e, -⟩)
      · simp only [List.cons_append, List.nil_append, List.cons.injEq, true_and] at e1
        obtain rfl := natStr_inj e1
        obtain ⟨h1, h2⟩ := List.getElem?_eq_some_iff.1 hj
        simp only [List.length_range] at h1
        simp only [List.getElem_range] at h2
        subst h2
        rw [← e2, eq _ h1]
        exact ⟨h1, rfl⟩
      · simp at e1
      · simp at e
      · simp at e
    · rintro ⟨h1, rfl⟩
      refine Or.inl (Or.inl ⟨_, q, ⟨q, by simp [h1], rfl⟩, rfl, ?_⟩)
      rw [eq _ h1]
  · intro p v
    constructor
    · rintro ((⟨l, i, ⟨j, hj, rfl⟩, e1, e2⟩ | ⟨l, i, ⟨j, hj, rfl⟩, e1, e2⟩) | ⟨e, -⟩ | ⟨e, -⟩)
      · simp at e1
      · simp only [List.cons_append, List.nil_append, List.cons.injEq, true_and] at e1
        obtain rfl := natStr_inj e1
        obtain ⟨h1, h2⟩ := List.getElem?_eq_some_iff.1 hj
        simp only [List.length_range] at h1
        simp only [List.getElem_range] at h2
        subst h2
        rw [← e2, ep _ h1]
        exact ⟨h1, rfl⟩
      · simp at e
      · simp at e
    · rintro ⟨h1, rfl⟩
      refine Or.inl (Or.inr ⟨_, p, ⟨p, by simp [h1], rfl⟩, rfl, ?_⟩)
      rw [ep _ h1]
  · intro v
    constructor
    · rintro ((⟨l, i, -, e1, -⟩ | ⟨l, i, -, e1, -⟩) | ⟨-, e⟩ | ⟨e, -⟩)
      · simp at e1
      · simp at e1
      · exact e
      · simp at e
    · rintro rfl
      exact Or.inr (Or.inl ⟨trivial, rfl⟩)
  · intro v
    constructor
    · rintro ((⟨l, i, -, e1, -⟩ | ⟨l, i, -, e1, -⟩) | ⟨e, -⟩ | ⟨-, e⟩)
      · simp at e1
      · simp at e1
      · simp at e
      · exact e
    · rintro rfl
      exact Or.inr (Or.inr ⟨trivial, rfl⟩)

/-- A line of the file which is not one of a panel and whose key begins with rigid_group is one of the rigid groups. -/
theorem rigid_in_file {g : Geom K} {o : CfOptions K} {file : List (CfLine K)} (h : g.writeCrystfel o = .ok file) (k : Str) (v : CfVal K) :
    .top (ch! "rigid_group" ++ k) v ∈ file ↔ .top (ch! "rigid_group" ++ k) v ∈ (rigidGroups 16 (Spec.tiles g.det) 4 : List (CfLine K)) := by
  unfold Geom.writeCrystfel at h
  split at h
  · simp at h
  · obtain rfl := Except.ok.inj h
    rw [show g.det.nModules = 16 by cases g.det <;> rfl, show g.det.nTiles = Spec.tiles g.det by cases g.det <;> rfl]
    simp only [List.mem_append]
    constructor
    · rintro ((hv | hv) | hv)
      · exfalso
        unfold headerLines at hv
        simp only [List.mem_append, List.mem_cons, List.not_mem_nil, or_false, reduceCtorEq, false_or, CfLine.top.injEq] at hv
        rcases hv with (hv | hv) | hv | hv | hv | hv | hv
        · simp at hv
        · unfold maskLine at hv
          split at hv
          · simp at hv
          · split at hv <;> simp at hv
        · simp at hv
        · simp at hv
        all_goals unfold optionLine at hv; split at hv <;> simp at hv
      · exact hv
      · exfalso
        simp only [List.mem_flatMap, moduleLines] at hv
        obtain ⟨m, -, t, -, hv⟩ := hv
        simp [panelLines] at hv
    · intro hv
      exact Or.inl (Or.inr hv)

/-- C78: in a written file, each of the four quadrants has a group: the panels of its four modules; each of the 16 modules has a group:
its panels. Every panel of the detector is in exactly one group of a quadrant and one of a module. -/
theorem rigid_written (g : Geom K) (o : CfOptions K) (file : List (CfLine K)) (h : g.writeCrystfel o = .ok file) :
    (∀ q, q < 4 → ∃ s, Spec.SaysTop file (ch! "rigid_group_q" ++ Nat.toDigits 10 q) (.text s) ∧ (splitCh ',' s).Nodup ∧
      ∀ p a, Spec.panel p a ∈ splitCh ',' s ↔ p < 16 ∧ a < Spec.tiles g.det ∧ p / 4 = q) ∧
    (∀ m, m < 16 → ∃ s, Spec.SaysTop file (ch! "rigid_group_p" ++ Nat.toDigits 10 m) (.text s) ∧ (splitCh ',' s).Nodup ∧
      ∀ p a, Spec.panel p a ∈ splitCh ',' s ↔ p < 16 ∧ a < Spec.tiles g.det ∧ p = m) ∧
    (∀ n v, (4 ≤ n → .top (ch! "rigid_group_q" ++ Nat.toDigits 10 n) v ∉ file) ∧
      (16 ≤ n → .top (ch! "rigid_group_p" ++ Nat.toDigits 10 n) v ∉ file)) ∧
    (∃ s, Spec.SaysTop file (ch! "rigid_group_collection_quadrants") (.text s) ∧
      splitCh ',' s = (List.range 4).map (fun q => ch! "q" ++ Nat.toDigits 10 q)) ∧
    (∃ s, Spec.SaysTop file (ch! "rigid_group_collection_asics") (.text s) ∧
      splitCh ',' s = (List.range 16).map (fun p => ch! "p" ++ Nat.toDigits 10 p)) := by
  obtain ⟨r1, r2, r3, r4⟩ := rigid_groups (K := K) 4 4 (Spec.tiles g.det) (by decide) (by decide)
  have f1 : ∀ q v, CfLine.top (ch! "rigid_group_q" ++ Nat.toDigits 10 q) v ∈ file ↔ _ := fun q v =>
    (rigid_in_file h (ch! "_q" ++ Nat.toDigits 10 q) v).trans (r1 q v)
  have f2 : ∀ p v, CfLine.top (ch! "rigid_group_p" ++ Nat.toDigits 10 p) v ∈ file ↔ _ := fun p v =>
    (rigid_in_file h (ch! "_p" ++ Nat.toDigits 10 p) v).trans (r2 p v)
  have f3 : ∀ v, CfLine.top (ch! "rigid_group_collection_quadrants") v ∈ file ↔ _ := fun v =>
    (rigid_in_file h (ch! "_collection_quadrants") v).trans (r3 v)
  have f4 : ∀ v, CfLine.top (ch! "rigid_group_collection_asics") v ∈ file ↔ _ := fun v =>
    (rigid_in_file h (ch! "_collection_asics") v).trans (r4 v)
  have ht : 0 < Spec.tiles g.det := by cases g.det <;> decide
  have comma : ∀ (c : Char) (n : Nat), c ≠ ',' → ',' ∉ c :: Nat.toDigits 10 n := by
    intro c n hc hm
    rcases List.mem_cons.1 hm with e | e
    · exact hc e.symm
    · exact absurd (natStr_digit (n := n) e) (by decide)
  refine ⟨?_, ?_, ?_, ?_, ?_⟩
  · intro q hq
    refine ⟨_, ⟨(f1 q _).2 ⟨hq, rfl⟩, fun v' hv' => ((f1 q v').1 hv').2⟩, ?_, ?_⟩
    · rw [split_panels _ _ _ (by omega) ht]
      exact panels_nodup _ _ _
    · intro p a
      rw [split_panels _ _ _ (by omega) ht, mem_panels]
      omega
  · intro m hm
    refine ⟨_, ⟨(f2 m _).2 ⟨hm, rfl⟩, fun v' hv' => ((f2 m v').1 hv').2⟩, ?_, ?_⟩
    · rw [split_panels _ _ _ (by omega) ht]
      exact panels_nodup _ _ _
    · intro p a
      rw [split_panels _ _ _ (by omega) ht, mem_panels]
      omega
  · intro n v
    refine ⟨fun hn hv => ?_, fun hn hv => ?_⟩
    · have := ((f1 n v).1 hv).1; omega
    · have := ((f2 n v).1 hv).1; omega
  · refine ⟨_, ⟨(f3 _).2 rfl, fun v' hv' => (f3 v').1 hv'⟩, ?_⟩
    apply splitCh_joinCh
    · simp
    · intro s hs
      obtain ⟨q, -, rfl⟩ := List.mem_map.1 hs
      exact comma 'q' q (by decide)
  · refine ⟨_, ⟨(f4 _).2 rfl, fun v' hv' => (f4 v').1 hv'⟩, ?_⟩
    apply splitCh_joinCh
    · simp
    · intro s hs
      obtain ⟨q, -, rfl⟩ := List.mem_map.1 hs
      exact comma 'p' q (by decide)

/-- The header has the resolution, the paths and the values given. -/
theorem crystfel_header (g : Geom K) (o : CfOptions K) (file : List (CfLine K)) (h : g.writeCrystfel o = .ok file) :
    Spec.SaysTop file (ch! "res") (.num (1 / g.det.pixelSize)) ∧ .top (ch! "data") (.text o.dataPath) ∈ file ∧
      (∀ s, .top (ch! "mask") (.text s) ∈ file ↔ o.maskPath = some s ∧ s ≠ []) ∧
      (∀ x, .top (ch! "photon_energy") (.num x) ∈ file ↔ o.photonEnergy = some x) ∧
      (∀ x, .top (ch! "clen") (.num x) ∈ file ↔ o.clen = some x) ∧
      (∀ x, .top (ch! "adu_per_eV") (.num x) ∈ file ↔ o.aduPerEv = some x) := by
  refine ⟨says_res h, ?_⟩
  unfold Geom.writeCrystfel at h
  split at h
  · simp at h
  · next frame _ =>
    obtain rfl := Except.ok.inj h
    have hp : ∀ k v, CfLine.top k v ∉ g.modules.zipIdx.flatMap (moduleLines g o) := by
      intro k v hv
      simp only [List.mem_flatMap, moduleLines] at hv
      obtain ⟨m, -, t, -, hv⟩ := hv
      simp [panelLines] at hv
    have hmask : ∀ k v, CfLine.top k v ∈ (maskLine o.maskPath : List (CfLine K)) ↔
        k = ch! "mask" ∧ ∃ s, o.maskPath = some s ∧ s ≠ [] ∧ v = .text s := by
      intro k v
      unfold maskLine
      cases o.maskPath with
      | none => simp
      | some s =>
        by_cases hs : s = []
        · simp [hs]
        · simp [hs]
    have hopt : ∀ (k k' : Str) (v : CfVal K) (x : Option K), CfLine.top k v = optionLine k' x ↔ k = k' ∧ ∃ y, x = some y ∧ v = .num y := by
      intro k k' v x
      unfold optionLine
      cases x with
      | none => simp
      | some y => simp
    refine ⟨by simp [headerLines], ?_, ?_, ?_, ?_⟩
    · intro s
      simp only [List.mem_append, hp, or_false]
      simp [headerLines, rigidGroups, hmask, hopt]
    · intro x
      simp only [List.mem_append, hp, or_false]
      simp [headerLines, rigidGroups, hmask, hopt]
    · intro x
      simp only [List.mem_append, hp, or_false]
      simp [headerLines, rigidGroups, hmask, hopt]
    · intro x
      simp only [List.mem_append, hp, or_false]
      simp [headerLines, rigidGroups, hmask, hopt]

/-- The default dimensions have a frame dimension. -/
example : DimName.name (ch! "frame") ∈ [DimName.name (ch! "frame"), .name (ch! "modno"), .name (ch! "ss"), .name (ch! "fs")] := by decide

/-- There are complete geometries with tiles of the right size: the ones made from quadrant positions are (`lpd_quads`). -/
example : ∃ g : Geom ℚ, Spec.Complete g ∧ Spec.RightSize g ∧ (∃ p a f, Spec.IsTile g p a f ∧ a < Spec.tiles g.det) ∧
    ∃ file, g.writeCrystfel ⟨ch! "/data", none, [.name (ch! "frame"), .name (ch! "ss"), .name (ch! "fs")], none, some 5, none⟩ = .ok file := by
  obtain ⟨g, -, h1, h2, h3, -, h4⟩ := agipd_quads ([(-525, 625), (-550, -10), (520, -160), (542, 475)] : List (ℚ × ℚ)) (1 / 5000) 2 29 (by decide)
  refine ⟨g, h2, h3, ⟨0, 0, _, (h4 0 0 _).2 ⟨by decide, by decide, rfl⟩, by rw [h1]; decide⟩, ?_⟩
  exact (crystfel_written g _).2 (by decide)

end Geo
end KD
