/- Property C120: data without pulses when iterating over the trains of a detector. -/
import Verif.Props.DetIterate
import Verif.Props.DetSlow
import Verif.Spec.DetIterSlow

set_option linter.unusedSimpArgs false

namespace KD
open Spec

variable {V : Type}

theorem mem_slowParts {l : List (Nat × ModData V)} {m : Nat} {shape : List Nat} {e : Entry V} :
    (m, shape, e) ∈ slowParts l ↔ (m, ModData.slow shape e) ∈ l := by
  unfold slowParts
  rw [List.mem_filterMap]
  constructor
  · rintro ⟨⟨m', x⟩, hx, he⟩
    cases x with
    | pulse a => simp at he
    | slow s e' =>
      simp only [Option.some.injEq, Prod.mk.injEq] at he
      obtain ⟨rfl, rfl, rfl⟩ := he
      exact hx
  · intro h
    exact ⟨_, h, rfl⟩

theorem slowParts_sublist (l : List (Nat × ModData V)) : ((slowParts l).map Prod.fst).Sublist (l.map Prod.fst) := by
  induction l with
  | nil => simp [slowParts]
  | cons x l ih =>
    obtain ⟨m, x⟩ := x
    cases x with
    | pulse a => exact ih.trans (List.sublist_cons_self _ _)
    | slow s e => exact ih.cons_cons m

theorem joinKey_slow {items : List (Str × Nat × ModData V)} {key : Str} {r : IterVal V} (hk : ¬ startsWith key (ch! "image.") = true)
    (h : joinKey items key = .ok (key, r)) :
    ∃ shape, joinSizes ((slowParts ((items.filter (fun x => x.1 = key)).map Prod.snd)).map (fun x => x.2.1)) = .ok shape ∧
      r = .slow shape ((slowParts ((items.filter (fun x => x.1 = key)).map Prod.snd)).map (fun x => (x.1, x.2.2))) := by
  unfold joinKey at h
  simp only at h
  rw [if_neg hk] at h
  split at h
  · simp at h
  · next shape hs =>
    have := (Prod.mk.inj (Except.ok.inj h)).2
    exact ⟨shape, hs, this.symm⟩

theorem work_le {d : Det V} : ∀ {ms : List (Nat × Str)} {work : List (List (Nat × Str × Str))}, mapE d.workOf ms = .ok work →
    (ms.map Prod.fst).Pairwise (· < ·) → (work.flatten.map Prod.fst).Pairwise (· ≤ ·) ∧
      ∀ w ∈ work.flatten, ∃ x ∈ ms, w.1 = x.1 := by
  intro ms
  induction ms with
  | nil => intro work h _; obtain rfl := Except.ok.inj h; simp
  | cons x ms ih =>
    intro work h hp
    obtain ⟨w, ws, h1, h2, rfl⟩ := mapE_cons_ok.1 h
    obtain ⟨ks, -, rfl⟩ := workOf_ok h1
    rw [List.map_cons, List.pairwise_cons] at hp
    obtain ⟨i1, i2⟩ := ih h2 hp.2
    rw [List.flatten_cons]
    refine ⟨?_, ?_⟩
    · rw [List.map_append, List.pairwise_append]
      refine ⟨?_, i1, ?_⟩
      · rw [List.map_map, List.pairwise_map]
        exact List.pairwise_of_forall (fun a b => Nat.le_refl _)
      · intro a ha b hb
        rw [List.map_map, List.mem_map] at ha
        obtain ⟨k, -, rfl⟩ := ha
        obtain ⟨w, hw, rfl⟩ := List.mem_map.1 hb
        obtain ⟨y, hy, e⟩ := i2 w hw
        rw [e]
        exact Nat.le_of_lt (hp.1 y.1 (List.mem_map.2 ⟨y, hy, rfl⟩))
    · intro w hw
      rcases List.mem_append.1 hw with hw | hw
      · obtain ⟨k, -, rfl⟩ := List.mem_map.1 hw
        exact ⟨x, by simp, rfl⟩
      · obtain ⟨y, hy, e⟩ := i2 w hw
        exact ⟨y, by simp [hy], e⟩

/-- What is collected for one train. -/
theorem collected_mem {d : Det V} {libs : Libs} {num : V → Nat} {ps : Pulses} {t : Nat} {work : List (List (Nat × Str × Str))}
    {l : List (Option (Str × Nat × ModData V))} (hw : mapE d.workOf d.modules = .ok work)
    (hl : mapE (d.pureKey libs num ps t) work.flatten = .ok l) (key : Str) (m : Nat) (b : ModData V) :
    (key, m, b) ∈ l.filterMap id ↔ ∃ source ks, (m, source) ∈ d.modules ∧ d.data.keysForSource source = .ok ks ∧ key ∈ ks ∧
      d.pureKey libs num ps t (m, source, key) = .ok (some (key, m, b)) := by
  rw [List.mem_filterMap]
  constructor
  · rintro ⟨o, ho, he⟩
    obtain rfl : o = some (key, m, b) := he
    obtain ⟨w, hww, hwp⟩ := (mapE_mem hl).1 ho
    obtain ⟨e1, e2⟩ := pureKey_tag hwp
    obtain ⟨ws, hws, hww⟩ := List.mem_flatten.1 hww
    obtain ⟨y, hy, hyw⟩ := (mapE_mem hw).1 hws
    obtain ⟨ks, hks, rfl⟩ := workOf_ok hyw
    obtain ⟨k, hk', rfl⟩ := List.mem_map.1 hww
    simp only at e1 e2
    subst e1 e2
    exact ⟨y.2, ks, hy, hks, hk', hwp⟩
  · rintro ⟨source, ks, hs, hks, hk', hp⟩
    refine ⟨_, ?_, rfl⟩
    rw [mapE_mem hl]
    refine ⟨_, ?_, hp⟩
    obtain ⟨ws, hws, hww⟩ := mapE_ok_all hw hs
    obtain ⟨ks', hks', rfl⟩ := workOf_ok hww
    rw [hks] at hks'
    obtain rfl := Except.ok.inj hks'
    exact List.mem_flatten.2 ⟨_, hws, List.mem_map.2 ⟨key, hk', rfl⟩⟩

theorem iterEntry_valid {f : FileAccess V} {s k : Str} {pos t : Nat} {ds : Dataset V} (hv : IndexedField f true s k)
    (hp : f.trainIds[pos]? = some t) (hds : f.dataset (ch! "INSTRUMENT") s k = .ok ds) (hne : fileEntries f true s k t ≠ []) :
    ∃ e, iterInstrumentEntry s (f, pos, ds) k = .ok e ∧ shown (fileEntries f true s k t) = some e ∧
      entryDims ds.rowShape e = sizesOf ds.rowShape (fileEntries f true s k t) := by
  obtain ⟨firsts, counts, ds', a, n, h1, h2, h3, h4, h5, h6⟩ := fileEntries_at hv hp
  rw [show f.dataset (ch! "INSTRUMENT") s k = .ok ds' from h2] at hds
  obtain rfl := Except.ok.inj hds
  have hlen := slice_length h5
  have hsh := shown_slice h5
  unfold iterInstrumentEntry
  rw [show f.getIndex s (partition '.' k).1 = .ok (firsts, counts) from h1]
  simp only [nth_ok_iff.2 h3, nth_ok_iff.2 h4]
  rw [h6] at hne ⊢
  have h0 : n ≠ 0 := by
    rintro rfl
    exact hne (List.length_eq_zero_iff.1 hlen)
  rw [if_neg h0] at hsh
  by_cases h1' : n = 1
  · subst h1'
    have hlt : a < ds'.rows.length := by omega
    rw [if_pos rfl, List.getElem?_eq_getElem hlt] at hsh
    simp only [if_true, Dataset.row, nth_ok_of_lt hlt]
    refine ⟨_, rfl, hsh, ?_⟩
    obtain ⟨v, hv'⟩ := List.length_eq_one_iff.1 hlen
    rw [hv']
    rfl
  · rw [if_neg h1'] at hsh
    simp only [if_neg h1', sl_eq_slice]
    refine ⟨_, rfl, hsh, ?_⟩
    unfold sizesOf
    split
    · next v hv' => rw [hv'] at hlen; simp at hlen; omega
    · rfl

/-- C120. When iterating over the trains of a detector, a key of other data than images is there for a train exactly when a module has this
key. The array then has one part for each module with the key, in the order of the module numbers: the entry of the module in this train,
or all of them if there are several. All these have a shape with which the shape of the array begins (xarray repeats smaller ones), and one
of them has this shape. -/
theorem iterate_slow {kind : Option Str} {c : DC V} {name : Option Str} {modules : Option (List Nat)} {minModules : Int}
    {d : Det V} {libs : Libs} {num : V → Nat} {key : Str} {arg : PulseArg} {items : List (Nat × Dict Str (IterVal V))}
    (hd : Det.init kind c name modules minModules = .ok d) (h : d.trains libs num arg = .ok items)
    (hp : PlainSources d) (hgood : GoodData d.data) (hsrc : ∀ x ∈ d.sourceToModno, x.1 ∈ d.data.instrumentSources)
    (hk : ¬ ∃ rest, key = ch! "image." ++ rest) {t : Nat} {x : Dict Str (IterVal V)} (ht : (t, x) ∈ items) :
    (x.get? key ≠ none ↔ ∃ y ∈ d.sourceToModno, Available d.data y.1 key) ∧
    ∀ r, x.get? key = some r → ∃ shape l, r = .slow shape l ∧ (l.map Prod.fst).Pairwise (· < ·) ∧
      (∀ m e, (m, e) ∈ l ↔ ∃ source, (source, m) ∈ d.sourceToModno ∧ Available d.data source key ∧ ShowsEntry c source key t e) ∧
      (∀ source m sizes, (source, m) ∈ d.sourceToModno → Available d.data source key → HasSizes c source key t sizes →
        m ∈ l.map Prod.fst ∧ sizes <+: shape) ∧
      ∃ source m, (source, m) ∈ d.sourceToModno ∧ Available d.data source key ∧ HasSizes c source key t shape := by
  obtain ⟨hn, hsort, -, -, hfs, hfs'⟩ := init_data hd hp
  obtain ⟨hmods, hord⟩ := detector_modules hd
  obtain ⟨ps, hps, hsub, hass, hin⟩ := detTrains_ok hn h
  obtain ⟨htd, hcomp⟩ := (hin t).1 (List.mem_map.2 ⟨_, ht, rfl⟩)
  rw [checkDataMissing_good hn hgood] at hcomp
  have hcomp : Complete d.data t := by simpa using hcomp
  have hmn : (d.modules.map Prod.fst).Nodup := hord.imp (fun h => by omega)
  have hki : ¬ startsWith key (ch! "image.") = true := fun h => hk (startsWith_iff.1 h)
  have hsa : ∀ s m, (s, m) ∈ d.sourceToModno → s ∈ d.data.allSources := by
    intro s m hs
    have := hsrc (s, m) hs
    simp [DC.allSources, this]
  have hx := hass t x ht
  unfold Det.pureAssemble at hx
  split at hx
  · simp at hx
  next work hw =>
  split at hx
  · simp at hx
  next l hl =>
  -- one module with the key
  have hone : ∀ s m, (s, m) ∈ d.sourceToModno → Available d.data s key → ∃ f ∈ c.files, Holds f s ∧ t ∈ f.trainIds ∧
      ∃ ds e, f.dataset (ch! "INSTRUMENT") s key = .ok ds ∧ shown (fileEntries f true s key t) = some e ∧
        d.pureKey libs num ps t (m, s, key) = .ok (some (key, m, .slow (sizesOf ds.rowShape (fileEntries f true s key t)) e)) ∧
        ∀ g ∈ c.files, Holds g s → t ∈ g.trainIds → g = f := by
    intro s m hs hav
    obtain ⟨g, g1, g2, g3⟩ := hcomp.1 s (hsa s m hs)
    obtain ⟨pos, hfd⟩ := findData_of_mem hn g1 g2 g3
    obtain ⟨-, -, hpos, -⟩ := findData_some hfd
    have hiv := hgood.instr s (hsrc _ hs) key hav g g1 g2
    obtain ⟨firsts, counts, ds, -, h2, -⟩ := hiv.data
    have h2 : g.dataset (ch! "INSTRUMENT") s key = .ok ds := h2
    obtain ⟨e, e1, e2, e3⟩ := iterEntry_valid hiv hpos h2 (hcomp.2 s (hsrc _ hs) key hav g g1 g2 g3)
    refine ⟨g, hfs g g1, g2, g3, ds, e, h2, e2, ?_, ?_⟩
    · unfold Det.pureKey Det.pureFind
      simp only [hfd, h2]
      rw [if_neg hki, e1, ← e3]
    · intro g' k1 k2 k3
      exact same_file hn (hfs' g' k1 (s, m) hs k2 ⟨t, htd, k3⟩) g1 k2 g2 k3 g3
  -- what was collected for the key
  have hitem : ∀ m b, (key, m, b) ∈ l.filterMap id ↔ ∃ s, (s, m) ∈ d.sourceToModno ∧ Available d.data s key ∧
      d.pureKey libs num ps t (m, s, key) = .ok (some (key, m, b)) := by
    intro m b
    rw [collected_mem hw hl]
    constructor
    · rintro ⟨s, ks, h1, h2, h3, h4⟩
      have h1 := (hmods s m).1 h1
      exact ⟨s, h1, (available_keys (hsa s m h1) h2).1 h3, h4⟩
    · rintro ⟨s, h1, ⟨-, ks, h2, h3⟩, h4⟩
      exact ⟨s, ks, (hmods s m).2 h1, h2, h3, h4⟩
  have hparts : ∀ m shape e, (m, shape, e) ∈ slowParts (((l.filterMap id).filter (fun x => x.1 = key)).map Prod.snd) ↔
      (key, m, ModData.slow shape e) ∈ l.filterMap id := by
    intro m shape e
    rw [mem_slowParts, List.mem_map]
    constructor
    · rintro ⟨⟨k', m', y⟩, hy, heq⟩
      obtain ⟨h1, h2⟩ := List.mem_filter.1 hy
      simp only [decide_eq_true_eq] at h2
      subst h2
      obtain ⟨rfl, rfl⟩ := Prod.mk.inj heq
      exact h1
    · intro hy
      exact ⟨_, List.mem_filter.2 ⟨hy, by simp⟩, rfl⟩
  refine ⟨⟨?_, ?_⟩, ?_⟩
  · intro hne
    obtain ⟨r, hr⟩ := Option.ne_none_iff_exists'.1 hne
    obtain ⟨key', hk', hj⟩ := (mapE_mem hx).1 (Dict.mem_of_get? hr)
    have := joinKey_fst hj
    simp only at this
    subst this
    rw [List.mem_dedup, List.mem_map] at hk'
    obtain ⟨⟨k, m, b⟩, hb, rfl⟩ := hk'
    obtain ⟨s, h1, h2, -⟩ := (hitem m b).1 hb
    exact ⟨_, h1, h2⟩
  · rintro ⟨⟨s, m⟩, hs, hav⟩
    obtain ⟨f, -, -, -, ds, e, -, -, hpk, -⟩ := hone s m hs hav
    have hmem := (hitem m _).2 ⟨s, hs, hav, hpk⟩
    obtain ⟨y, hy, hj⟩ := mapE_ok_all hx (List.mem_dedup.2 (List.mem_map.2 ⟨_, hmem, rfl⟩))
    have := joinKey_fst hj
    simp only at this
    intro hno
    exact Dict.get?_none_iff.1 hno (List.mem_map.2 ⟨y, hy, this⟩)
  · intro r hr
    obtain ⟨key', hk', hj⟩ := (mapE_mem hx).1 (Dict.mem_of_get? hr)
    have := joinKey_fst hj
    simp only at this
    subst this
    obtain ⟨shape, hs, rfl⟩ := joinKey_slow hki hj
    obtain ⟨j1, j2⟩ := joinSizes_ok hs
    refine ⟨shape, _, rfl, ?_, ?_, ?_, ?_⟩
    · rw [List.map_map]
      show ((slowParts _).map Prod.fst).Pairwise _
      refine List.Pairwise.sublist (slowParts_sublist _) ?_
      have hle := (work_le hw hord).1
      have hsl := collected_sublist hl
      have hnd := (work_nodup hw hmn).sublist hsl
      have hle' : (((l.filterMap id).map (fun y => (y.1, y.2.1))).map Prod.snd).Pairwise (· ≤ ·) := by
        refine List.Pairwise.sublist (hsl.map Prod.snd) ?_
        rw [List.map_map]
        exact hle
      rw [List.map_map] at hle' ⊢
      rw [List.pairwise_map] at hle' ⊢
      unfold List.Nodup at hnd
      rw [List.pairwise_map] at hnd
      have hboth := (hle'.and hnd).filter (fun x => decide (x.1 = key))
      refine hboth.imp_of_mem ?_
      intro a b ha hb hab
      have ha := (List.mem_filter.1 ha).2
      have hb := (List.mem_filter.1 hb).2
      simp only [decide_eq_true_eq] at ha hb
      obtain ⟨h1, h2⟩ := hab
      simp only [Function.comp_apply, ne_eq, Prod.mk.injEq, not_and] at h1 h2 ⊢
      have := h2 (ha.trans hb.symm)
      omega
    · intro m e
      rw [List.mem_map]
      constructor
      · rintro ⟨⟨m', sh, e'⟩, hy, heq⟩
        obtain ⟨rfl, rfl⟩ := Prod.mk.inj heq
        obtain ⟨s, h1, h2, h3⟩ := (hitem _ _).1 ((hparts _ _ _).1 hy)
        obtain ⟨f, f1, f2, f3, ds, e'', -, f5, f6, -⟩ := hone s m' h1 h2
        rw [f6] at h3
        simp only [Except.ok.injEq, Option.some.injEq, Prod.mk.injEq, ModData.slow.injEq, true_and] at h3
        obtain ⟨-, rfl⟩ := h3
        exact ⟨s, h1, h2, f, f1, f2, f3, f5⟩
      · rintro ⟨s, h1, h2, g, g1, g2, g3, g4⟩
        obtain ⟨f, f1, f2, f3, ds, e', -, f5, f6, f7⟩ := hone s m h1 h2
        obtain rfl := f7 g g1 g2 g3
        rw [f5] at g4
        obtain rfl := Option.some.inj g4
        exact ⟨_, (hparts _ _ _).2 ((hitem m _).2 ⟨s, h1, h2, f6⟩), rfl⟩
    · rintro s m sizes h1 h2 ⟨g, g1, g2, g3, ds', g4, rfl⟩
      obtain ⟨f, f1, f2, f3, ds, e', f4, f5, f6, f7⟩ := hone s m h1 h2
      obtain rfl := f7 g g1 g2 g3
      rw [f4] at g4
      obtain rfl := Except.ok.inj g4
      have hmem := (hparts _ _ _).2 ((hitem m _).2 ⟨s, h1, h2, f6⟩)
      refine ⟨?_, j1 _ (List.mem_map.2 ⟨_, hmem, rfl⟩)⟩
      rw [List.map_map]
      exact List.mem_map.2 ⟨_, hmem, rfl⟩
    · rw [List.mem_dedup, List.mem_map] at hk'
      obtain ⟨⟨k, m, b⟩, hb, rfl⟩ := hk'
      obtain ⟨s, h1, h2, h3⟩ := (hitem m b).1 hb
      obtain ⟨f, f1, f2, f3, ds, e', f4, f5, f6, f7⟩ := hone s m h1 h2
      have hmem := (hparts _ _ _).2 ((hitem m _).2 ⟨s, h1, h2, f6⟩)
      obtain ⟨⟨m', sh, e''⟩, hy, heq⟩ := List.mem_map.1 (j2 (by
        intro h0
        rw [List.map_eq_nil_iff] at h0
        rw [h0] at hmem
        simp at hmem))
      simp only at heq
      subst heq
      obtain ⟨s', h1', h2', h3'⟩ := (hitem _ _).1 ((hparts _ _ _).1 hy)
      obtain ⟨g, g1, g2, g3, ds', e3, g4, -, g6, -⟩ := hone s' m' h1' h2'
      rw [g6] at h3'
      simp only [Except.ok.injEq, Option.some.injEq, Prod.mk.injEq, ModData.slow.injEq, true_and] at h3'
      exact ⟨s', m', h1', h2', g, g1, g2, g3, ds', g4, h3'.1.symm⟩

/-- C120. If the data of two modules in a complete train have shapes of which none begins with the other, iterating fails. -/
theorem iterate_slow_refused {kind : Option Str} {c : DC V} {name : Option Str} {modules : Option (List Nat)} {minModules : Int}
    {d : Det V} {libs : Libs} {num : V → Nat} {key : Str} {arg : PulseArg}
    (hd : Det.init kind c name modules minModules = .ok d)
    (hp : PlainSources d) (hgood : GoodData d.data) (hsrc : ∀ x ∈ d.sourceToModno, x.1 ∈ d.data.instrumentSources)
    (hk : ¬ ∃ rest, key = ch! "image." ++ rest) {t : Nat} (ht : t ∈ d.data.trainIds) (hcomp : Complete d.data t)
    {y z : Str × Nat} (hy : y ∈ d.sourceToModno) (hz : z ∈ d.sourceToModno) (hya : Available d.data y.1 key)
    (hza : Available d.data z.1 key) {s s' : List Nat} (hs : HasSizes c y.1 key t s) (hs' : HasSizes c z.1 key t s')
    (h1 : ¬ s <+: s') (h2 : ¬ s' <+: s) : ∃ e, d.trains libs num arg = .error e := by
  cases h : d.trains libs num arg with
  | error e => exact ⟨e, rfl⟩
  | ok items =>
    exfalso
    obtain ⟨⟨t', x⟩, hx, rfl⟩ := List.mem_map.1 (((iterate_trains hd h hp hgood).2 t).2 ⟨ht, hcomp⟩)
    obtain ⟨a1, a2⟩ := iterate_slow hd h hp hgood hsrc hk hx
    obtain ⟨r, hr⟩ := Option.ne_none_iff_exists'.1 (a1.2 ⟨y, hy, hya⟩)
    obtain ⟨shape, l, -, -, -, b, -⟩ := a2 r hr
    rcases List.prefix_or_prefix_of_prefix (b y.1 y.2 s hy hya hs).2 (b z.1 z.2 s' hz hza hs').2 with h | h
    · exact h1 h
    · exact h2 h

/-- C120. Iterating and `get_array` agree on data without pulses: what iterating gives for a module in a train are the entries which
`get_array` has for it at the places labelled with this train. -/
theorem iterate_slow_agrees {kind : Option Str} {c : DC V} {name : Option Str} {modules : Option (List Nat)} {minModules : Int}
    {d : Det V} {libs libs' : Libs} {num : V → Nat} {key : Str} {arg arg' : PulseArg} {items : List (Nat × Dict Str (IterVal V))}
    {whole : SlowArr V} (hd : Det.init kind c name modules minModules = .ok d) (h : d.trains libs num arg = .ok items)
    (hw : d.getArray libs' num key arg' = .ok (.slow whole))
    (hp : PlainSources d) (hgood : GoodData d.data) (hsrc : ∀ x ∈ d.sourceToModno, x.1 ∈ d.data.instrumentSources)
    (hv : ∀ x ∈ d.sourceToModno, FollowsIn d.data d.data.trainIds true x.1 key)
    (hk : ¬ ∃ rest, key = ch! "image." ++ rest) {t : Nat} {x : Dict Str (IterVal V)} (ht : (t, x) ∈ items)
    {shape : List Nat} {l : List (Nat × Entry V)} (hx : x.get? key = some (.slow shape l)) {m : Nat} {e : Entry V} (he : (m, e) ∈ l) :
    ∃ (i : Nat) (col : List (Option V)), whole.modules[i]? = some m ∧ whole.rows[i]? = some col ∧
      shown (entriesAt whole.labels col t) = some e := by
  obtain ⟨hn, -, -, -, hfs, hfs'⟩ := init_data hd hp
  obtain ⟨shape', l', hl, -, h2, -, -⟩ := (iterate_slow hd h hp hgood hsrc hk ht).2 _ hx
  obtain ⟨rfl, rfl⟩ := IterVal.slow.inj hl
  obtain ⟨s, h3, h4, f, f1, f2, f3, f4⟩ := (h2 m e).1 he
  obtain ⟨a, ha, -, hmem, -⟩ := slow_array_modules hd hk hw
  obtain rfl := DetResult.slow.inj ha
  obtain ⟨i, hi⟩ := List.mem_iff_getElem?.1 ((hmem m).2 ⟨s, h3⟩)
  obtain ⟨col, c1, -, c3, -⟩ := slow_array_cells hd hp hk hw h3 hi (hv _ h3)
  have htd : t ∈ d.data.trainIds := (((iterate_trains hd h hp hgood).2 t).1 (List.mem_map.2 ⟨_, ht, rfl⟩)).1
  refine ⟨i, col, hi, c1, ?_⟩
  rw [c3 t htd f (hfs' f f1 _ h3 f2 ⟨t, htd, f3⟩) f2 f3]
  exact f4

end KD

namespace KD
open Spec

set_option maxRecDepth 20000 in
/-- Iterating over the example of data without pulses: only train 10 has everything. -/
theorem exSlow_iterate :
    (exSlowDet.trains ⟨true, true⟩ id (.by_ false (.slice .none .none .none))).map (List.map Prod.fst) = .ok [10] ∧
    (exSlowDet.trains ⟨true, true⟩ id (.by_ false (.slice .none .none .none))).map
      (fun l => l.head?.bind (fun x => x.2.get? (ch! "detector.data"))) = .ok (some (.slow [3] [(0, .one 2000), (3, .one 1000)])) := by
  decide

set_option maxRecDepth 20000 in
theorem exSlow_good : GoodData exSlowDet.data := by
  have e : exSlowDet.data.instrumentSources = [exSource '3', exSource '0'] := by decide
  have ec : exSlowDet.data.controlSources = [] := by decide
  have ea : exSlowDet.data.allSources = [exSource '3', exSource '0'] := by decide
  have ek : ∀ s ∈ [exSource '3', exSource '0'], exSlowDet.data.keysForSource s =
      .ok [ch! "image.pulseId", ch! "image.data", ch! "image.cellId", ch! "detector.data"] := by decide
  refine ⟨?_, ?_, ?_⟩
  · intro s hs
    rw [ea] at hs
    exact ⟨_, ek s hs⟩
  · intro s hs k hav f hf hh
    rw [e] at hs
    have hk := (available_keys (by rw [ea]; exact hs) (ek s hs)).2 hav
    have hf' : f = exSlow '3' [5, 7, 5, 7] [100, 101, 110, 111] [0, 1, 1] [1, 0, 1] [1000, 1200] [2, 2, 0] ∨
        f = exSlow '0' [5, 7, 5, 7, 5, 7] [200, 201, 210, 211, 220, 221] [0, 1, 2] [1, 1, 0] [2000, 2100] [2, 2, 2] := by
      rcases List.mem_cons.1 hf with h | h
      · exact Or.inl h
      · exact Or.inr (List.mem_singleton.1 h)
    clear hav
    simp only [List.mem_cons, List.not_mem_nil, or_false] at hs hk
    rcases hs with rfl | rfl <;> rcases hf' with rfl | rfl
    · rcases hk with rfl | rfl | rfl | rfl
      · exact ⟨by decide, by decide, [0, 2, 4], [2, 2, 0], ⟨[5, 7, 5, 7], [], 0⟩, by decide, by decide, by decide, by decide,
          inBounds_cons (by decide) (inBounds_cons (by decide) (inBounds_cons (by decide) (inBounds_nil _)))⟩
      · exact ⟨by decide, by decide, [0, 2, 4], [2, 2, 0], ⟨[100, 101, 110, 111], [1, 2, 2], 0⟩, by decide, by decide, by decide, by decide,
          inBounds_cons (by decide) (inBounds_cons (by decide) (inBounds_cons (by decide) (inBounds_nil _)))⟩
      · exact ⟨by decide, by decide, [0, 2, 4], [2, 2, 0], ⟨[5, 7, 5, 7], [], 0⟩, by decide, by decide, by decide, by decide,
          inBounds_cons (by decide) (inBounds_cons (by decide) (inBounds_cons (by decide) (inBounds_nil _)))⟩
      · exact ⟨by decide, by decide, [0, 1, 1], [1, 0, 1], ⟨[1000, 1200], [3], 0⟩, by decide, by decide, by decide, by decide,
          inBounds_cons (by decide) (inBounds_cons (by decide) (inBounds_cons (by decide) (inBounds_nil _)))⟩
    · exact absurd hh (by unfold Holds; decide)
    · exact absurd hh (by unfold Holds; decide)
    · rcases hk with rfl | rfl | rfl | rfl
      · exact ⟨by decide, by decide, [0, 2, 4], [2, 2, 2], ⟨[5, 7, 5, 7, 5, 7], [], 0⟩, by decide, by decide, by decide, by decide,
          inBounds_cons (by decide) (inBounds_cons (by decide) (inBounds_cons (by decide) (inBounds_nil _)))⟩
      · exact ⟨by decide, by decide, [0, 2, 4], [2, 2, 2], ⟨[200, 201, 210, 211, 220, 221], [1, 2, 2], 0⟩, by decide, by decide, by decide,
          by decide, inBounds_cons (by decide) (inBounds_cons (by decide) (inBounds_cons (by decide) (inBounds_nil _)))⟩
      · exact ⟨by decide, by decide, [0, 2, 4], [2, 2, 2], ⟨[5, 7, 5, 7, 5, 7], [], 0⟩, by decide, by decide, by decide, by decide,
          inBounds_cons (by decide) (inBounds_cons (by decide) (inBounds_cons (by decide) (inBounds_nil _)))⟩
      · exact ⟨by decide, by decide, [0, 1, 2], [1, 1, 0], ⟨[2000, 2100], [3], 0⟩, by decide, by decide, by decide, by decide,
          inBounds_cons (by decide) (inBounds_cons (by decide) (inBounds_cons (by decide) (inBounds_nil _)))⟩
  · intro s hs
    rw [ec] at hs
    simp at hs

/-- `iterate_slow` applies to the example, and `iterate_slow_agrees` with the array of `exSlow_array`. -/
example : ∃ items t x shape l, exSlowDet.trains ⟨true, true⟩ id (.by_ false (.slice .none .none .none)) = .ok items ∧ (t, x) ∈ items ∧
    x.get? (ch! "detector.data") = some (.slow shape l) ∧ l.map Prod.fst = [0, 3] ∧
    ∃ source, (source, 3) ∈ exSlowDet.sourceToModno ∧ ShowsEntry exSlowData source (ch! "detector.data") t (.one 1000) := by
  obtain ⟨h1, h2⟩ := exSlow_iterate
  cases h : exSlowDet.trains ⟨true, true⟩ id (.by_ false (.slice .none .none .none)) with
  | error e => rw [h] at h1; simp [Except.map] at h1
  | ok items =>
    rw [h] at h2
    simp only [Except.map, Except.ok.injEq] at h2
    obtain ⟨⟨t, x⟩, hx, hg⟩ := Option.bind_eq_some_iff.1 h2
    have hmem : (t, x) ∈ items := List.mem_of_mem_head? hx
    refine ⟨items, t, x, _, _, rfl, hmem, hg, rfl, ?_⟩
    have hk : ¬ ∃ rest, ch! "detector.data" = ch! "image." ++ rest := by
      rintro ⟨rest, h⟩
      simp at h
    obtain ⟨shape, l, hl, -, h3, -⟩ := (iterate_slow exSlow_init h exSlow_valid.1 exSlow_good (by decide) hk hmem).2 _ hg
    obtain ⟨rfl, rfl⟩ := IterVal.slow.inj hl
    obtain ⟨s, s1, -, s2⟩ := (h3 3 (.one 1000)).1 (by simp)
    exact ⟨s, s1, s2⟩

/-- Two modules whose data have different shapes: 3 entries of 3 numbers each, and one entry of 4 numbers. -/
def exSlowMixed : DC Nat where
  files := [exSlow '3' [5, 7, 5, 7] [100, 101, 110, 111] [0, 3, 3] [3, 0, 1] [1000, 1001, 1002, 1200] [2, 2, 0],
    (fun f : FileAccess Nat => { f with file := { f.file with datasets := f.file.datasets.map (fun p =>
      if p.2.rowShape = [3] then (p.1, { p.2 with rowShape := [4] }) else p) } })
      (exSlow '0' [5, 7, 5, 7, 5, 7] [200, 201, 210, 211, 220, 221] [0, 1, 2] [1, 1, 0] [2000, 2100] [2, 2, 2])]
  selection := [(exSource '3', none), (exSource '0', none)]
  trainIds := [10, 11, 12]
  ctxCloses := true

set_option maxRecDepth 20000 in
/-- The case of `iterate_slow_refused` occurs: shapes [3, 3] and [4]. -/
example : (match Det.init none exSlowMixed none none 1 with
    | .ok d => d.trains ⟨true, true⟩ id (.by_ false (.slice .none .none .none))
    | .error e => .error e) = .error .value := by decide

end KD
