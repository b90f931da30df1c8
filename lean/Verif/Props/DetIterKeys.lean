/- Properties C55, C56, C57: which image keys and modules are there when iterating over the trains of a detector, and the labels. -/
import Verif.Props.DetIterSlow

set_option linter.unusedSimpArgs false

namespace KD
open Spec

variable {V : Type}

/-- C55, C56, C57. When iterating over the trains of a detector, an image key is there for a train exactly when a module has this key. It
then is an array with one part for each module with this key, in the order of the module numbers, and has entries for no other. The only train with which entries can be
labelled is this one, and the labels for trains and pulses are those of its entries, in increasing order. -/
theorem iterate_labels {kind : Option Str} {c : DC V} {name : Option Str} {modules : Option (List Nat)} {minModules : Int}
    {d : Det V} {libs : Libs} {num : V → Nat} {key : Str} {arg : PulseArg} {items : List (Nat × Dict Str (IterVal V))}
    (hd : Det.init kind c name modules minModules = .ok d) (h : d.trains libs num arg = .ok items)
    (hp : PlainSources d) (hgood : GoodData d.data) (hsrc : ∀ x ∈ d.sourceToModno, x.1 ∈ d.data.instrumentSources)
    (hk : ∃ rest, key = ch! "image." ++ rest) {t : Nat} {x : Dict Str (IterVal V)} (ht : (t, x) ∈ items) :
    (x.get? key ≠ none ↔ ∃ y ∈ d.sourceToModno, Available d.data y.1 key) ∧
    ∀ r, x.get? key = some r → ∃ a, r = .pulses a ∧ a.modules.Pairwise (· < ·) ∧
      (∀ m, m ∈ a.modules ↔ ∃ source, (source, m) ∈ d.sourceToModno ∧ Available d.data source key) ∧
      (∀ m u p v, a.cell m u p = some v → m ∈ a.modules) ∧
      ((∀ y ∈ d.sourceToModno, Available d.data y.1 key → FramesIndexed c y.1 key) →
        (∀ u, u ∈ a.trains ↔ u = t ∧ ∃ m p v, a.cell m t p = some v) ∧
        (∀ p, p ∈ a.pulses ↔ ∃ m v, a.cell m t p = some v) ∧ a.pulses.Pairwise (· < ·)) := by
  obtain ⟨hn, hsort, -, -, hfs, hfs'⟩ := init_data hd hp
  obtain ⟨hmods, hord⟩ := detector_modules hd
  obtain ⟨ps, hps, hsub, hass, hin⟩ := detTrains_ok hn h
  obtain ⟨htd, hcomp⟩ := (hin t).1 (List.mem_map.2 ⟨_, ht, rfl⟩)
  rw [checkDataMissing_good hn hgood] at hcomp
  have hcomp : Complete d.data t := by simpa using hcomp
  have hmn : (d.modules.map Prod.fst).Nodup := hord.imp (fun h => by omega)
  have hki : startsWith key (ch! "image.") = true := startsWith_iff.2 hk
  have hsa : ∀ s m, (s, m) ∈ d.sourceToModno → s ∈ d.data.allSources := by
    intro s m hs
    have := hsrc (s, m) hs
    simp [DC.allSources, this]
  have hx := hass t x ht
  have hx' := hx
  unfold Det.pureAssemble at hx
  split at hx
  · simp at hx
  next work hw =>
  split at hx
  · simp at hx
  next l hl =>
  -- one module with the key
  have hone : ∀ s m, (s, m) ∈ d.sourceToModno → Available d.data s key → ∃ f ∈ d.data.files, Holds f s ∧ ∃ (pos : Nat) (ds : Dataset V),
      f.trainIds[pos]? = some t ∧ f.dataset (ch! "INSTRUMENT") s key = .ok ds ∧
      ∃ b, iterPulseData libs num s key ps t (f, pos, ds) = .ok b ∧
        d.pureKey libs num ps t (m, s, key) = .ok (some (key, m, .pulse b)) := by
    intro s m hs hav
    obtain ⟨g, g1, g2, g3⟩ := hcomp.1 s (hsa s m hs)
    obtain ⟨pos, hfd⟩ := findData_of_mem hn g1 g2 g3
    obtain ⟨-, -, hpos, -⟩ := findData_some hfd
    obtain ⟨firsts, counts, ds, -, h2, -⟩ := (hgood.instr s (hsrc _ hs) key hav g g1 g2).data
    have h2 : g.dataset (ch! "INSTRUMENT") s key = .ok ds := h2
    obtain ⟨-, ks, hks, hkk⟩ := hav
    have hwk : (m, s, key) ∈ work.flatten := by
      obtain ⟨ws, hws, hww⟩ := mapE_ok_all hw ((hmods s m).2 hs)
      obtain ⟨ks', hks', rfl⟩ := workOf_ok hww
      simp only at hks'
      rw [hks] at hks'
      obtain rfl := Except.ok.inj hks'
      exact List.mem_flatten.2 ⟨_, hws, List.mem_map.2 ⟨key, hkk, rfl⟩⟩
    obtain ⟨o, -, ho⟩ := mapE_ok_all hl hwk
    refine ⟨g, g1, g2, pos, ds, hpos, h2, ?_⟩
    have ho' := ho
    unfold Det.pureKey Det.pureFind at ho'
    simp only [hfd, h2] at ho'
    rw [if_pos hki] at ho'
    split at ho'
    · simp at ho'
    · next b hb =>
      obtain rfl := Except.ok.inj ho'
      exact ⟨b, hb, ho⟩
  have hitem : ∀ m b, (key, m, b) ∈ l.filterMap id ↔ ∃ s, (s, m) ∈ d.sourceToModno ∧ Available d.data s key ∧
      d.pureKey libs num ps t (m, s, key) = .ok (some (key, m, b)) := by
    intro m b
    rw [collected_mem hw hl]
    constructor
    · rintro ⟨s, ks, h1, h2, h3, h4⟩
      have h1 := (hmods s m).1 h1
      exact ⟨s, h1, (available_keys (hsa s m h1) h2).1 h3, h4⟩
    · rintro ⟨s, h1, ⟨-, ks, h2, h3⟩, h4⟩
      exact ⟨s, ks, (hmods s m).2 h1, h2, h3, h4⟩
  refine ⟨⟨?_, ?_⟩, ?_⟩
  · intro hne
    obtain ⟨r, hr⟩ := Option.ne_none_iff_exists'.1 hne
    obtain ⟨key', hk', hj⟩ := (mapE_mem hx).1 (Dict.mem_of_get? hr)
    have := joinKey_fst hj
    simp only at this
    subst this
    rw [List.mem_dedup, List.mem_map] at hk'
    obtain ⟨⟨k, m, b⟩, hb, rfl⟩ := hk'
    obtain ⟨s, h1, h2, -⟩ := (hitem m b).1 hb
    exact ⟨_, h1, h2⟩
  · rintro ⟨⟨s, m⟩, hs, hav⟩
    obtain ⟨f, -, -, pos, ds, -, -, b, -, hpk⟩ := hone s m hs hav
    have hmem := (hitem m _).2 ⟨s, hs, hav, hpk⟩
    obtain ⟨y, hy, hj⟩ := mapE_ok_all hx (List.mem_dedup.2 (List.mem_map.2 ⟨_, hmem, rfl⟩))
    have := joinKey_fst hj
    simp only at this
    intro hno
    exact Dict.get?_none_iff.1 hno (List.mem_map.2 ⟨y, hy, this⟩)
  · intro r hr
    obtain ⟨key', hk', hj⟩ := (mapE_mem hx).1 (Dict.mem_of_get? hr)
    have := joinKey_fst hj
    simp only at this
    subst this
    obtain ⟨a, rfl, hcat⟩ : ∃ a, r = .pulses a ∧
        concatModules (pulseParts (((l.filterMap id).filter (fun x => x.1 = key)).map Prod.snd)) = .ok a := by
      unfold joinKey at hj
      simp only at hj
      rw [if_pos hki] at hj
      split at hj
      · simp at hj
      · next a ha => exact ⟨a, ((Prod.mk.inj (Except.ok.inj hj)).2).symm, ha⟩
    obtain ⟨-, l', hcat', hnd, hl'⟩ := pureAssemble_get hx' hr hmn
    obtain ⟨e1, -⟩ := concatModules_ok hcat
    obtain ⟨e1', e2, e3, e4, -⟩ := concatModules_ok hcat'
    have hmem : ∀ m, m ∈ a.modules ↔ ∃ source, (source, m) ∈ d.sourceToModno ∧ Available d.data source key := by
      intro m
      rw [e1', List.mem_map]
      constructor
      · rintro ⟨⟨m', b⟩, hb, rfl⟩
        obtain ⟨s, ks, h1, h2, h3, -⟩ := (hl' _ _).1 hb
        have h1 := (hmods s m').1 h1
        exact ⟨s, h1, (available_keys (hsa s m' h1) h2).1 h3⟩
      · rintro ⟨s, hs, hav⟩
        obtain ⟨f, -, -, pos, ds, -, -, b, -, hpk⟩ := hone s m hs hav
        obtain ⟨-, ks, h2, h3⟩ := hav
        exact ⟨(m, b), (hl' _ _).2 ⟨s, ks, (hmods s m).2 hs, h2, h3, hpk⟩, rfl⟩
    have hinm : ∀ m u p v, a.cell m u p = some v → m ∈ a.modules := by
      intro m u p v hc
      unfold DetArr.cell at hc
      rw [e2] at hc
      split at hc
      · simp at hc
      · next dd hdd =>
        obtain ⟨⟨m', b⟩, hb, heq⟩ := List.mem_map.1 (Dict.mem_of_get? hdd)
        obtain ⟨rfl, -⟩ := Prod.mk.inj heq
        rw [e1']
        exact List.mem_map.2 ⟨_, hb, rfl⟩
    refine ⟨a, rfl, ?_, hmem, hinm, ?_⟩
    · rw [e1]
      have hsub : ∀ q : List (Nat × ModData V), ((pulseParts q).map Prod.fst).Sublist (q.map Prod.fst) := by
        intro q
        induction q with
        | nil => exact List.Sublist.slnil
        | cons y q ih =>
          obtain ⟨m, y⟩ := y
          cases y with
          | pulse a => exact ih.cons_cons m
          | slow s e => exact ih.cons m
      refine List.Pairwise.sublist (hsub _) ?_
      have hle := (work_le hw hord).1
      have hsl := collected_sublist hl
      have hnd := (work_nodup hw hmn).sublist hsl
      have hle' : (((l.filterMap id).map (fun y => (y.1, y.2.1))).map Prod.snd).Pairwise (· ≤ ·) := by
        refine List.Pairwise.sublist (hsl.map Prod.snd) ?_
        rw [List.map_map]
        exact hle
      rw [List.map_map] at hle' ⊢
      rw [List.pairwise_map] at hle' ⊢
      unfold List.Nodup at hnd
      rw [List.pairwise_map] at hnd
      have hboth := (hle'.and hnd).filter (fun x => decide (x.1 = key))
      refine hboth.imp_of_mem ?_
      intro a b ha hb hab
      have ha := (List.mem_filter.1 ha).2
      have hb := (List.mem_filter.1 hb).2
      simp only [decide_eq_true_eq] at ha hb
      obtain ⟨h1, h2⟩ := hab
      simp only [Function.comp_apply, ne_eq, Prod.mk.injEq, not_and] at h1 h2 ⊢
      have := h2 (ha.trans hb.symm)
      omega
    · intro hv
      have hspec : ∀ m b, (m, b) ∈ l' → ∃ (f : FileAccess V) (s : Str), TrainSpec num f s key ps t b := by
        intro m b hb
        obtain ⟨s, ks, h1, h2, h3, h4⟩ := (hl' _ _).1 hb
        have h1 := (hmods s m).1 h1
        have hav := (available_keys (hsa s m h1) h2).1 h3
        obtain ⟨f, f1, f2, pos, ds, f3, f4, b', f5, f6⟩ := hone s m h1 hav
        rw [f6] at h4
        simp only [Except.ok.injEq, Option.some.injEq, Prod.mk.injEq, ModData.pulse.injEq, true_and] at h4
        subst h4
        have hvd := framesIndexed_data hd hp (hv _ h1 hav)
        exact ⟨f, s, iterPulseData_spec f5 f3 f4 (hvd.1 f f1 f2) (hvd.2 f f1 f2) (checkPulses_step hps)⟩
      have hcell : ∀ m u p v, a.cell m u p = some v ↔ ∃ b, (m, b) ∈ l' ∧ ((u, p), v) ∈ b.cells := by
        intro m u p v
        unfold DetArr.cell
        rw [e2]
        constructor
        · intro hc
          split at hc
          · simp at hc
          · next dd hdd =>
            obtain ⟨⟨m', b⟩, hb, heq⟩ := List.mem_map.1 (Dict.mem_of_get? hdd)
            obtain ⟨rfl, rfl⟩ := Prod.mk.inj heq
            exact ⟨b, hb, Dict.mem_of_get? hc⟩
        · rintro ⟨b, hb, hg⟩
          rw [cells_get hnd hb]
          obtain ⟨f, s, spec⟩ := hspec m b hb
          exact (Dict.get?_eq_some_iff spec.nodup).2 hg
      refine ⟨?_, ?_, ?_⟩
      · intro u
        rw [e3, mem_joinLabels]
        constructor
        · rintro ⟨_, hl, hu⟩
          obtain ⟨⟨m, b⟩, hb, rfl⟩ := List.mem_map.1 hl
          obtain ⟨f, s, spec⟩ := hspec m b hb
          simp only at hu
          rw [spec.trains, mem_sortedSet] at hu
          obtain ⟨⟨⟨u', p⟩, v⟩, hc, rfl⟩ := List.mem_map.1 hu
          obtain ⟨rfl, -⟩ := (spec.cells _ _ _).1 hc
          exact ⟨rfl, m, p, v, (hcell _ _ _ _).2 ⟨b, hb, hc⟩⟩
        · rintro ⟨rfl, m, p, v, hc⟩
          obtain ⟨b, hb, hg⟩ := (hcell m u p v).1 hc
          obtain ⟨f, s, spec⟩ := hspec m b hb
          refine ⟨_, List.mem_map.2 ⟨_, hb, rfl⟩, ?_⟩
          simp only
          rw [spec.trains, mem_sortedSet]
          exact List.mem_map.2 ⟨_, hg, rfl⟩
      · intro p
        rw [e4, mem_joinLabels]
        constructor
        · rintro ⟨_, hl, hu⟩
          obtain ⟨⟨m, b⟩, hb, rfl⟩ := List.mem_map.1 hl
          obtain ⟨f, s, spec⟩ := hspec m b hb
          simp only at hu
          rw [spec.pulses, mem_sortedSet] at hu
          obtain ⟨⟨⟨u', p⟩, v⟩, hc, rfl⟩ := List.mem_map.1 hu
          obtain ⟨rfl, -⟩ := (spec.cells _ _ _).1 hc
          exact ⟨m, v, (hcell _ _ _ _).2 ⟨b, hb, hc⟩⟩
        · rintro ⟨m, v, hc⟩
          obtain ⟨b, hb, hg⟩ := (hcell m t p v).1 hc
          obtain ⟨f, s, spec⟩ := hspec m b hb
          refine ⟨_, List.mem_map.2 ⟨_, hb, rfl⟩, ?_⟩
          simp only
          rw [spec.pulses, mem_sortedSet]
          exact List.mem_map.2 ⟨_, hg, rfl⟩
      · rw [e4]
        refine joinLabels_pairwise (fun q hq => ?_)
        obtain ⟨⟨m, b⟩, hb, rfl⟩ := List.mem_map.1 hq
        obtain ⟨f, s, spec⟩ := hspec m b hb
        simp only
        rw [spec.pulses]
        exact sortedSet_pairwise _

/-- `iterate_labels` applies to the example of `exSlow_iterate`: module 3 and 0, both with images. -/
example : ∃ items t x a, exSlowDet.trains ⟨true, true⟩ id (.by_ false (.slice .none .none .none)) = .ok items ∧ (t, x) ∈ items ∧
    x.get? (ch! "image.data") = some (.pulses a) ∧ 3 ∈ a.modules := by
  obtain ⟨h1, h2⟩ := exSlow_iterate
  cases h : exSlowDet.trains ⟨true, true⟩ id (.by_ false (.slice .none .none .none)) with
  | error e => rw [h] at h1; simp [Except.map] at h1
  | ok items =>
    rw [h] at h2
    simp only [Except.map, Except.ok.injEq] at h2
    obtain ⟨⟨t, x⟩, hx, -⟩ := Option.bind_eq_some_iff.1 h2
    have hmem : (t, x) ∈ items := List.mem_of_mem_head? hx
    obtain ⟨g1, g2⟩ := iterate_labels (key := ch! "image.data") exSlow_init h exSlow_valid.1 exSlow_good (by decide) ⟨ch! "data", rfl⟩ hmem
    have hav : Available exSlowDet.data (exSource '3') (ch! "image.data") :=
      ⟨by decide, [ch! "image.pulseId", ch! "image.data", ch! "image.cellId", ch! "detector.data"], by decide, by decide⟩
    obtain ⟨r, hr⟩ := Option.ne_none_iff_exists'.1 (g1.2 ⟨(exSource '3', 3), by decide, hav⟩)
    obtain ⟨a, rfl, -, g3, -⟩ := g2 r hr
    exact ⟨items, t, x, a, rfl, hmem, hr, (g3 3).2 ⟨exSource '3', by decide, hav⟩⟩

end KD
