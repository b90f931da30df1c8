/- Property C139: iterating over a detector shows the same keys, labels and other data, however the data is spread over files. -/
import Verif.Props.DataDetector
import Verif.Props.DetIterKeys

set_option linter.unusedSimpArgs false

namespace KD
open Spec

variable {V : Type}

theorem showsEntry_holds {c : DC V} (hc : NoConflict c.files) {s k : Str} {t : Nat} {y : Entry V} :
    ShowsEntry c s k t y ↔ ∃ es, HoldsEntries c true s k t es ∧ shown es = some y := by
  constructor
  · rintro ⟨f, hf, hh, htf, hs⟩
    exact ⟨_, ⟨fun g hg hhg htg => by rw [same_file hc hg hf hhg hh htg htf], fun hn => absurd ⟨f, hf, hh, htf⟩ hn⟩, hs⟩
  · rintro ⟨es, he, hs⟩
    have hcov : Covered c s t := by
      by_contra hn
      rw [he.2 hn] at hs
      simp [shown] at hs
    obtain ⟨f, hf, hh, ht⟩ := hcov
    exact ⟨f, hf, hh, ht, by rw [he.1 f hf hh ht]; exact hs⟩

/-- C139. Iterating over the trains of a detector shows the same keys for each train, however the data is spread over files. Image keys
have the same modules, train and pulses as labels and the same entries; other keys have the same modules with the same data. -/
theorem data_detector_keys {kind : Option Str} {c e : DC V} {name : Option Str} {modules : Option (List Nat)} {min : Int} {d d' : Det V}
    {libs : Libs} {num : V → Nat} {arg : PulseArg} {items items' : List (Nat × Dict Str (IterVal V))}
    (h : SameData c e) (hc : Regular c.files) (he : Regular e.files) (hrc : KeysReadable c) (hre : KeysReadable e)
    (hd : Det.init kind c name modules min = .ok d) (hd' : Det.init kind e name modules min = .ok d') (hmin : 1 ≤ min)
    (hp : PlainSources d) (hF : ∀ x ∈ d.sourceToModno, HasField c true x.1 (ch! "image.data"))
    (hi : ∀ x ∈ d.sourceToModno, HasImages c x.1 ∧ HasImages e x.1)
    (hall : ∀ x ∈ d.sourceToModno, c.selection.get? x.1 = some none ∧ e.selection.get? x.1 = some none)
    (hsrc : ∀ x ∈ d.sourceToModno, x.1 ∈ d.data.instrumentSources ∧ x.1 ∈ d'.data.instrumentSources)
    (hg : GoodData d.data) (hg' : GoodData d'.data) (hk : ∀ s ∈ d.data.allSources, ∃ k, Available d.data s k)
    (hit : d.trains libs num arg = .ok items) (hit' : d'.trains libs num arg = .ok items')
    {t : Nat} {x x' : Dict Str (IterVal V)} (ht : (t, x) ∈ items) (ht' : (t, x') ∈ items') {key : Str}
    (hFk : ∀ y ∈ d.sourceToModno, Available d.data y.1 key → HasField c true y.1 key) :
    (x'.get? key = none ↔ x.get? key = none) ∧
    (∀ shape shape' l l', x.get? key = some (.slow shape l) → x'.get? key = some (.slow shape' l') → l' = l) ∧
    ∀ a a', x.get? key = some (.pulses a) → x'.get? key = some (.pulses a') → a'.modules = a.modules ∧
      ((∀ y ∈ d.sourceToModno, FramesIndexed c y.1 key ∧ FramesIndexed e y.1 key) →
        (∀ y ∈ d.sourceToModno, PulsesBelowMax num c y.1 key ∧ PulsesBelowMax num e y.1 key) →
        (∀ y ∈ d.sourceToModno, HasField c true y.1 (ch! "image.pulseId")) →
        (∀ u, u ∈ a'.trains ↔ u ∈ a.trains) ∧ a'.pulses = a.pulses ∧ ∀ m ∈ a.modules, ∀ t' p, a'.cell m t' p = a.cell m t' p) := by
  have hsrc' : ∀ x ∈ d.sourceToModno, x.1 ∈ d.data.allSources ∧ x.1 ∈ d'.data.allSources := by
    intro x hx
    obtain ⟨h1, h2⟩ := hsrc x hx
    simp [DC.allSources, h1, h2]
  have hsd := data_detector_data h hc he hrc hre hd hd' hmin hp hF hi hall hsrc'
  obtain ⟨d'', hd'', hname, hmem, htr, -⟩ := data_detector h hc.conflict he.conflict hd hmin hp hF (fun x hx => (hi x hx).1)
    (fun x hx => (hi x hx).2)
  rw [hd'] at hd''
  obtain rfl := Except.ok.inj hd''
  have hp' : PlainSources d' := fun x hx => hp x ((hmem x).1 hx)
  have hex : (∃ y ∈ d'.sourceToModno, Available d'.data y.1 key) ↔ ∃ y ∈ d.sourceToModno, Available d.data y.1 key := by
    simp only [hmem, hsd.keys]
  have hmods : ∀ m, (∃ s, (s, m) ∈ d'.sourceToModno ∧ Available d'.data s key) ↔
      ∃ s, (s, m) ∈ d.sourceToModno ∧ Available d.data s key := by
    intro m
    simp only [hmem, hsd.keys]
  have htc : t ∈ c.trainIds := by
    obtain ⟨-, o2⟩ := iterate_trains hd hit hp hg
    exact (init_data hd hp).2.2.2.1 t ((o2 t).1 (List.mem_map.2 ⟨_, ht, rfl⟩)).1
  by_cases hki : ∃ rest, key = ch! "image." ++ rest
  · obtain ⟨g1, g2⟩ := iterate_labels hd hit hp hg (fun x hx => (hsrc x hx).1) hki ht
    obtain ⟨g1', g2'⟩ := iterate_labels hd' hit' hp' hg' (fun x hx => (hsrc x ((hmem x).1 hx)).2) hki ht'
    refine ⟨not_iff_not.1 (g1'.trans (hex.trans g1.symm)), ?_, ?_⟩
    · intro shape shape' l l' hx _
      obtain ⟨a, ha, -⟩ := g2 _ hx
      simp at ha
    · intro a a' hx hx'
      obtain ⟨_, ha, b1, b2, bm, b3⟩ := g2 _ hx
      obtain ⟨_, ha', b1', b2', bm', b3'⟩ := g2' _ hx'
      obtain rfl := IterVal.pulses.inj ha
      obtain rfl := IterVal.pulses.inj ha'
      have hm : a'.modules = a.modules := eq_of_pairwise_lt b1' b1 (fun m => by rw [b2, b2', hmods])
      refine ⟨hm, fun hv hmax hpu => ?_⟩
      have hcell : ∀ m ∈ a.modules, ∀ t' p, a'.cell m t' p = a.cell m t' p := by
        intro m hma
        obtain ⟨s, hsm, hav⟩ := (b2 m).1 hma
        obtain ⟨nm, rfl⟩ := hki
        exact (data_detector_iterate h hc he hrc hre hd hd' hmin hp hF hi hall hsrc' hg hg' hk hit hit').2 nm hv hmax hpu t x x' a a' ht ht'
          hx hx' s m hsm hav (hFk _ hsm hav)
      obtain ⟨c1, c2, c3⟩ := b3 (fun y hy _ => (hv y hy).1)
      obtain ⟨c1', c2', c3'⟩ := b3' (fun y hy _ => (hv y ((hmem y).1 hy)).2)
      have hboth : ∀ m p v, a'.cell m t p = some v ↔ a.cell m t p = some v := by
        intro m p v
        constructor
        · intro hcv
          rw [← hcell m (hm ▸ bm' m t p v hcv)]; exact hcv
        · intro hcv
          rw [hcell m (bm m t p v hcv)]; exact hcv
      refine ⟨fun u => ?_, eq_of_pairwise_lt c3' c3 (fun p => ?_), hcell⟩
      · rw [c1, c1']; simp only [hboth]
      · rw [c2, c2']; simp only [hboth]
  · obtain ⟨g1, g2⟩ := iterate_slow hd hit hp hg (fun x hx => (hsrc x hx).1) hki ht
    obtain ⟨g1', g2'⟩ := iterate_slow hd' hit' hp' hg' (fun x hx => (hsrc x ((hmem x).1 hx)).2) hki ht'
    refine ⟨not_iff_not.1 (g1'.trans (hex.trans g1.symm)), ?_, ?_⟩
    · intro shape shape' l l' hx hx'
      obtain ⟨_, _, ha, b1, b2, -⟩ := g2 _ hx
      obtain ⟨_, _, ha', b1', b2', -⟩ := g2' _ hx'
      obtain ⟨rfl, rfl⟩ := IterVal.slow.inj ha
      obtain ⟨rfl, rfl⟩ := IterVal.slow.inj ha'
      rw [List.pairwise_map] at b1 b1'
      refine List.Pairwise.eq_of_mem_iff b1' b1 (fun {y} => ?_)
      obtain ⟨m, y⟩ := y
      rw [b2, b2']
      simp only [hmem, ← hsd.keys]
      refine exists_congr (fun s => and_congr_right (fun hsm => and_congr_right (fun hav => ?_)))
      rw [showsEntry_holds hc.conflict, showsEntry_holds he.conflict]
      simp only [h.entries true s key (hFk _ hsm hav) t htc]
    · intro a a' hx _
      obtain ⟨_, _, ha, -⟩ := g2 _ hx
      simp at ha

set_option maxRecDepth 50000 in
/-- A case: for train 11 the four files and the two show the same labels and entries of both modules. -/
example : ∃ items items', exDet.trains ⟨true, true⟩ id (.by_ true (.list [7])) = .ok items ∧
    exSplitDet.trains ⟨true, true⟩ id (.by_ true (.list [7])) = .ok items' ∧
    ∀ x x' a a', (11, x) ∈ items → (11, x') ∈ items' → x.get? (ch! "image.data") = some (.pulses a) →
      x'.get? (ch! "image.data") = some (.pulses a') →
      a'.modules = a.modules ∧ a'.pulses = a.pulses ∧ ∀ m ∈ a.modules, ∀ t p, a'.cell m t p = a.cell m t p := by
  have h1 : ∃ items, exDet.trains ⟨true, true⟩ id (.by_ true (.list [7])) = .ok items ∧ items.map Prod.fst = [10, 11] := ⟨_, rfl, rfl⟩
  have h2 : ∃ items, exSplitDet.trains ⟨true, true⟩ id (.by_ true (.list [7])) = .ok items := ⟨_, rfl⟩
  obtain ⟨items, h1, h3⟩ := h1
  obtain ⟨items', h2⟩ := h2
  have hks : ∀ s ∈ exDet.data.allSources, s ∈ exDet.sourceToModno.map Prod.fst ∧
      exDet.data.keysForSource s = .ok [ch! "image.pulseId", ch! "image.data", ch! "image.cellId"] := by decide
  have hdk : ∀ s ∈ exDet.data.allSources, ∀ k ∈ [ch! "image.pulseId", ch! "image.data", ch! "image.cellId"], Available exDet.data s k :=
    fun s hs k hk => (available_keys hs (hks s hs).2).1 hk
  refine ⟨items, items', h1, h2, fun x x' a a' hx hx' ha ha' => ?_⟩
  obtain ⟨-, -, g⟩ := data_detector_keys (key := ch! "image.data") exSplit_sameData (exModules_regular exDet_hasImages.1 (by decide))
    (exModules_regular exSplit_noConflict (by decide)) exDet_good.keys exSplit_good.keys exDet_init exSplit_init (by decide) exDet_valid.1
    (fun x hx => exSplit_field hx (.inl rfl)) (fun x hx => ⟨exDet_hasImages.2 x hx, exSplit_hasImages x hx⟩) (by decide) (by decide)
    exDet_good exSplit_good (fun s hs => ⟨_, hdk s hs (ch! "image.data") (by simp)⟩) h1 h2 hx hx'
    (fun x hx _ => exSplit_field hx (.inl rfl))
  obtain ⟨g1, g2⟩ := g a a' ha ha'
  obtain ⟨-, g3, g4⟩ := g2 exSplit_indexed
    (fun x hx => ⟨exDet_valid.2.2 x hx, exSplit_below x hx⟩) (fun x hx => exSplit_field hx (.inr (.inl rfl)))
  exact ⟨g1, g3, g4⟩

end KD
