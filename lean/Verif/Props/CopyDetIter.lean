/-
C126: iterating over the trains of a detector in copies.
-/
import Verif.Props.DataDetIter
import Verif.Props.DetCopy
import Verif.Props.DataNarrow

namespace KD

open Spec

variable {V : Type}

/-- The data of a detector interface: only its sources, with the keys they have in the collection, in good order. -/
theorem det_good {kind : Option Str} {c : DC V} {name : Option Str} {modules : Option (List Nat)} {min : Int} {d : Det V}
    (hc : Copyable c) (hr : Regular c.files) (hd : Det.init kind c name modules min = .ok d) (hp : PlainSources d)
    (hF : ∀ x ∈ d.sourceToModno, HasField c true x.1 (ch! "image.data"))
    (hall : ∀ x ∈ d.sourceToModno, c.selection.get? x.1 = some none) :
    GoodData d.data ∧ (∀ s k, Available d.data s k → HasField c true s k) ∧
    (∀ s ∈ d.data.allSources, s ∈ d.data.instrumentSources ∧ ∃ k, Available d.data s k) ∧
    ∀ y ∈ d.sourceToModno, (∃ t ∈ d.data.trainIds, Covered c y.1 t) → y.1 ∈ d.data.allSources := by
  obtain ⟨-, -, g3, -, x, sers, g5, -, -, -, g9⟩ := init_ok hd
  obtain ⟨-, -, -, -, hsubf, hkeep⟩ := init_data hd hp
  have hrx : Regular x.files := by
    obtain ⟨S, -, h2, rfl⟩ := select_ok_iff.1 g5
    exact hr.sublist List.filter_sublist
  have hrd : Regular d.data.files := by
    obtain ⟨new, -, h4⟩ := (selectTrains_ok_iff hrx.conflict).1 g9
    rw [h4]
    exact hrx.sublist List.filter_sublist
  have hsrc : ∀ s ∈ d.data.allSources, ∃ y ∈ d.sourceToModno, s = y.1 := by
    intro s hs
    have hsx := ((trains_allSources hrx.conflict g9 s).1 hs).1
    obtain ⟨S, h1, h2, rfl⟩ := select_ok_iff.1 g5
    obtain ⟨-, p, hpm, hg, -⟩ := (expandGlobs_sources h1 s).1 (mem_allSources.1 hsx).1
    obtain ⟨y, hy, rfl⟩ := List.mem_map.1 hpm
    rw [globMatch_literal y.1 s (hp y hy)] at hg
    exact ⟨y, hy, hg⟩
  have hav : ∀ s k, Available d.data s k → HasField c true s k := by
    intro s k h
    obtain ⟨y, hy, rfl⟩ := hsrc s h.1
    have h1 := ((available_selectTrains hrx.conflict hrx.keys g9 y.1 k).1 h).1
    have h2 := ((select_globs_exact g5 (by
      intro p hpm _ s _ hg
      obtain ⟨z, hz, rfl⟩ := List.mem_map.1 hpm
      rw [globMatch_literal z.1 s (hp z hz)] at hg
      subst hg
      exact hall z hz) y.1 k).1 h1).1
    exact ⟨(hF y hy).1, h2.2⟩
  have hinstr : ∀ s ∈ d.data.allSources, s ∈ d.data.instrumentSources ∧ s ∉ d.data.controlSources := by
    intro s hs
    obtain ⟨y, hy, rfl⟩ := hsrc s hs
    have hF' := hF y hy
    have hcat := (copyable_field_valid hc (hasField_available hF')).1 (by simpa using hF'.1)
    obtain ⟨hsel, f, hf, hh⟩ := mem_allSources.1 hs
    have hcsel : y.1 ∈ c.selection.keys := Dict.mem_keys_iff.2 ⟨_, hall y hy⟩
    have hnc : ∀ g ∈ c.files, y.1 ∉ g.controlSources := fun g hg hgc =>
      hcat.2 (mem_controlSources.2 ⟨hcsel, g, hg, hgc⟩)
    constructor
    · refine mem_instrumentSources.2 ⟨hsel, f, hf, ?_⟩
      rcases hh with hh | hh
      · exact absurd hh (hnc f (hsubf f hf))
      · exact hh
    · intro hco
      obtain ⟨-, g, hg, hgc⟩ := mem_controlSources.1 hco
      exact hnc g (hsubf g hg) hgc
  have havx : ∀ y ∈ d.sourceToModno, Available x y.1 (ch! "image.data") := by
    intro y hy
    refine (select_globs_exact g5 (by
      intro p hpm _ s _ hg
      obtain ⟨z, hz, rfl⟩ := List.mem_map.1 hpm
      rw [globMatch_literal z.1 s (hp z hz)] at hg
      subst hg
      exact hall z hz) y.1 _).2 ⟨hasField_available (hF y hy), ?_⟩
    have hstar : globMatch (ch! "*") (ch! "image.data") = true := by decide
    exact ⟨_, List.mem_map.2 ⟨y, hy, rfl⟩, (globMatch_literal y.1 y.1 (hp y hy)).2 rfl, .inl hstar⟩
  have hkr : KeysReadable d.data := keysReadable_regular hrd
  refine ⟨⟨hkr, fun s hs k hk f hf hh => ?_, fun s hs => ?_⟩, hav, fun s hs => ⟨(hinstr s hs).1, ?_⟩, fun y hy hcov => ?_⟩
  · exact (hc.writable.valid true s k (hav s k hk) f (hsubf f hf) hh).2.2.1
  · exact absurd hs (hinstr s (mem_all.2 (.inl hs))).2
  · obtain ⟨y, hy, rfl⟩ := hsrc s hs
    exact ⟨ch! "image.data", (available_selectTrains hrx.conflict hrx.keys g9 y.1 _).2 ⟨havx y hy, (mem_allSources.1 hs).2⟩⟩
  · obtain ⟨t, ht, f, hf, hh, htf⟩ := hcov
    have hsel : d.data.selection = x.selection := by
      obtain ⟨new, -, h4⟩ := (selectTrains_ok_iff hrx.conflict).1 g9; rw [h4]
    exact mem_allSources.2 ⟨by rw [hsel]; exact (mem_allSources.1 (havx y hy).1).1, f, hkeep f hf y hy hh ⟨t, ht, htf⟩, hh⟩

theorem copy_regular {c e : DC V} (hc : Copyable c) (hr : Regular c.files) (h : CopyOf c e) : Regular e.files := by
  rcases copy_cases hc h with rfl | ⟨d, f, -, -, hf, rfl⟩
  · exact hr
  · refine ⟨List.pairwise_singleton _ _, ?_, ?_, ?_⟩
    · intro f1 h1 g1 h2 s _ _
      obtain rfl := List.mem_singleton.1 h1
      obtain rfl := List.mem_singleton.1 h2
      exact fun _ => Iff.rfl
    · intro f1 h1 s hh
      obtain rfl := List.mem_singleton.1 h1
      obtain ⟨ks, hks, -⟩ := hf.keys s ((full_holds hf s).1 hh)
      exact ⟨ks, hks⟩
    · intro f1 h1 g1 h2 s _ _
      obtain rfl := List.mem_singleton.1 h1
      obtain rfl := List.mem_singleton.1 h2
      exact ⟨Iff.rfl, Iff.rfl⟩

/-- C126. Iterating over the trains of a detector gives the same trains for a copy as for the original, and shows the same keys for each
train. Image keys have the same modules, train and pulses as labels and the same entries; other keys have the same modules with the
same data. -/
theorem copy_detector_iterate {kind : Option Str} {c e : DC V} {name : Option Str} {modules : Option (List Nat)} {min : Int} {d d' : Det V}
    {libs : Libs} {num : V → Nat} {arg : PulseArg} {items items' : List (Nat × Dict Str (IterVal V))}
    (hc : Copyable c) (hr : Regular c.files) (h : CopyOf c e)
    (hd : Det.init kind c name modules min = .ok d) (hd' : Det.init kind e name modules min = .ok d') (hmin : 1 ≤ min)
    (hp : PlainSources d) (hF : ∀ x ∈ d.sourceToModno, HasField c true x.1 (ch! "image.data"))
    (hi : ∀ x ∈ d.sourceToModno, HasImages c x.1) (hall : ∀ x ∈ d.sourceToModno, c.selection.get? x.1 = some none)
    (hsrc : ∀ x ∈ d.sourceToModno, ∃ t ∈ d.data.trainIds, Covered c x.1 t)
    (hit : d.trains libs num arg = .ok items) (hit' : d'.trains libs num arg = .ok items') :
    items'.map Prod.fst = items.map Prod.fst ∧
    ∀ t x x', (t, x) ∈ items → (t, x') ∈ items' → ∀ key,
      (x'.get? key = none ↔ x.get? key = none) ∧
      (∀ shape shape' l l', x.get? key = some (.slow shape l) → x'.get? key = some (.slow shape' l') → l' = l) ∧
      ∀ a a', x.get? key = some (.pulses a) → x'.get? key = some (.pulses a') → a'.modules = a.modules ∧
        ((∀ y ∈ d.sourceToModno, PulsesBelowMax num c y.1 key) →
          (∀ y ∈ d.sourceToModno, HasField c true y.1 key ∧ HasField c true y.1 (ch! "image.pulseId")) →
          (∀ u, u ∈ a'.trains ↔ u ∈ a.trains) ∧ a'.pulses = a.pulses ∧ ∀ m ∈ a.modules, ∀ t' p, a'.cell m t' p = a.cell m t' p) := by
  have hsd := copy_sameData hc h
  obtain ⟨hce, k2, k3, k4, k5, -⟩ := copies_same hc h
  have hre := copy_regular hc hr h
  have hi' : ∀ x ∈ d.sourceToModno, HasImages c x.1 ∧ HasImages e x.1 := fun x hx => ⟨hi x hx, copy_hasImages hc h (hF x hx) (hi x hx)⟩
  obtain ⟨d'', hd'', hname, hmem, htr, -⟩ := data_detector hsd hr.conflict hre.conflict hd hmin hp hF (fun x hx => (hi' x hx).1)
    (fun x hx => (hi' x hx).2)
  rw [hd'] at hd''
  obtain rfl := Except.ok.inj hd''
  have hp' : PlainSources d' := fun x hx => hp x ((hmem x).1 hx)
  have hF' : ∀ x ∈ d'.sourceToModno, HasField e true x.1 (ch! "image.data") := fun x hx =>
    (sameData_field hsd _ _ _).1 (hF x ((hmem x).1 hx))
  have hall' : ∀ x ∈ d.sourceToModno, c.selection.get? x.1 = some none ∧ e.selection.get? x.1 = some none := by
    intro x hx
    refine ⟨hall x hx, ?_⟩
    have hxe : x.1 ∈ e.allSources := (sameData_all hsd x.1).1 (hasField_available (hF x hx)).1
    rcases copy_cases hc h with rfl | ⟨d0, f, -, -, -, rfl⟩
    · exact hall x hx
    · exact (single_selection f).2 _ hxe
  obtain ⟨hg, hav, hs, hin⟩ := det_good hc hr hd hp hF hall
  obtain ⟨hg', -, hs', hin'⟩ := det_good hce hre hd' hp' hF' (fun x hx => (hall' x ((hmem x).1 hx)).2)
  have hsrc' : ∀ x ∈ d.sourceToModno, x.1 ∈ d.data.instrumentSources ∧ x.1 ∈ d'.data.instrumentSources := by
    intro x hx
    refine ⟨(hs _ (hin x hx (hsrc x hx))).1, (hs' _ (hin' x ((hmem x).2 hx) ?_)).1⟩
    obtain ⟨t, ht, hcov⟩ := hsrc x hx
    refine ⟨t, by rw [htr]; exact ht, ?_⟩
    rcases copy_cases hc h with rfl | ⟨d0, f, hd0, -, hf, rfl⟩
    · exact hcov
    · obtain ⟨-, m2, -⟩ := copies_same hc hd0
      have hxe : x.1 ∈ (DC.single f).allSources := (sameData_all hsd x.1).1 (hasField_available (hF x hx)).1
      refine ⟨f, by simp [DC.single], ?_, by rw [hf.trains, m2]; exact (init_data hd hp).2.2.2.1 t ht⟩
      obtain ⟨-, g, hgf, hh⟩ := mem_allSources.1 hxe
      obtain rfl : g = f := by simpa [DC.single] using hgf
      exact hh
  have hsrc2 : ∀ x ∈ d.sourceToModno, x.1 ∈ d.data.allSources ∧ x.1 ∈ d'.data.allSources := fun x hx =>
    ⟨mem_all.2 (.inr (hsrc' x hx).1), mem_all.2 (.inr (hsrc' x hx).2)⟩
  refine ⟨(data_detector_iterate hsd hr hre (copyable_readable hc) (copyable_readable hce) hd hd' hmin hp hF hi' hall' hsrc2 hg hg'
    (fun s h => (hs s h).2) hit hit').1, fun t x x' ht ht' key => ?_⟩
  obtain ⟨q1, q2, q3⟩ := data_detector_keys hsd hr hre (copyable_readable hc) (copyable_readable hce) hd hd' hmin hp hF hi' hall' hsrc' hg hg'
    (fun s h => (hs s h).2) hit hit' ht ht' (key := key) (fun y _ h => hav _ _ h)
  refine ⟨q1, q2, fun a a' hx hx' => ?_⟩
  obtain ⟨q4, q5⟩ := q3 a a' hx hx'
  obtain ⟨ps, -, -, hass, -⟩ := detTrains_ok (init_data hd hp).1 hit
  obtain ⟨-, hord⟩ := detector_modules hd
  obtain ⟨hki, -⟩ := pureAssemble_get (hass t x ht) hx (hord.imp (fun h => by omega))
  obtain ⟨nm, rfl⟩ := startsWith_iff.1 hki
  refine ⟨q4, fun hmax hk => q5 (fun y hy => ?_) (fun y hy => ?_) (fun y hy => (hk y hy).2)⟩
  · obtain ⟨k1, k2⟩ := hk y hy
    obtain ⟨-, v1, v2, -⟩ := copy_images hc h k1
    obtain ⟨-, w1, w2, -⟩ := copy_images hc h k2
    exact ⟨⟨followsIn_indexed v1, by rw [image_pulseId]; exact followsIn_indexed w1⟩,
      ⟨followsIn_indexed v2, by rw [image_pulseId]; exact followsIn_indexed w2⟩⟩
  · obtain ⟨k1, k2⟩ := hk y hy
    exact ⟨hmax y hy, fun t k p v hf => hmax y hy t k p v ((copy_frames hc h k1 k2).2 t k p v hf)⟩

set_option maxRecDepth 50000 in
/-- A case: each copy of the example data on which iterating works gives trains 10 and 11, with the frames of the original. -/
example {e : DC Nat} {d' : Det Nat} {items' : List (Nat × Dict Str (IterVal Nat))} (h : CopyOf exDetData e)
    (hd' : Det.init (some (ch! "_AGIPD1M")) e none none 1 = .ok d')
    (hit' : d'.trains ⟨true, true⟩ id (.by_ true (.list [7])) = .ok items') :
    ∃ items, exDet.trains ⟨true, true⟩ id (.by_ true (.list [7])) = .ok items ∧ items'.map Prod.fst = [10, 11] ∧
      ∀ x x' a a', (11, x) ∈ items → (11, x') ∈ items' → x.get? (ch! "image.data") = some (.pulses a) →
        x'.get? (ch! "image.data") = some (.pulses a') → a'.pulses = a.pulses ∧ ∀ m ∈ a.modules, ∀ t p, a'.cell m t p = a.cell m t p := by
  have h1 : ∃ items, exDet.trains ⟨true, true⟩ id (.by_ true (.list [7])) = .ok items ∧ items.map Prod.fst = [10, 11] := ⟨_, rfl, rfl⟩
  obtain ⟨items, h1, h3⟩ := h1
  obtain ⟨g1, g2⟩ := copy_detector_iterate exDet_copyable.1 (exModules_regular exDet_hasImages.1 (by decide)) h exDet_init hd' (by decide)
    exDet_valid.1 (fun x hx => exSplit_field hx (.inl rfl)) exDet_hasImages.2 (by decide)
    (by unfold Covered Holds; decide) h1 hit'
  refine ⟨items, h1, g1.trans h3, fun x x' a a' hx hx' ha ha' => ?_⟩
  obtain ⟨-, -, g⟩ := g2 11 x x' hx hx' (ch! "image.data")
  obtain ⟨-, g3⟩ := g a a' ha ha'
  exact (g3 exDet_valid.2.2 (fun x hx => ⟨exSplit_field hx (.inl rfl), exSplit_field hx (.inr (.inl rfl))⟩)).2

/-- Writing the example, opening the copy, setting up the detector and iterating. -/
def exCopyTrains (kind : WriteKind) : R (List Nat) := do
  let h ← exDetData.writeAs kind
  let f ← FileAccess.init (ch! "copy.h5") h none
  let d ← Det.init (some (ch! "_AGIPD1M")) (DC.single f) none none 1
  let items ← d.trains ⟨true, true⟩ id (.by_ true (.list [7]))
  return items.map Prod.fst

/-- This works, and gives these trains. -/
example : exCopyTrains .copy = .ok [10, 11] := by decide +kernel

end KD
