/-
C125: a detector interface for some of the modules, or for some of the trains.
-/
import Verif.Props.DetInit
import Verif.Props.DetRuns
import Verif.Props.SelectData

set_option linter.unusedSimpArgs false

namespace KD
open Spec

variable {V : Type}

/-- C125. The detector interface made for some modules (`modules=ms`), compared with the one made for all: its modules are
those of the detector which are among `ms`; its trains are among those of the detector, if it is made with the same or a
larger `min_modules`; and its array has, for its modules and trains, what the array of the detector has. The index must be right within each run of consecutive
trains of both. -/
theorem part_of_modules {kind : Option Str} {c : DC V} {name : Option Str} {ms : List Nat} {min min' : Int} {d d' : Det V}
    {libs : Libs} {num : V → Nat} {key : Str} {arg : PulseArg} {a a' : DetArr V}
    (hd : Det.init kind c name none min = .ok d) (hd' : Det.init kind c name (some ms) min' = .ok d') (hmin : min ≤ min')
    (h : d.getArray libs num key arg = .ok (.pulses a)) (h' : d'.getArray libs num key arg = .ok (.pulses a'))
    (hc : NoConflict c.files) (hp : PlainSources d) (hi : ∀ x ∈ d.sourceToModno, HasImages c x.1)
    (hv : ∀ x ∈ d.sourceToModno, RunsValid c d.data.trainIds x.1 key)
    (hv' : ∀ x ∈ d'.sourceToModno, RunsValid c d'.data.trainIds x.1 key)
    (hmax : ∀ x ∈ d.sourceToModno, PulsesBelowMax num c x.1 key) :
    (∀ m, m ∈ a'.modules ↔ m ∈ a.modules ∧ m ∈ ms) ∧
    (∀ t ∈ d'.data.trainIds, t ∈ d.data.trainIds) ∧
    ∀ m ∈ a'.modules, ∀ t p v, a'.cell m t p = some v ↔ t ∈ d'.data.trainIds ∧ a.cell m t p = some v := by
  have hname : d'.name = d.name := by
    obtain ⟨i1, i2, -⟩ := init_ok hd
    obtain ⟨j1, j2, -⟩ := init_ok hd'
    cases name with
    | none =>
      have := i2 rfl
      rw [j2 rfl] at this
      exact Except.ok.inj this
    | some n => rw [i1 n rfl, j1 n rfl]
  have hsub : ∀ x, x ∈ d'.sourceToModno ↔ x ∈ d.sourceToModno ∧ x.2 ∈ ms := by
    rintro ⟨s, n⟩
    rw [detector_sources hd', detector_sources hd, hname]
    simp only [Wanted, Option.some.injEq, reduceCtorEq, false_implies, implies_true, and_true, forall_eq', and_assoc]
  have hp' : PlainSources d' := fun x hx => hp x ((hsub x).1 hx).1
  have hr := modulesRight_of_runs (num := num) hd hp hv
  have hr' := modulesRight_of_runs (num := num) hd' hp' hv'
  have hi' : ∀ x ∈ d'.sourceToModno, HasImages c x.1 := fun x hx => hi x ((hsub x).1 hx).1
  have hmax' : ∀ x ∈ d'.sourceToModno, PulsesBelowMax num c x.1 key := fun x hx => hmax x ((hsub x).1 hx).1
  have l1 := (get_array_labels_of hd h hr).1
  have l2 := (get_array_labels_of hd' h' hr').1
  have htr : ∀ t ∈ d'.data.trainIds, t ∈ d.data.trainIds := by
    intro t ht
    rw [detector_trains hd hc hp hi]
    obtain ⟨h1, ⟨s, n, h2, h3⟩, present, h4, h5, h6⟩ := (detector_trains hd' hc hp' hi' t).1 ht
    have hs : ∀ s, s ∈ d'.sourceToModno.map Prod.fst → s ∈ d.sourceToModno.map Prod.fst := by
      intro s hs
      obtain ⟨x, hx, rfl⟩ := List.mem_map.1 hs
      exact List.mem_map.2 ⟨x, ((hsub x).1 hx).1, rfl⟩
    exact ⟨h1, ⟨s, n, hs s h2, h3⟩, present, h4, fun s' hs' => ⟨hs s' (h5 s' hs').1, (h5 s' hs').2⟩, by omega⟩
  refine ⟨?_, htr, ?_⟩
  · intro m
    rw [l1, l2]
    constructor
    · rintro ⟨s, hs⟩; exact ⟨⟨s, ((hsub _).1 hs).1⟩, ((hsub _).1 hs).2⟩
    · rintro ⟨⟨s, hs⟩, hm⟩; exact ⟨s, (hsub _).2 ⟨hs, hm⟩⟩
  · intro m hm t p v
    obtain ⟨s, hs⟩ := (l2 m).1 hm
    rw [get_array_exact_of hd' h' hp' hr' hmax' hs, get_array_exact_of hd h hp hr hmax ((hsub _).1 hs).1]
    constructor
    · rintro ⟨h1, h2⟩; exact ⟨h1, htr t h1, h2⟩
    · rintro ⟨h1, -, h2⟩; exact ⟨h1, h2⟩

theorem selected_frameCount {c c' : DC V} {tr : TrainRange} (hc : NoConflict c.files) (hs : c.selectTrains tr = .ok c')
    (s : Str) (t n : Nat) : FrameCount c' s t n ↔ t ∈ c'.trainIds ∧ FrameCount c s t n := by
  obtain ⟨h1, h2, h3⟩ := select_trains_files hc hs
  constructor
  · rintro ⟨a, f, hf, hh, hft, hn⟩
    exact ⟨a, h3 t a, f, h1 f hf, hh, hft, hn⟩
  · rintro ⟨a, _, f, hf, hh, hft, hn⟩
    exact ⟨a, f, (h2 f hf).2 ⟨t, a, hft⟩, hh, hft, hn⟩

theorem selected_frameOf {c c' : DC V} {tr : TrainRange} (hc : NoConflict c.files) (hs : c.selectTrains tr = .ok c')
    {num : V → Nat} {s key : Str} {t k p : Nat} {v : V} :
    (FrameOf num c' s key t k p v → FrameOf num c s key t k p v) ∧
    (t ∈ c'.trainIds → FrameOf num c s key t k p v → FrameOf num c' s key t k p v) := by
  obtain ⟨h1, h2, h3⟩ := select_trains_files hc hs
  refine ⟨?_, ?_⟩
  · rintro ⟨f, hf, hh, hfr⟩; exact ⟨f, h1 f hf, hh, hfr⟩
  · rintro ht ⟨f, hf, hh, hfr⟩; exact ⟨f, (h2 f hf).2 ⟨t, ht, frameIn_mem hfr⟩, hh, hfr⟩

/-- C125. The detector interface made for selected trains (`select_trains` first), compared with the one made for the whole
run: its trains are those of the detector which are selected; its modules are modules of the detector; and its array has, for
its trains, what the array of the detector has: the same for its modules, and the other modules have nothing in these trains. -/
theorem part_of_trains {kind : Option Str} {c c' : DC V} {tr : TrainRange} {name : Str} {modules : Option (List Nat)} {min : Int}
    {d d' : Det V} {libs : Libs} {num : V → Nat} {key : Str} {arg : PulseArg} {a a' : DetArr V}
    (hs : c.selectTrains tr = .ok c')
    (hd : Det.init kind c (some name) modules min = .ok d) (hd' : Det.init kind c' (some name) modules min = .ok d')
    (h : d.getArray libs num key arg = .ok (.pulses a)) (h' : d'.getArray libs num key arg = .ok (.pulses a'))
    (hc : NoConflict c.files) (hcat : SameCategory c.files) (hp : PlainSources d)
    (hi : ∀ x ∈ d.sourceToModno, HasImages c x.1)
    (hv : ∀ x ∈ d.sourceToModno, RunsValid c d.data.trainIds x.1 key)
    (hv' : ∀ x ∈ d'.sourceToModno, RunsValid c' d'.data.trainIds x.1 key)
    (hmax : ∀ x ∈ d.sourceToModno, PulsesBelowMax num c x.1 key) :
    (∀ t, t ∈ d'.data.trainIds ↔ t ∈ c'.trainIds ∧ t ∈ d.data.trainIds) ∧
    (∀ m ∈ a'.modules, m ∈ a.modules) ∧
    ∀ m ∈ a.modules, ∀ t p v, (m ∈ a'.modules ∧ a'.cell m t p = some v) ↔ t ∈ c'.trainIds ∧ a.cell m t p = some v := by
  have hname : d'.name = d.name := by rw [(init_ok hd).1 name rfl, (init_ok hd').1 name rfl]
  obtain ⟨f1, f2, f3⟩ := select_trains_files hc hs
  have hc' : NoConflict c'.files := by
    obtain ⟨new, -, rfl⟩ := (selectTrains_ok_iff hc).1 hs
    exact List.Pairwise.sublist List.filter_sublist hc
  have hsel : c'.selection = c.selection := by
    obtain ⟨new, -, rfl⟩ := (selectTrains_ok_iff hc).1 hs
    rfl
  have hsub : ∀ x ∈ d'.sourceToModno, x ∈ d.sourceToModno := by
    rintro ⟨s, n⟩ hx
    rw [detector_sources hd', hname] at hx
    rw [detector_sources hd]
    refine ⟨?_, hx.2⟩
    have := hx.1
    rw [mem_instrumentSources] at this ⊢
    obtain ⟨h1, f, hf, h2⟩ := this
    exact ⟨by rw [← hsel]; exact h1, f, f1 f hf, h2⟩
  have hback : ∀ s n t, (s, n) ∈ d.sourceToModno → t ∈ c'.trainIds → (∃ f ∈ c.files, Holds f s ∧ t ∈ f.trainIds) →
      (s, n) ∈ d'.sourceToModno := by
    rintro s n t hx ht ⟨f, hf, hh, hft⟩
    rw [detector_sources hd] at hx
    rw [detector_sources hd', hname]
    refine ⟨?_, hx.2⟩
    have := hx.1
    rw [mem_instrumentSources] at this ⊢
    obtain ⟨h1, g, hg, h2⟩ := this
    refine ⟨by rw [hsel]; exact h1, f, (f2 f hf).2 ⟨t, ht, hft⟩, ?_⟩
    exact ((hcat f hf g hg s hh (Or.inr h2)).2).2 h2
  have hp' : PlainSources d' := fun x hx => hp x (hsub x hx)
  have hr := modulesRight_of_runs (num := num) hd hp hv
  have hr' := modulesRight_of_runs (num := num) hd' hp' hv'
  have hi' : ∀ x ∈ d'.sourceToModno, HasImages c' x.1 := fun x hx =>
    ⟨fun f hf hh => (hi x (hsub x hx)).1 f (f1 f hf) hh, fun f hf hh => (hi x (hsub x hx)).2 f (f1 f hf) hh⟩
  have hmax' : ∀ x ∈ d'.sourceToModno, PulsesBelowMax num c' x.1 key := fun x hx t k p v hfr =>
    hmax x (hsub x hx) t k p v ((selected_frameOf hc hs).1 hfr)
  have l1 := (get_array_labels_of hd h hr).1
  have l2 := (get_array_labels_of hd' h' hr').1
  have htr : ∀ t, t ∈ d'.data.trainIds ↔ t ∈ c'.trainIds ∧ t ∈ d.data.trainIds := by
    intro t
    rw [detector_trains hd hc hp hi, detector_trains hd' hc' hp' hi']
    have hb : ∀ s n, t ∈ c'.trainIds → s ∈ d.sourceToModno.map Prod.fst → FrameCount c s t n → s ∈ d'.sourceToModno.map Prod.fst := by
      rintro s n ht hs' ⟨_, f, hf, hh, hft, _⟩
      obtain ⟨x, hx, rfl⟩ := List.mem_map.1 hs'
      exact List.mem_map.2 ⟨x, hback x.1 x.2 t hx ht ⟨f, hf, hh, hft⟩, rfl⟩
    have hf : ∀ s, s ∈ d'.sourceToModno.map Prod.fst → s ∈ d.sourceToModno.map Prod.fst := by
      intro s hs'
      obtain ⟨x, hx, rfl⟩ := List.mem_map.1 hs'
      exact List.mem_map.2 ⟨x, hsub x hx, rfl⟩
    constructor
    · rintro ⟨h1, ⟨s, n, h2, h3⟩, present, h4, h5, h6⟩
      refine ⟨h1, f3 t h1, ⟨s, n, hf s h2, ((selected_frameCount hc hs s t n).1 h3).2⟩, present, h4, ?_, h6⟩
      intro s' hs'
      obtain ⟨g1, n', g2, g3⟩ := h5 s' hs'
      exact ⟨hf s' g1, n', g2, ((selected_frameCount hc hs s' t n').1 g3).2⟩
    · rintro ⟨h1, -, ⟨s, n, h2, h3⟩, present, h4, h5, h6⟩
      refine ⟨h1, ⟨s, n, hb s n h1 h2 h3, (selected_frameCount hc hs s t n).2 ⟨h1, h3⟩⟩, present, h4, ?_, h6⟩
      intro s' hs'
      obtain ⟨g1, n', g2, g3⟩ := h5 s' hs'
      exact ⟨hb s' n' h1 g1 g3, n', g2, (selected_frameCount hc hs s' t n').2 ⟨h1, g3⟩⟩
  refine ⟨htr, ?_, ?_⟩
  · intro m hm
    obtain ⟨s, hs'⟩ := (l2 m).1 hm
    exact (l1 m).2 ⟨s, hsub _ hs'⟩
  · intro m hm t p v
    obtain ⟨s, hs'⟩ := (l1 m).1 hm
    rw [get_array_exact_of hd h hp hr hmax hs']
    constructor
    · rintro ⟨hm', hcell⟩
      obtain ⟨s2, hs2⟩ := (l2 m).1 hm'
      have e : s2 = s := (Prod.mk.inj (List.inj_on_of_nodup_map (init_ok hd).2.2.2.1 (hsub _ hs2) hs' rfl)).1
      subst e
      obtain ⟨h1, k, h2, h3⟩ := (get_array_exact_of hd' h' hp' hr' hmax' hs2 t p v).1 hcell
      exact ⟨((htr t).1 h1).1, ((htr t).1 h1).2, k, (selected_frameOf hc hs).1 h2, h3⟩
    · rintro ⟨h1, h2, k, h3, h4⟩
      have hin : (s, m) ∈ d'.sourceToModno := by
        obtain ⟨f, hf, hh, hfr⟩ := h3
        exact hback s m t hs' h1 ⟨f, hf, hh, frameIn_mem hfr⟩
      exact ⟨(l2 m).2 ⟨s, hin⟩, (get_array_exact_of hd' h' hp' hr' hmax' hin t p v).2
        ⟨(htr t).2 ⟨h1, h2⟩, k, (selected_frameOf hc hs).2 h1 h3, h4⟩⟩

/-- The interface of the example for module 0 only. -/
def exDetOnly : Det Nat where
  name := ch! "X_AGIPD1M-1"
  sourceToModno := [(exSource '0', 0)]
  framesPerTrain := 2
  data := { exDetData with files := exDetData.files.drop 1, selection := [(exSource '0', none)], ctxCloses := false }

set_option maxRecDepth 20000 in
theorem exDetOnly_init : Det.init (some (ch! "_AGIPD1M")) exDetData none (some [0, 7]) 1 = .ok exDetOnly := by decide

set_option maxRecDepth 20000 in
/-- A case: module 0 of the example. -/
example (m : Nat) : ∃ a a', exDet.getArray ⟨true, true⟩ id (ch! "image.data") (.by_ true (.list [7])) = .ok (.pulses a) ∧
    exDetOnly.getArray ⟨true, true⟩ id (ch! "image.data") (.by_ true (.list [7])) = .ok (.pulses a') ∧
    (m ∈ a'.modules ↔ m ∈ a.modules ∧ m ∈ [0, 7]) := by
  have h' : exDetOnly.getArray ⟨true, true⟩ id (ch! "image.data") (.by_ true (.list [7])) = .ok (.pulses
      ⟨[0], [10, 11, 12], [7], [2, 2], [(0, [((10, 7), 201), ((11, 7), 211), ((12, 7), 221)])]⟩) := by decide
  exact ⟨_, _, exDet_array.1, h', (part_of_modules exDet_init exDetOnly_init (le_refl _) exDet_array.1 h' exDet_hasImages.1
    exDet_valid.1 exDet_hasImages.2 (fun x hx => runsValid_of_valid (exDet_valid.2.1 x hx))
    (fun x hx => runsValid_of_valid (exDet_valid.2.1 x ((by decide : ∀ x ∈ exDetOnly.sourceToModno, x ∈ exDet.sourceToModno) x hx)))
    exDet_valid.2.2).1 m⟩

/-- The interface of the example for the trains 11 and 12. -/
def exDetLate : Det Nat where
  name := ch! "X_AGIPD1M-1"
  sourceToModno := [(exSource '3', 3), (exSource '0', 0)]
  framesPerTrain := 2
  data := { exDetData with trainIds := [11, 12], ctxCloses := false }

theorem exLate_select : exDetData.selectTrains (.idList [12, 11, 99]) = .ok { exDetData with trainIds := [11, 12], ctxCloses := false } := by
  decide

set_option maxRecDepth 20000 in
theorem exDetLate_init : Det.init (some (ch! "_AGIPD1M")) { exDetData with trainIds := [11, 12], ctxCloses := false }
    (some (ch! "X_AGIPD1M-1")) none 1 = .ok exDetLate := by decide

set_option maxRecDepth 20000 in
theorem exDet_init_named : Det.init (some (ch! "_AGIPD1M")) exDetData (some (ch! "X_AGIPD1M-1")) none 1 = .ok exDet := by decide

set_option maxRecDepth 20000 in
/-- A case: the trains 11 and 12 of the example. -/
example (t : Nat) : t ∈ exDetLate.data.trainIds ↔ t ∈ [11, 12] ∧ t ∈ exDet.data.trainIds := by
  have h' : exDetLate.getArray ⟨true, true⟩ id (ch! "image.data") (.by_ true (.list [7])) = .ok (.pulses
      ⟨[0, 3], [11, 12], [7], [2, 2], [(0, [((11, 7), 211), ((12, 7), 221)]), (3, [((11, 7), 111)])]⟩) := by decide
  refine (part_of_trains exLate_select exDet_init_named exDetLate_init exDet_array.1 h' exDet_hasImages.1 ?_
    exDet_valid.1 exDet_hasImages.2 (fun x hx => runsValid_of_valid (exDet_valid.2.1 x hx))
    (fun x hx => runsValid_of_valid (exDet_valid.2.1 x hx)) exDet_valid.2.2).1 t
  intro f hf g hg s hs hs'
  simp only [exDetData, List.mem_cons, List.not_mem_nil, or_false] at hf hg
  have hnc : ∀ n tids firsts counts ids rows, (exModule n tids firsts counts ids rows).controlSources = [] := fun _ _ _ _ _ _ => rfl
  rcases hf with rfl | rfl <;> rcases hg with rfl | rfl
  · simp
  · simp only [Holds, hnc, List.not_mem_nil, false_or] at hs hs'
    simp [hnc, hs, hs']
  · simp only [Holds, hnc, List.not_mem_nil, false_or] at hs hs'
    simp [hnc, hs, hs']
  · simp

end KD
