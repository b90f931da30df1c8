/-
C119: what `write_virtual_cxi` does to the files on disk.
-/
import Verif.Spec.CxiDisk
import Verif.Lemmas.CxiDisk

namespace KD

open Spec

variable {V : Type}

/-! ### Steps -/

/-- Doing all the steps. -/
def doAll (x : CxiFile V) (as : List (CxiFile V → R (CxiFile V))) : R (CxiFile V) := foldE (fun x a => a x) x as

theorem runSteps_ok : ∀ {as : List (CxiFile V → R (CxiFile V))} {x y : CxiFile V}, doAll x as = .ok y →
    (runSteps x as).2 = .ok () ∧ (runSteps x as).1.getLast? = some y
  | [], x, y, h => by
    obtain rfl := Except.ok.inj h
    exact ⟨rfl, rfl⟩
  | a :: as, x, y, h => by
    unfold doAll at h
    rw [foldE] at h
    cases ha : a x with
    | error e => rw [ha] at h; simp at h
    | ok z =>
      rw [ha] at h
      obtain ⟨h1, h2⟩ := runSteps_ok (as := as) (x := z) h
      rw [runSteps, ha]
      refine ⟨h1, ?_⟩
      simp only
      rw [List.getLast?_cons, h2]
      rfl

theorem runSteps_result : ∀ {as : List (CxiFile V → R (CxiFile V))} {x : CxiFile V}, (runSteps x as).2 = .ok () →
    ∃ y, doAll x as = .ok y
  | [], x, _ => ⟨x, rfl⟩
  | a :: as, x, h => by
    rw [runSteps] at h
    cases ha : a x with
    | error e => rw [ha] at h; simp at h
    | ok z =>
      rw [ha] at h
      obtain ⟨y, hy⟩ := runSteps_result (as := as) h
      exact ⟨y, by unfold doAll; rw [foldE, ha]; exact hy⟩

theorem runSteps_ne : ∀ (as : List (CxiFile V → R (CxiFile V))) (x : CxiFile V), (runSteps x as).1.head? = some x
  | [], _ => rfl
  | a :: as, x => by
    rw [runSteps]
    cases a x <;> rfl

/-- Until the last step the file has no list of modules. -/
theorem runSteps_modules {b : CxiFile V → R (CxiFile V)} : ∀ {as : List (CxiFile V → R (CxiFile V))} {x z : CxiFile V},
    (∀ a ∈ as, ∀ y y', a y = .ok y' → y'.modules = y.modules) → x.modules = none → z ∈ (runSteps x (as ++ [b])).1 →
    z.modules = none ∨ doAll x (as ++ [b]) = .ok z
  | [], x, z, _, hx, hz => by
    rw [List.nil_append, runSteps] at hz
    rw [List.nil_append]
    unfold doAll
    rw [foldE]
    cases hb : b x with
    | error e =>
      rw [hb] at hz
      simp only [List.mem_singleton] at hz
      rw [hz]; exact Or.inl hx
    | ok y =>
      rw [hb] at hz
      simp only [runSteps, List.mem_cons, List.not_mem_nil, or_false] at hz
      rcases hz with rfl | rfl
      · exact Or.inl hx
      · exact Or.inr rfl
  | a :: as, x, z, ha, hx, hz => by
    rw [List.cons_append, runSteps] at hz
    rw [List.cons_append]
    unfold doAll
    rw [foldE]
    cases hax : a x with
    | error e =>
      rw [hax] at hz
      simp only [List.mem_singleton] at hz
      rw [hz]; exact Or.inl hx
    | ok y =>
      rw [hax] at hz
      rcases List.mem_cons.1 hz with rfl | hz
      · exact Or.inl hx
      · exact runSteps_modules (fun a' h' => ha a' (by simp [h'])) (by rw [ha a (by simp) _ _ hax, hx]) hz

theorem doAll_append {as bs : List (CxiFile V → R (CxiFile V))} {x y : CxiFile V} :
    doAll x (as ++ bs) = .ok y ↔ ∃ z, doAll x as = .ok z ∧ doAll z bs = .ok y := foldE_app

theorem doAll_layouts {d : Det V} : ∀ {ps : List (Plan V)} {x y : CxiFile V}, doAll x (ps.map (addLayout d)) = .ok y ↔
    ∃ ls, mapE d.realise ps = .ok ls ∧ y = { x with layouts := x.layouts ++ ls }
  | [], x, y => by
    simp only [List.map_nil, doAll, foldE, mapE, Except.ok.injEq, exists_eq_left', List.append_nil]
    exact eq_comm
  | p :: ps, x, y => by
    have ih := fun x' y' => @doAll_layouts d ps x' y'
    unfold doAll at ih ⊢
    rw [List.map_cons, foldE, mapE]
    cases hp : d.realise p with
    | error e => simp [addLayout, hp]
    | ok l =>
      have : addLayout d p x = .ok { x with layouts := x.layouts ++ [l] } := by unfold addLayout; rw [hp]
      rw [this]
      simp only
      rw [ih]
      cases mapE d.realise ps with
      | error e => simp
      | ok ls => simp

/-- Applying a partial function to two halves of a list. -/
theorem mapE_split {α β : Type} {f : α → R β} {p : α → Bool} {q : β → Bool} (h : ∀ a b, f a = .ok b → q b = p a) :
    ∀ {l : List α}, (∀ {bs}, mapE f l = .ok bs → mapE f (l.filter p) = .ok (bs.filter q) ∧
        mapE f (l.filter (fun a => !p a)) = .ok (bs.filter (fun b => !q b))) ∧
      ∀ {b1 b2}, mapE f (l.filter p) = .ok b1 → mapE f (l.filter (fun a => !p a)) = .ok b2 → ∃ bs, mapE f l = .ok bs
  | [] => by
    refine ⟨?_, ?_⟩
    · intro bs hb
      obtain rfl := Except.ok.inj hb
      exact ⟨rfl, rfl⟩
    · intros; exact ⟨[], rfl⟩
  | a :: l => by
    obtain ⟨i1, i2⟩ := @mapE_split α β f p q h l
    refine ⟨?_, ?_⟩
    · intro bs hb
      obtain ⟨b, bs', h1, h2, rfl⟩ := mapE_cons_ok.1 hb
      obtain ⟨j1, j2⟩ := i1 h2
      have hq := h a b h1
      simp only [List.filter_cons, hq]
      cases hp : p a with
      | true => exact ⟨mapE_cons_ok.2 ⟨b, _, h1, j1, rfl⟩, j2⟩
      | false => exact ⟨j1, mapE_cons_ok.2 ⟨b, _, h1, j2, rfl⟩⟩
    · intro b1 b2 h1 h2
      cases hp : p a with
      | true =>
        rw [List.filter_cons_of_pos (by simp [hp])] at h1
        rw [List.filter_cons_of_neg (by simp [hp])] at h2
        obtain ⟨b, bs, k1, k2, -⟩ := mapE_cons_ok.1 h1
        obtain ⟨bs', k3⟩ := i2 k2 h2
        exact ⟨b :: bs', mapE_cons_ok.2 ⟨b, bs', k1, k3, rfl⟩⟩
      | false =>
        rw [List.filter_cons_of_neg (by simp [hp])] at h1
        rw [List.filter_cons_of_pos (by simp [hp])] at h2
        obtain ⟨b, bs, k1, k2, -⟩ := mapE_cons_ok.1 h2
        obtain ⟨bs', k3⟩ := i2 h1 k2
        exact ⟨b :: bs', mapE_cons_ok.2 ⟨b, bs', k1, k3, rfl⟩⟩

theorem realise_name {d : Det V} {p : Plan V} {l : Layout V} (h : d.realise p = .ok l) : l.name = p.name ∧ l.rowShape = p.rowShape := by
  unfold Det.realise at h
  split at h
  · simp at h
  · obtain rfl := Except.ok.inj h
    exact ⟨rfl, rfl⟩

theorem imagePlans_eq (ps : List (Plan V)) : imagePlans ps = ps.filter (fun p => !(p.name == ch! "cellId")) := rfl

theorem filter_perm {α : Type} (p : α → Bool) (l : List α) : (l.filter p ++ l.filter (fun a => !p a)).Perm l :=
  List.filter_append_perm p l

/-- The steps, all of them. -/
theorem doAll_actions {d : Det V} {ids : List Nat} {plans : List (Plan V)} {y : CxiFile V} :
    doAll CxiFile.blank (d.cxiActions ids plans) = .ok y ↔
      ∃ ls1 ls2 p rest dg, mapE d.realise (cellPlans plans) = .ok ls1 ∧ mapE d.realise (imagePlans plans) = .ok ls2 ∧
        plans = p :: rest ∧ dataGain p.rowShape = .ok dg ∧
        y = ⟨true, some (List.zipWith (fun t p => natStr t ++ ch! ":" ++ natStr p) d.tidsPerFrame ids), some ids,
          some d.tidsPerFrame, dg, ls1 ++ ls2, some ((invertDict d.sourceToModno).keys.insertionSort (· ≤ ·))⟩ := by
  unfold Det.cxiActions
  rw [doAll_append]
  constructor
  · rintro ⟨z4, h, h5⟩
    rw [doAll_append] at h
    obtain ⟨z3, h, h4⟩ := h
    rw [doAll_append] at h
    obtain ⟨z2, h, h3⟩ := h
    rw [doAll_append] at h
    obtain ⟨z1, h1, h2⟩ := h
    obtain rfl := Except.ok.inj h1
    obtain ⟨ls1, k1, rfl⟩ := doAll_layouts.1 h2
    obtain ⟨ls2, k2, rfl⟩ := doAll_layouts.1 h4
    obtain rfl := Except.ok.inj h5
    cases plans with
    | nil => simp [doAll, foldE, makeDataGain] at h3
    | cons p rest =>
      simp only [doAll, foldE, makeDataGain, fillDataGain] at h3
      cases hdg : dataGain p.rowShape with
      | error e => rw [hdg] at h3; simp at h3
      | ok dg =>
        refine ⟨ls1, ls2, p, rest, dg, k1, k2, rfl, hdg, ?_⟩
        rw [hdg] at h3
        cases dg with
        | none =>
          simp only at h3
          obtain rfl := Except.ok.inj h3
          simp [CxiFile.blank]
        | some l =>
          simp only at h3
          obtain rfl := Except.ok.inj h3
          simp [CxiFile.blank]
  · rintro ⟨ls1, ls2, p, rest, dg, k1, k2, rfl, hdg, rfl⟩
    have hg : ∃ z, doAll { (CxiFile.blank : CxiFile V) with
        version := true, experimentIds := some (List.zipWith (fun t p => natStr t ++ ch! ":" ++ natStr p) d.tidsPerFrame ids),
        pulseIds := some ids, trainIds := some d.tidsPerFrame, layouts := [] ++ ls1 }
        [makeDataGain (p :: rest), fillDataGain (p :: rest)] = .ok z ∧ z = { (CxiFile.blank : CxiFile V) with
        version := true, experimentIds := some (List.zipWith (fun t p => natStr t ++ ch! ":" ++ natStr p) d.tidsPerFrame ids),
        pulseIds := some ids, trainIds := some d.tidsPerFrame, dataGain := dg, layouts := [] ++ ls1 } := by
      simp only [doAll, foldE, makeDataGain, fillDataGain, hdg]
      cases dg with
      | none => exact ⟨_, rfl, rfl⟩
      | some l => exact ⟨_, rfl, rfl⟩
    obtain ⟨z, hz, rfl⟩ := hg
    refine ⟨_, doAll_append.2 ⟨_, doAll_append.2 ⟨_, doAll_append.2 ⟨_, rfl, doAll_layouts.2 ⟨ls1, k1, rfl⟩⟩, hz⟩,
      doAll_layouts.2 ⟨ls2, k2, rfl⟩⟩, ?_⟩
    simp [doAll, foldE]

/-- What is written is what Model/Cxi.lean says. -/
theorem written_iff {d : Det V} {num : V → Nat} {moduleShape : List Nat} :
    (∀ {x : Cxi V}, d.writeVirtualCxi num moduleShape = .ok x →
      ∃ ids plans y, d.collectPulseIds num = .ok ids ∧ d.planData moduleShape = .ok plans ∧
        doAll CxiFile.blank (d.cxiActions ids plans) = .ok y ∧ CompleteCxi x y) ∧
    ∀ {ids plans y}, d.collectPulseIds num = .ok ids → d.planData moduleShape = .ok plans →
      doAll CxiFile.blank (d.cxiActions ids plans) = .ok y → ∃ x, d.writeVirtualCxi num moduleShape = .ok x ∧ CompleteCxi x y := by
  have hsp := @mapE_split (Plan V) (Layout V) d.realise (fun p => p.name == ch! "cellId") (fun l => l.name == ch! "cellId")
    (fun a b h => by rw [(realise_name h).1])
  have hcomplete : ∀ {ids : List Nat} {p : Plan V} {rest : List (Plan V)} {l : Layout V} {ls ls1 ls2 : List (Layout V)}
      {dg : Option (List Str)}, mapE d.realise (p :: rest) = .ok (l :: ls) → mapE d.realise (cellPlans (p :: rest)) = .ok ls1 →
      mapE d.realise (imagePlans (p :: rest)) = .ok ls2 →
      CompleteCxi (⟨List.zipWith (fun t p => natStr t ++ ch! ":" ++ natStr p) d.tidsPerFrame ids, ids, d.tidsPerFrame, dg, l :: ls,
        (invertDict d.sourceToModno).keys.insertionSort (· ≤ ·)⟩ : Cxi V)
        ⟨true, some (List.zipWith (fun t p => natStr t ++ ch! ":" ++ natStr p) d.tidsPerFrame ids), some ids,
          some d.tidsPerFrame, dg, ls1 ++ ls2, some ((invertDict d.sourceToModno).keys.insertionSort (· ≤ ·))⟩ := by
    intro ids p rest l ls ls1 ls2 dg h h1 h2
    obtain ⟨j1, j2⟩ := hsp.1 h
    unfold cellPlans at h1
    rw [j1] at h1
    rw [imagePlans_eq, j2] at h2
    obtain rfl := Except.ok.inj h1
    obtain rfl := Except.ok.inj h2
    exact ⟨rfl, rfl, rfl, rfl, rfl, filter_perm _ _, rfl⟩
  constructor
  · intro x hx
    unfold Det.writeVirtualCxi at hx
    cases hids : d.collectPulseIds num with
    | error e => rw [hids] at hx; simp at hx
    | ok ids =>
      rw [hids] at hx
      simp only at hx
      cases hls : d.collectData moduleShape with
      | error e => rw [hls] at hx; simp at hx
      | ok layouts =>
        rw [hls] at hx
        simp only at hx
        obtain ⟨plans, hp, hr⟩ := planData_iff.1 hls
        cases layouts with
        | nil => simp at hx
        | cons l ls =>
          simp only at hx
          cases hdg : dataGain l.rowShape with
          | error e => rw [hdg] at hx; simp at hx
          | ok dg =>
            rw [hdg] at hx
            obtain rfl := Except.ok.inj hx
            cases plans with
            | nil => simp [mapE] at hr
            | cons p rest =>
              have hhead : d.realise p = .ok l := by
                obtain ⟨b, bs, h1, -, h3⟩ := mapE_cons_ok.1 hr
                rw [(List.cons.inj h3).1]
                exact h1
              rw [(realise_name hhead).2] at hdg
              obtain ⟨j1, j2⟩ := hsp.1 hr
              exact ⟨ids, p :: rest, _, rfl, hp, doAll_actions.2 ⟨_, _, p, rest, dg, j1, j2, rfl, hdg, rfl⟩, hcomplete hr j1 j2⟩
  · intro ids plans y hids hp hy
    obtain ⟨ls1, ls2, p, rest, dg, k1, k2, rfl, hdg, rfl⟩ := doAll_actions.1 hy
    obtain ⟨layouts, hr⟩ := hsp.2 k1 k2
    have hls := planData_iff.2 ⟨_, hp, hr⟩
    obtain ⟨l, ls, h1, -, rfl⟩ := mapE_cons_ok.1 hr
    rw [← (realise_name h1).2] at hdg
    refine ⟨_, ?_, hcomplete hr k1 k2⟩
    unfold Det.writeVirtualCxi
    rw [hids, hls]
    simp only [hdg]

/-! ### C119 -/

/-- The target can be opened for writing: no process has it open, it may be written, and it is no file of the modules. -/
def Spec.CanOpen (s : CxiStore V) (d : Det V) (name : Str) : Prop :=
  name ∉ s.opened ∧ s.mayWrite name = true ∧ ∀ f, ModuleFile d f → f.filename ≠ name

theorem mem_cxiOpens {d : Det V} {name : Str} : name ∈ d.cxiOpens ↔ ∃ f, ModuleFile d f ∧ f.filename = name := by
  unfold Det.cxiOpens ModuleFile
  simp only [List.mem_map, List.mem_flatMap, mem_sourceIndex]
  constructor
  · rintro ⟨f, ⟨x, hx, hf, hh⟩, rfl⟩
    exact ⟨f, ⟨hf, x, hx, hh⟩, rfl⟩
  · rintro ⟨f, ⟨hf, x, hx, hh⟩, rfl⟩
    exact ⟨f, ⟨x, hx, hf, hh⟩, rfl⟩

theorem canOpen_iff {s : CxiStore V} {d : Det V} {name : Str} :
    CanOpen s d name ↔ ¬ (name ∈ s.opened ++ d.cxiOpens ∨ s.mayWrite name = false) := by
  unfold CanOpen
  rw [List.mem_append, mem_cxiOpens]
  constructor
  · rintro ⟨h1, h2, h3⟩ ((h | ⟨f, h4, h5⟩) | h)
    · exact h1 h
    · exact h3 f h4 h5
    · rw [h2] at h; simp at h
  · intro h
    refine ⟨fun h1 => h (Or.inl (Or.inl h1)), ?_, fun f h1 h2 => h (Or.inl (Or.inr ⟨f, h1, h2⟩))⟩
    cases hm : s.mayWrite name with
    | true => rfl
    | false => exact absurd (Or.inr hm) h

/-- C119. At every moment of the call, and after it, every other file on disk is as before. -/
theorem cxi_other_files {s s' : CxiStore V} {d : Det V} {num : V → Nat} {moduleShape : List Nat} {name : Str}
    (h : s' ∈ (s.writeCxi d num moduleShape name).1) {n : Str} (hn : n ≠ name) : s'.disk n = s.disk n := by
  unfold CxiStore.writeCxi at h
  split at h
  · simp only [List.mem_singleton] at h; rw [h]
  · split at h
    · simp only [List.mem_singleton] at h; rw [h]
    · simp only at h
      split at h
      · simp only [List.mem_singleton] at h; rw [h]
      · obtain ⟨x, -, rfl⟩ := List.mem_map.1 h
        simp [CxiStore.put, hn]

/-- C119. The files with the frames of the detector are never changed, also when one of them is given as the target: at every moment
they are as before. -/
theorem cxi_sources_safe {s s' : CxiStore V} {d : Det V} {num : V → Nat} {moduleShape : List Nat} {name : Str}
    (h : s' ∈ (s.writeCxi d num moduleShape name).1) {f : FileAccess V} (hf : ModuleFile d f) :
    s'.disk f.filename = s.disk f.filename := by
  by_cases hn : f.filename = name
  · unfold CxiStore.writeCxi at h
    split at h
    · simp only [List.mem_singleton] at h; rw [h]
    · split at h
      · simp only [List.mem_singleton] at h; rw [h]
      · simp only at h
        rw [if_pos (Or.inl (List.mem_append.2 (Or.inr (mem_cxiOpens.2 ⟨f, hf, hn⟩))))] at h
        simp only [List.mem_singleton] at h; rw [h]
  · exact cxi_other_files h hn

/-- C119. A target which cannot be opened for writing is not changed, and the call raises an exception. -/
theorem cxi_refused {s : CxiStore V} {d : Det V} {num : V → Nat} {moduleShape : List Nat} {name : Str} (h : ¬ CanOpen s d name) :
    (∃ e, (s.writeCxi d num moduleShape name).2 = .error e) ∧ ∀ s' ∈ (s.writeCxi d num moduleShape name).1, s'.disk = s.disk := by
  rw [canOpen_iff, not_not] at h
  unfold CxiStore.writeCxi
  split
  · exact ⟨⟨_, rfl⟩, by simp⟩
  · split
    · exact ⟨⟨_, rfl⟩, by simp⟩
    · simp only
      rw [if_pos h]
      exact ⟨⟨_, rfl⟩, by simp⟩

/-- C119. When the pulse IDs cannot be collected (not found for some frame, or different in two modules) or a key is missing, the
target is not touched. -/
theorem cxi_collect_first {s : CxiStore V} {d : Det V} {num : V → Nat} {moduleShape : List Nat} {name : Str} {e : PyErr}
    (h : d.collectPulseIds num = .error e ∨ (∃ ids, d.collectPulseIds num = .ok ids) ∧ d.planData moduleShape = .error e) :
    s.writeCxi d num moduleShape name = ([s], .error e) := by
  unfold CxiStore.writeCxi
  rcases h with h | ⟨⟨ids, h1⟩, h2⟩
  · rw [h]
  · rw [h1]
    simp only [h2]

/-- C119. The call succeeds if and only if the target can be opened and the content can be made; then the target holds all
of it at the end. -/
theorem cxi_complete {s : CxiStore V} {d : Det V} {num : V → Nat} {moduleShape : List Nat} {name : Str} :
    ((s.writeCxi d num moduleShape name).2 = .ok () ↔ CanOpen s d name ∧ ∃ x, d.writeVirtualCxi num moduleShape = .ok x) ∧
    ∀ x, CanOpen s d name → d.writeVirtualCxi num moduleShape = .ok x →
      ∃ s' y, (s.writeCxi d num moduleShape name).1.getLast? = some s' ∧ s'.disk name = some (.cxi y) ∧ CompleteCxi x y := by
  have hfwd : ∀ x, CanOpen s d name → d.writeVirtualCxi num moduleShape = .ok x →
      (s.writeCxi d num moduleShape name).2 = .ok () ∧ ∃ s' y, (s.writeCxi d num moduleShape name).1.getLast? = some s' ∧
        s'.disk name = some (.cxi y) ∧ CompleteCxi x y := by
    intro x ho hx
    obtain ⟨ids, plans, y, h1, h2, h3, h4⟩ := written_iff.1 hx
    obtain ⟨r1, r2⟩ := runSteps_ok h3
    unfold CxiStore.writeCxi
    rw [h1]
    simp only [h2]
    rw [if_neg (canOpen_iff.1 ho)]
    refine ⟨r1, ?_⟩
    simp only [List.getLast?_map, r2, Option.map_some]
    exact ⟨_, y, rfl, by simp [CxiStore.put], h4⟩
  refine ⟨⟨?_, ?_⟩, fun x ho hx => (hfwd x ho hx).2⟩
  · intro h
    by_cases ho : CanOpen s d name
    · refine ⟨ho, ?_⟩
      unfold CxiStore.writeCxi at h
      split at h
      · simp at h
      · rename_i ids hids
        split at h
        · simp at h
        · rename_i plans hplans
          simp only at h
          rw [if_neg (canOpen_iff.1 ho)] at h
          obtain ⟨y, hy⟩ := runSteps_result h
          obtain ⟨x, hx, -⟩ := written_iff.2 hids hplans hy
          exact ⟨x, hx⟩
    · obtain ⟨e, he⟩ := (cxi_refused (num := num) (moduleShape := moduleShape) ho).1
      rw [he] at h
      simp at h
  · rintro ⟨ho, x, hx⟩
    exact (hfwd x ho hx).1

theorem addLayout_modules {d : Det V} {p : Plan V} {x y : CxiFile V} (h : addLayout d p x = .ok y) : y.modules = x.modules := by
  unfold addLayout at h
  split at h
  · simp at h
  · obtain rfl := Except.ok.inj h; rfl

/-- C119. Wherever the call is interrupted, or fails: if the file it was writing has the list of modules (which is written last), it
is complete. -/
theorem cxi_interrupted {s s' : CxiStore V} {d : Det V} {num : V → Nat} {moduleShape : List Nat} {name : Str} (ho : CanOpen s d name)
    (h : s' ∈ (s.writeCxi d num moduleShape name).1) :
    s'.disk = s.disk ∨ ∃ y, s'.disk name = some (.cxi y) ∧ (y.modules = none ∨
      ∃ x, d.writeVirtualCxi num moduleShape = .ok x ∧ CompleteCxi x y ∧ (s.writeCxi d num moduleShape name).2 = .ok ()) := by
  have h0 := h
  unfold CxiStore.writeCxi at h
  split at h
  · simp only [List.mem_singleton] at h; rw [h]; exact Or.inl rfl
  · rename_i ids hids
    split at h
    · simp only [List.mem_singleton] at h; rw [h]; exact Or.inl rfl
    · rename_i plans hplans
      simp only at h
      rw [if_neg (canOpen_iff.1 ho)] at h
      obtain ⟨y, hy, rfl⟩ := List.mem_map.1 h
      refine Or.inr ⟨y, by simp [CxiStore.put], ?_⟩
      unfold Det.cxiActions at hy
      have hkeep := runSteps_modules (x := CxiFile.blank) ?_ rfl hy
      · rcases hkeep with hk | hk
        · exact Or.inl hk
        · obtain ⟨x, hx, hc⟩ := written_iff.2 hids hplans hk
          exact Or.inr ⟨x, hx, hc, (cxi_complete.1).2 ⟨ho, x, hx⟩⟩
      · intro a ha u v hv
        simp only [List.mem_append, List.mem_cons, List.mem_map, List.not_mem_nil, or_false] at ha
        rcases ha with ((((rfl | rfl | rfl | rfl | rfl) | ⟨p, -, rfl⟩) | (rfl | rfl)) | ⟨p, -, rfl⟩)
        · obtain rfl := Except.ok.inj hv; rfl
        · obtain rfl := Except.ok.inj hv; rfl
        · obtain rfl := Except.ok.inj hv; rfl
        · obtain rfl := Except.ok.inj hv; rfl
        · obtain rfl := Except.ok.inj hv; rfl
        · exact addLayout_modules hv
        · unfold makeDataGain at hv
          repeat' split at hv
          all_goals first
            | simp at hv; done
            | (obtain rfl := Except.ok.inj hv; rfl)
        · unfold fillDataGain at hv
          repeat' split at hv
          all_goals first
            | simp at hv; done
            | (obtain rfl := Except.ok.inj hv; rfl)
        · exact addLayout_modules hv

/-! ### Examples -/

/-- The file of a module whose images have another size than those of the other modules. -/
def exOddModule : FileAccess Nat :=
  let f := exModule '0' [10, 11, 12] [0, 2, 4] [2, 2, 2] [5, 7, 5, 7, 5, 7] [200, 201, 210, 211, 220, 221]
  { f with file := { f.file with datasets := f.file.datasets.map (fun p =>
      if p.2.rowShape = [1, 2, 2] then (p.1, { p.2 with rowShape := [1, 2, 3] }) else p) } }

/-- The detector of Props/DetArray.lean with this file for module 0. -/
def exOddData : DC Nat := { exDetData with
  files := [exModule '3' [10, 11, 12] [0, 2, 4] [2, 2, 0] [5, 7, 5, 7] [100, 101, 110, 111], exOddModule] }

/-- The detector object for it. -/
def exOddDet : Det Nat := { exDet with data := { exOddData with ctxCloses := false } }

set_option maxRecDepth 20000 in
theorem exOddDet_init : Det.init (some (ch! "_AGIPD1M")) exOddData none none 1 = .ok exOddDet := by decide

/-- A disk with the two files of the modules and an older CXI file, which has a list of modules. -/
def exCxiStore (files : List (FileAccess Nat)) : CxiStore Nat where
  disk := fun n => if n = ch! "old.cxi" then some (.cxi ⟨true, some [], some [], some [], none, [], some [0]⟩)
    else (files.find? (fun f => f.filename = n)).map (fun f => .run f.file)
  opened := []
  mayWrite := fun _ => true

/-- The list of modules of the CXI file with this name. -/
def CxiStore.modulesOf (s : CxiStore V) (name : Str) : Option (List Nat) :=
  match s.disk name with
  | some (.cxi y) => y.modules
  | _ => none

/-- C119. A call which fails may have emptied the file which it should replace: the sizes of the images are compared only when the
datasets are made. -/
theorem cxi_target_lost_wrong : ∃ (c : DC Nat) (d : Det Nat) (s : CxiStore Nat) (name : Str) (e : PyErr),
    Det.init (some (ch! "_AGIPD1M")) c none none 1 = .ok d ∧ CanOpen s d name ∧ s.modulesOf name = some [0] ∧
    (s.writeCxi d id [2, 2] name).2 = .error e ∧
    ∃ s', (s.writeCxi d id [2, 2] name).1.getLast? = some s' ∧ s'.modulesOf name = none := by
  refine ⟨exOddData, exOddDet, exCxiStore exOddData.files, ch! "old.cxi", .value, exOddDet_init, ?_, by decide, by decide +kernel, ?_⟩
  · rw [canOpen_iff]; decide
  · have h : ((exCxiStore exOddData.files).writeCxi exOddDet id [2, 2] (ch! "old.cxi")).1.getLast?.map
        (fun s => s.modulesOf (ch! "old.cxi")) = some none := by decide +kernel
    obtain ⟨s', h1, h2⟩ := Option.map_eq_some_iff.1 h
    exact ⟨s', h1, h2⟩

/-- The detector of Props/DetArray.lean: written over the old file in eleven steps, and refused for the file of a module. -/
example : CanOpen (exCxiStore exDetData.files) exDet (ch! "old.cxi") ∧
    ((exCxiStore exDetData.files).writeCxi exDet id [2, 2] (ch! "old.cxi")).2 = .ok () ∧
    ((exCxiStore exDetData.files).writeCxi exDet id [2, 2] (ch! "old.cxi")).1.map (fun s => s.modulesOf (ch! "old.cxi")) =
      List.replicate 10 none ++ [some [0, 3]] ∧
    ((exCxiStore exDetData.files).writeCxi exDet id [2, 2] ['3']).2 = .error .os ∧
    ModuleFile exDet (exModule '3' [10, 11, 12] [0, 2, 4] [2, 2, 0] [5, 7, 5, 7] [100, 101, 110, 111]) := by
  refine ⟨by rw [canOpen_iff]; decide, by decide +kernel, by decide +kernel, by decide +kernel, ?_⟩
  exact ⟨by simp [exDet, exDetData], (exSource '3', 3), by simp [exDet], Or.inr (by decide)⟩

/-- Pulse IDs which differ between modules: nothing is written. -/
example : ∃ e, ({ exDet with data := { exDetData with ctxCloses := false, files :=
    [exModule '3' [10, 11, 12] [0, 2, 4] [2, 2, 0] [5, 8, 5, 7] [100, 101, 110, 111],
     exModule '0' [10, 11, 12] [0, 2, 4] [2, 2, 2] [5, 7, 5, 7, 5, 7] [200, 201, 210, 211, 220, 221]] } } : Det Nat).collectPulseIds id =
    .error e := ⟨.generic, by decide +kernel⟩

end KD
