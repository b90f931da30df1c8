/- Properties C111 and C112: writing interrupted at any point, and what writing does to the files on disk. -/
import Verif.Spec.WriteDisk
import Verif.Props.WriteSucceeds

set_option linter.unusedSimpArgs false

namespace KD
open Spec

variable {V : Type}

/-! ### Which contents can be opened -/

theorem foldE_empty_names : ∀ (l : List Str), foldE readSource ([], []) (l.map (fun _ => ([] : Str))) = .ok ([], [])
  | [] => rfl
  | _ :: l => by
    rw [List.map_cons, foldE]
    have : readSource ([], []) ([] : Str) = .ok ([], []) := rfl
    rw [this]
    exact foldE_empty_names l

theorem unreadable_of {h : H5File V} (hs : h.sources05 = none) (hv : h.version = none) : Unreadable h := by
  intro name
  unfold FileAccess.init
  dsimp only
  cases ht : h.trainId with
  | none => rfl
  | some t =>
    simp only [need]
    unfold readDataSources formatVersion
    rw [hv]
    simp only [if_true, hs, need]

theorem showsNothing_of {h : H5File V} {l : List Str} {t : List Nat} (ht : h.trainId = some t)
    (hs : h.sources05 = some (l.map (fun _ => []))) (hv : h.version = none) : ShowsNothing h := by
  intro name
  refine ⟨⟨name, t.filter (fun x => x != 0), [], [], h⟩, ?_, rfl, rfl⟩
  unfold FileAccess.init readDataSources formatVersion
  rw [ht, hv]
  simp only [need, if_true, hs, foldE_empty_names, List.dedup_nil]

/-! ### The steps -/

theorem finishSteps_mem {T : List Nat} {w : WState V} {h : H5File V} (hh : h ∈ finishSteps T w) :
    Unreadable h ∨ (ShowsNothing h ∧ ∃ h', w.finish T = .ok h') ∨ w.finish T = .ok h := by
  unfold finishSteps at hh
  rcases List.mem_append.1 hh with hh | hh
  · obtain ⟨ix, -, rfl⟩ := List.mem_map.1 hh
    exact Or.inl (unreadable_of rfl rfl)
  · unfold WState.finish
    cases hf : foldE writeIndexGroup [] w.indexes with
    | error e => rw [hf] at hh; simp at hh
    | ok index =>
      rw [hf] at hh
      simp only [List.mem_cons, List.not_mem_nil, or_false] at hh
      rcases hh with rfl | rfl
      · exact Or.inr (Or.inl ⟨showsNothing_of rfl rfl rfl, _, rfl⟩)
      · exact Or.inr (Or.inr rfl)

theorem steps_mem {c : DC V} {mkC mkI addC addI : WState V → Str → Str → R (WState V)} {h : H5File V}
    (hh : h ∈ writeSteps c mkC mkI addC addI) :
    Unreadable h ∨ (ShowsNothing h ∧ ∃ h', writeWith c addC addI = .ok h') ∨ writeWith c addC addI = .ok h := by
  unfold writeSteps at hh
  unfold writeWith
  rcases List.mem_cons.1 hh with rfl | hh
  · exact Or.inl (unreadable_of rfl rfl)
  rcases List.mem_cons.1 hh with rfl | hh
  · exact Or.inl (unreadable_of rfl rfl)
  rcases List.mem_append.1 hh with hh | hh
  · obtain ⟨w, -, rfl⟩ := List.mem_map.1 hh
    exact Or.inl (unreadable_of rfl rfl)
  · cases hc : foldE (writeSource c addC) WState.new c.controlSources with
    | error e => rw [hc] at hh; simp at hh
    | ok w =>
      rw [hc] at hh
      simp only at hh ⊢
      rcases List.mem_append.1 hh with hh | hh
      · obtain ⟨w, -, rfl⟩ := List.mem_map.1 hh
        exact Or.inl (unreadable_of rfl rfl)
      · cases hi : foldE (writeSource c addI) w c.instrumentSources with
        | error e => rw [hi] at hh; simp at hh
        | ok w' =>
          rw [hi] at hh
          exact finishSteps_mem hh

theorem last_append {α : Type _} {l m : List α} {x : α} (h : m.getLast? = some x) : (l ++ m).getLast? = some x := by
  simp [List.getLast?_append, h]

theorem last_cons {α : Type _} {a : α} {m : List α} {x : α} (h : m.getLast? = some x) : (a :: m).getLast? = some x :=
  last_append (l := [a]) h

theorem steps_last {c : DC V} {mkC mkI addC addI : WState V → Str → Str → R (WState V)} {h : H5File V}
    (hw : writeWith c addC addI = .ok h) : (writeSteps c mkC mkI addC addI).getLast? = some h := by
  unfold writeWith at hw
  unfold writeSteps
  cases hc : foldE (writeSource c addC) WState.new c.controlSources with
  | error e => rw [hc] at hw; simp at hw
  | ok w =>
    rw [hc] at hw
    simp only at hw ⊢
    cases hi : foldE (writeSource c addI) w c.instrumentSources with
    | error e => rw [hi] at hw; simp at hw
    | ok w' =>
      rw [hi] at hw
      simp only at hw ⊢
      unfold WState.finish at hw
      unfold finishSteps
      cases hf : foldE writeIndexGroup [] w'.indexes with
      | error e => rw [hf] at hw; simp at hw
      | ok index =>
        rw [hf] at hw
        obtain rfl := Except.ok.inj hw
        exact last_cons (last_cons (last_append (last_append (last_append rfl))))

/-! ### Datasets only get added -/

theorem create_prefix {w w' : WState V} {p : Str} {ds : Dataset V} (h : w.create p ds = .ok w') :
    w.datasets <+: w'.datasets := by
  unfold WState.create at h
  dsimp only at h
  split at h
  · simp at h
  · obtain rfl := Except.ok.inj h
    exact List.prefix_append _ _

theorem controlIndex_datasets {T : List Nat} {w w' : WState V} {s : Str} {tids : List Nat}
    (h : makeControlIndex T w s tids = .ok w') : w'.datasets = w.datasets := by
  unfold makeControlIndex at h
  split at h
  · obtain rfl := Except.ok.inj h; rfl
  · split at h
    · simp at h
    · obtain rfl := Except.ok.inj h; rfl

theorem instrumentIndex_datasets {T : List Nat} {w w' : WState V} {s k : Str} {tids : List Nat}
    (h : makeInstrumentIndex T w s k tids = .ok w') : w'.datasets = w.datasets := by
  unfold makeInstrumentIndex at h
  dsimp only at h
  split at h
  · obtain rfl := Except.ok.inj h; rfl
  · split at h
    · simp at h
    · obtain rfl := Except.ok.inj h; rfl

/-- What adding a dataset does to the file: it is made, nothing else changes. -/
def Adds (mk add : WState V → Str → Str → R (WState V)) : Prop :=
  ∀ w s k w', add w s k = .ok w' → w.datasets <+: w'.datasets ∧ ∃ made, mk w s k = .ok made ∧ made.datasets = w'.datasets

theorem addControl_adds (c : DC V) : Adds (makeDataset c ch! "CONTROL") (addControl c) := by
  intro w s k w' h
  unfold addControl at h
  unfold makeDataset
  cases hg : c.getArray s k id with
  | error e => rw [hg] at h; simp at h
  | ok a =>
    rw [hg] at h
    simp only at h ⊢
    by_cases hl : a.rows.length ≠ c.trainIds.length
    · rw [if_pos hl] at h; simp at h
    · rw [if_neg hl] at h
      rw [if_neg (fun x => hl x.2)]
      cases hm : w.create (dataPath ch! "CONTROL" s k) ⟨a.rows, a.rowShape, a.dtype⟩ with
      | error e => rw [hm] at h; simp at h
      | ok m =>
        rw [hm] at h
        simp only at h
        split at h
        · simp at h
        · have e := controlIndex_datasets h
          exact ⟨e ▸ create_prefix hm, m, rfl, e.symm⟩

theorem addInstrument_adds (c : DC V) : Adds (makeDataset c ch! "INSTRUMENT") (addInstrument c) := by
  intro w s k w' h
  unfold addInstrument at h
  unfold makeDataset
  cases hg : c.getArray s k id with
  | error e => rw [hg] at h; simp at h
  | ok a =>
    rw [hg] at h
    simp only at h ⊢
    rw [if_neg (fun x => absurd x.1 (by decide))]
    cases hm : w.create (dataPath ch! "INSTRUMENT" s k) ⟨a.rows, a.rowShape, a.dtype⟩ with
    | error e => rw [hm] at h; simp at h
    | ok m =>
      rw [hm] at h
      simp only at h
      split at h
      · simp at h
      · have e := instrumentIndex_datasets h
        exact ⟨e ▸ create_prefix hm, m, rfl, e.symm⟩

theorem vAddControl_adds (c : DC V) :
    Adds (makeVirtual c ch! "CONTROL") (fun w s k => dropPath (vAddControl c w s k)) := by
  intro w s k w' h
  beta_reduce at h
  unfold vAddControl at h
  unfold makeVirtual
  cases hg : assembleData c s k with
  | error e => rw [hg] at h; simp [dropPath] at h
  | ok a =>
    rw [hg] at h
    cases a with
    | none => obtain rfl := Except.ok.inj h; exact ⟨List.prefix_rfl, w, rfl, rfl⟩
    | some a =>
      obtain ⟨ds, tids⟩ := a
      simp only at h ⊢
      cases hm : w.create (dataPath ch! "CONTROL" s k) ds with
      | error e => rw [hm] at h; simp [dropPath] at h
      | ok m =>
        rw [hm] at h
        simp only at h
        cases hx : makeControlIndex c.trainIds m s tids with
        | error e => rw [hx] at h; simp [dropPath] at h
        | ok m' =>
          rw [hx] at h
          obtain rfl := Except.ok.inj h
          have e := controlIndex_datasets hx
          exact ⟨e ▸ create_prefix hm, m, rfl, e.symm⟩

theorem vAddInstrument_adds (c : DC V) :
    Adds (makeVirtual c ch! "INSTRUMENT") (fun w s k => dropPath (vAddInstrument c w s k)) := by
  intro w s k w' h
  beta_reduce at h
  unfold vAddInstrument at h
  unfold makeVirtual
  cases hg : assembleData c s k with
  | error e => rw [hg] at h; simp [dropPath] at h
  | ok a =>
    rw [hg] at h
    cases a with
    | none => obtain rfl := Except.ok.inj h; exact ⟨List.prefix_rfl, w, rfl, rfl⟩
    | some a =>
      obtain ⟨ds, tids⟩ := a
      simp only at h ⊢
      cases hm : w.create (dataPath ch! "INSTRUMENT" s k) ds with
      | error e => rw [hm] at h; simp [dropPath] at h
      | ok m =>
        rw [hm] at h
        simp only at h
        cases hx : makeInstrumentIndex c.trainIds m s k tids with
        | error e => rw [hx] at h; simp [dropPath] at h
        | ok m' =>
          rw [hx] at h
          obtain rfl := Except.ok.inj h
          have e := instrumentIndex_datasets hx
          exact ⟨e ▸ create_prefix hm, m, rfl, e.symm⟩

theorem keySteps_prefix {mk add : WState V → Str → Str → R (WState V)} (ha : Adds mk add) {source : Str} :
    ∀ (keys : List Str) (w w' : WState V), foldE (fun w key => add w source key) w keys = .ok w' →
    w.datasets <+: w'.datasets ∧ ∀ m ∈ keySteps mk add source w keys, m.datasets <+: w'.datasets
  | [], w, w', h => by
    simp only [foldE] at h
    obtain rfl := Except.ok.inj h
    exact ⟨List.prefix_rfl, by simp [keySteps]⟩
  | key :: keys, w, w', h => by
    obtain ⟨w1, h1, h2⟩ := foldE_cons_ok.1 h
    obtain ⟨p1, made, hm, he⟩ := ha _ _ _ _ h1
    obtain ⟨p2, p3⟩ := keySteps_prefix ha keys w1 w' h2
    refine ⟨p1.trans p2, ?_⟩
    intro m hmm
    unfold keySteps at hmm
    rw [hm, h1] at hmm
    simp only [List.mem_cons] at hmm
    rcases hmm with rfl | hmm
    · exact he ▸ p2
    · exact p3 m hmm

theorem sourceSteps_prefix {c : DC V} {mk add : WState V → Str → Str → R (WState V)} (ha : Adds mk add) :
    ∀ (sources : List Str) (w w' : WState V), foldE (writeSource c add) w sources = .ok w' →
    w.datasets <+: w'.datasets ∧ ∀ m ∈ sourceSteps c mk add w sources, m.datasets <+: w'.datasets
  | [], w, w', h => by
    simp only [foldE] at h
    obtain rfl := Except.ok.inj h
    exact ⟨List.prefix_rfl, by simp [sourceSteps]⟩
  | source :: sources, w, w', h => by
    obtain ⟨w1, h1, h2⟩ := foldE_cons_ok.1 h
    obtain ⟨p2, p3⟩ := sourceSteps_prefix ha sources w1 w' h2
    unfold writeSource at h1
    cases hk : c.keysForSource source with
    | error e => rw [hk] at h1; simp at h1
    | ok keys =>
      rw [hk] at h1
      simp only at h1
      obtain ⟨p4, p5⟩ := keySteps_prefix ha keys w w1 h1
      refine ⟨p4.trans p2, ?_⟩
      intro m hmm
      unfold sourceSteps at hmm
      rw [hk] at hmm
      simp only [h1] at hmm
      rcases List.mem_append.1 hmm with hmm | hmm
      · exact (p5 m hmm).trans p2
      · exact p3 m hmm

theorem steps_prefix {c : DC V} {mkC mkI addC addI : WState V → Str → Str → R (WState V)} (hC : Adds mkC addC)
    (hI : Adds mkI addI) {h h' : H5File V} (hw : writeWith c addC addI = .ok h)
    (hh : h' ∈ writeSteps c mkC mkI addC addI) : h'.datasets <+: h.datasets := by
  unfold writeWith at hw
  unfold writeSteps at hh
  cases hc : foldE (writeSource c addC) WState.new c.controlSources with
  | error e => rw [hc] at hw; simp at hw
  | ok w =>
    rw [hc] at hw hh
    simp only at hw hh
    obtain ⟨p1, p2⟩ := sourceSteps_prefix hC _ _ _ hc
    cases hi : foldE (writeSource c addI) w c.instrumentSources with
    | error e => rw [hi] at hw; simp at hw
    | ok w' =>
      rw [hi] at hw hh
      simp only at hw hh
      obtain ⟨p3, p4⟩ := sourceSteps_prefix hI _ _ _ hi
      unfold WState.finish at hw
      unfold finishSteps at hh
      cases hf : foldE writeIndexGroup [] w'.indexes with
      | error e => rw [hf] at hw; simp at hw
      | ok index =>
        rw [hf] at hw hh
        obtain rfl := Except.ok.inj hw
        simp only [List.mem_cons, List.mem_append, List.mem_map, List.not_mem_nil, or_false] at hh
        show h'.datasets <+: w'.datasets
        rcases hh with rfl | rfl | ⟨m, hm, rfl⟩ | ⟨m, hm, rfl⟩ | ⟨m, hm, rfl⟩ | rfl | rfl
        · exact List.nil_prefix
        · exact List.nil_prefix
        · exact (p2 m hm).trans p3
        · exact p4 m hm
        · exact List.prefix_rfl
        · exact List.prefix_rfl
        · exact List.prefix_rfl

/-! ### Index groups only get added -/

/-- What is below INDEX/ in `part` is also in `whole`, where `count` of a group may be missing yet. -/
def IndexWithin (part whole : Dict Path IndexGroup) : Prop :=
  ∀ p g, (p, g) ∈ part → ∃ g', (p, g') ∈ whole ∧ g.first = g'.first ∧ (g.count = none ∨ g.count = g'.count)

theorem IndexWithin.of_prefix {a b : Dict Path IndexGroup} (h : a <+: b) : IndexWithin a b :=
  fun _ g hg => ⟨g, h.subset hg, rfl, Or.inr rfl⟩

theorem indexGroups_prefix : ∀ (l : List (Str × (List Nat × List Nat))) (ix ix' : Dict Path IndexGroup),
    foldE writeIndexGroup ix l = .ok ix' → ix <+: ix'
  | [], ix, ix', h => by
    simp only [foldE] at h
    obtain rfl := Except.ok.inj h
    exact List.prefix_refl _
  | x :: l, ix, ix', h => by
    obtain ⟨i1, h1, h2⟩ := foldE_cons_ok.1 h
    refine List.IsPrefix.trans ?_ (indexGroups_prefix l i1 ix' h2)
    unfold writeIndexGroup at h1
    simp only at h1
    split at h1
    · simp at h1
    · obtain rfl := Except.ok.inj h1
      exact List.prefix_append _ _

theorem indexSteps_within : ∀ (l : List (Str × (List Nat × List Nat))) (ix ix' : Dict Path IndexGroup),
    foldE writeIndexGroup ix l = .ok ix' → ∀ m ∈ indexSteps ix l, IndexWithin m ix'
  | [], _, _, _, m, hm => by simp [indexSteps] at hm
  | x :: l, ix, ix', h, m, hm => by
    obtain ⟨i1, h1, h2⟩ := foldE_cons_ok.1 h
    have hp := indexGroups_prefix l i1 ix' h2
    unfold indexSteps at hm
    rw [h1] at hm
    simp only at hm
    have hi1 : i1 = ix ++ [(h5path (ch! "INDEX/" ++ x.1), indexGroup x.2)] := by
      unfold writeIndexGroup at h1
      simp only at h1
      split at h1
      · simp at h1
      · exact (Except.ok.inj h1).symm
    rcases List.mem_cons.1 hm with rfl | hm
    · intro p g hg
      rcases List.mem_append.1 hg with hg | hg
      · exact ⟨g, hp.subset (by rw [hi1]; exact List.mem_append_left _ hg), rfl, Or.inr rfl⟩
      · have e := List.mem_singleton.1 hg
        injection e with e1 e2
        subst e1 e2
        exact ⟨indexGroup x.2, hp.subset (by rw [hi1]; simp), rfl, Or.inl rfl⟩
    · rcases List.mem_cons.1 hm with rfl | hm
      · exact IndexWithin.of_prefix hp
      · exact indexSteps_within l i1 ix' h2 m hm

theorem steps_index {c : DC V} {mkC mkI addC addI : WState V → Str → Str → R (WState V)} {h h' : H5File V}
    (hw : writeWith c addC addI = .ok h) (hh : h' ∈ writeSteps c mkC mkI addC addI) :
    (h' = H5File.blank ∨ h'.trainId = h.trainId) ∧ IndexWithin h'.index h.index := by
  unfold writeWith at hw
  unfold writeSteps at hh
  cases hc : foldE (writeSource c addC) WState.new c.controlSources with
  | error e => rw [hc] at hw; simp at hw
  | ok w =>
    rw [hc] at hw hh
    simp only at hw hh
    cases hi : foldE (writeSource c addI) w c.instrumentSources with
    | error e => rw [hi] at hw; simp at hw
    | ok w' =>
      rw [hi] at hw hh
      simp only at hw hh
      unfold WState.finish at hw
      unfold finishSteps at hh
      cases hf : foldE writeIndexGroup [] w'.indexes with
      | error e => rw [hf] at hw; simp at hw
      | ok index =>
        rw [hf] at hw hh
        obtain rfl := Except.ok.inj hw
        simp only [List.mem_cons, List.mem_append, List.mem_map, List.not_mem_nil, or_false] at hh
        rcases hh with rfl | rfl | ⟨m, hm, rfl⟩ | ⟨m, hm, rfl⟩ | ⟨m, hm, rfl⟩ | rfl | rfl
        · exact ⟨Or.inl rfl, IndexWithin.of_prefix List.nil_prefix⟩
        · exact ⟨Or.inr rfl, IndexWithin.of_prefix List.nil_prefix⟩
        · exact ⟨Or.inr rfl, IndexWithin.of_prefix List.nil_prefix⟩
        · exact ⟨Or.inr rfl, IndexWithin.of_prefix List.nil_prefix⟩
        · exact ⟨Or.inr rfl, indexSteps_within _ _ _ hf m hm⟩
        · exact ⟨Or.inr rfl, IndexWithin.of_prefix (List.prefix_refl _)⟩
        · exact ⟨Or.inr rfl, IndexWithin.of_prefix (List.prefix_refl _)⟩

/-! ### C111: writing interrupted at any point -/

/-- Wherever `write` or `write_virtual` stops (an exception, Ctrl-C), the file either cannot be opened (KeyError), or opens
without any source, or is complete: it never opens with part of the data. -/
theorem interrupted_write {c : DC V} {kind : WriteKind} {h : H5File V} (hh : h ∈ c.writeSteps kind) :
    Unreadable h ∨ ShowsNothing h ∨ c.writeAs kind = .ok h := by
  cases kind with
  | copy =>
    rcases steps_mem hh with h1 | ⟨h1, -⟩ | h1
    · exact Or.inl h1
    · exact Or.inr (Or.inl h1)
    · exact Or.inr (Or.inr h1)
  | virtual =>
    rcases steps_mem hh with h1 | ⟨h1, -⟩ | h1
    · exact Or.inl h1
    · exact Or.inr (Or.inl h1)
    · exact Or.inr (Or.inr h1)

/-- When the call fails because of the data, the file left behind cannot be opened, at any moment. -/
theorem failed_write_unreadable {c : DC V} {kind : WriteKind} {e : PyErr} (he : c.writeAs kind = .error e) :
    ∀ h ∈ c.writeSteps kind, Unreadable h := by
  intro h hh
  cases kind with
  | copy =>
    change writeWith c _ _ = _ at he
    rcases steps_mem hh with h1 | ⟨-, h', h1⟩ | h1
    · exact h1
    · rw [he] at h1; simp at h1
    · rw [he] at h1; simp at h1
  | virtual =>
    change writeWith c _ _ = _ at he
    rcases steps_mem hh with h1 | ⟨-, h', h1⟩ | h1
    · exact h1
    · rw [he] at h1; simp at h1
    · rw [he] at h1; simp at h1

/-- A call which succeeds ends with the complete file, and until then its datasets are a beginning of the final ones. -/
theorem write_steps_grow {c : DC V} {kind : WriteKind} {h : H5File V} (hw : c.writeAs kind = .ok h) :
    (c.writeSteps kind).getLast? = some h ∧ ∀ h' ∈ c.writeSteps kind, h'.datasets <+: h.datasets := by
  cases kind with
  | copy => exact ⟨steps_last hw, fun h' hh => steps_prefix (addControl_adds c) (addInstrument_adds c) hw hh⟩
  | virtual => exact ⟨steps_last hw, fun h' hh => steps_prefix (vAddControl_adds c) (vAddInstrument_adds c) hw hh⟩

/-- Every file on the way to the complete one has, unless it is still empty, its train IDs, and of INDEX/ only what the
complete one has. -/
theorem write_index_grows {c : DC V} {kind : WriteKind} {h h' : H5File V} (hw : c.writeAs kind = .ok h)
    (hh : h' ∈ c.writeSteps kind) : (h' = H5File.blank ∨ h'.trainId = h.trainId) ∧ IndexWithin h'.index h.index := by
  cases kind with
  | copy => exact steps_index hw hh
  | virtual => exact steps_index hw hh

/-- A property of the datasets which every new one has, and all functions keep, holds at each step. -/
theorem keySteps_all {P : WState V → Prop} {mk add : WState V → Str → Str → R (WState V)} {source : Str} :
    ∀ (keys : List Str) (w : WState V), P w → (∀ w key w', key ∈ keys → P w → mk w source key = .ok w' → P w') →
    (∀ w key w', key ∈ keys → P w → add w source key = .ok w' → P w') →
    (∀ m ∈ keySteps mk add source w keys, P m) ∧ ∀ w', foldE (fun w key => add w source key) w keys = .ok w' → P w'
  | [], w, hw, _, _ => ⟨by simp [keySteps], fun w' h => by simp only [foldE] at h; obtain rfl := Except.ok.inj h; exact hw⟩
  | key :: keys, w, hw, hm, ha => by
    have ih := fun w1 (h1 : P w1) => keySteps_all keys w1 h1 (fun w k w' hk => hm w k w' (List.mem_cons_of_mem _ hk))
      (fun w k w' hk => ha w k w' (List.mem_cons_of_mem _ hk))
    constructor
    · intro m hmm
      unfold keySteps at hmm
      cases h1 : mk w source key with
      | error e => rw [h1] at hmm; simp at hmm
      | ok made =>
        rw [h1] at hmm
        simp only [List.mem_cons] at hmm
        rcases hmm with rfl | hmm
        · exact hm w key _ (by simp) hw h1
        · cases h2 : add w source key with
          | error e => rw [h2] at hmm; simp at hmm
          | ok w1 =>
            rw [h2] at hmm
            exact (ih w1 (ha w key w1 (by simp) hw h2)).1 m hmm
    · intro w' h
      obtain ⟨w1, h1, h2⟩ := foldE_cons_ok.1 h
      exact (ih w1 (ha w key w1 (by simp) hw h1)).2 w' h2

theorem sourceSteps_all {P : WState V → Prop} {c : DC V} {mk add : WState V → Str → Str → R (WState V)} :
    ∀ (sources : List Str) (w : WState V), P w →
    (∀ w s key w', s ∈ sources → (∃ ks, c.keysForSource s = .ok ks ∧ key ∈ ks) → P w → mk w s key = .ok w' → P w') →
    (∀ w s key w', s ∈ sources → (∃ ks, c.keysForSource s = .ok ks ∧ key ∈ ks) → P w → add w s key = .ok w' → P w') →
    (∀ m ∈ sourceSteps c mk add w sources, P m) ∧ ∀ w', foldE (writeSource c add) w sources = .ok w' → P w'
  | [], w, hw, _, _ => ⟨by simp [sourceSteps], fun w' h => by simp only [foldE] at h; obtain rfl := Except.ok.inj h; exact hw⟩
  | s :: sources, w, hw, hm, ha => by
    have ih := fun w1 (h1 : P w1) => sourceSteps_all (c := c) sources w1 h1 (fun w s k w' hk => hm w s k w' (List.mem_cons_of_mem _ hk))
      (fun w s k w' hk => ha w s k w' (List.mem_cons_of_mem _ hk))
    cases hk : c.keysForSource s with
    | error e =>
      refine ⟨fun m hmm => ?_, fun w' h => ?_⟩
      · unfold sourceSteps at hmm; rw [hk] at hmm; simp at hmm
      · obtain ⟨w1, h1, -⟩ := foldE_cons_ok.1 h
        unfold writeSource at h1; rw [hk] at h1; simp at h1
    | ok keys =>
      obtain ⟨k1, k2⟩ := keySteps_all (mk := mk) (add := add) (source := s) keys w hw
        (fun w k w' hin => hm w s k w' (by simp) ⟨keys, hk, hin⟩) (fun w k w' hin => ha w s k w' (by simp) ⟨keys, hk, hin⟩)
      refine ⟨fun m hmm => ?_, fun w' h => ?_⟩
      · unfold sourceSteps at hmm
        rw [hk] at hmm
        simp only at hmm
        rcases List.mem_append.1 hmm with hmm | hmm
        · exact k1 m hmm
        · cases h2 : foldE (fun w key => add w s key) w keys with
          | error e => rw [h2] at hmm; simp at hmm
          | ok w1 =>
            rw [h2] at hmm
            exact (ih w1 (k2 w1 h2)).1 m hmm
      · obtain ⟨w1, h1, h2⟩ := foldE_cons_ok.1 h
        unfold writeSource at h1
        rw [hk] at h1
        exact (ih w1 (k2 w1 h1)).2 w' h2

theorem makeDataset_field {c : DC V} {b : Bool} {w w' : WState V} {s k : Str} (hF : HasField c b s k)
    (hw : ∀ x ∈ w.datasets, FieldDataset c x) (h : makeDataset c (sectionName b) w s k = .ok w') :
    ∀ x ∈ w'.datasets, FieldDataset c x := by
  unfold makeDataset at h
  cases hg : c.getArray s k id with
  | error e => rw [hg] at h; simp at h
  | ok a =>
    rw [hg] at h
    simp only at h
    by_cases hl : sectionName b = ch! "CONTROL" ∧ a.rows.length ≠ c.trainIds.length
    · rw [if_pos hl] at h; simp at h
    · rw [if_neg hl] at h
      unfold WState.create at h
      simp only at h
      split at h
      · simp at h
      · obtain rfl := Except.ok.inj h
        intro x hx
        rcases List.mem_append.1 hx with hx | hx
        · exact hw x hx
        · obtain rfl := List.mem_singleton.1 hx
          refine ⟨b, s, k, a, hF, h5path_dataPath b s k, hg, rfl, ?_⟩
          rintro rfl
          by_contra hn
          exact hl ⟨rfl, hn⟩

/-- What every new dataset is like, all datasets are like at every moment of writing. -/
theorem steps_datasets {P : Path × Dataset V → Prop} {c : DC V} {mk : Str → WState V → Str → Str → R (WState V)}
    {addC addI : WState V → Str → Str → R (WState V)}
    (hC : Adds (mk (ch! "CONTROL")) addC) (hI : Adds (mk (ch! "INSTRUMENT")) addI)
    (hmk : ∀ {b : Bool} {w w' : WState V} {s k : Str}, HasField c b s k → (∀ x ∈ w.datasets, P x) → mk (sectionName b) w s k = .ok w' →
      ∀ x ∈ w'.datasets, P x)
    {h : H5File V} (hh : h ∈ KD.writeSteps c (mk (ch! "CONTROL")) (mk (ch! "INSTRUMENT")) addC addI) : ∀ x ∈ h.datasets, P x := by
  have hkeep : ∀ {b : Bool} {add : WState V → Str → Str → R (WState V)}, Adds (mk (sectionName b)) add →
      ∀ w s k w', HasField c b s k → (∀ x ∈ w.datasets, P x) → add w s k = .ok w' →
        ∀ x ∈ w'.datasets, P x := by
    intro b add ha w s k w' hF hw h1
    obtain ⟨-, made, h2, h3⟩ := ha w s k w' h1
    rw [← h3]
    exact hmk hF hw h2
  obtain ⟨c1, c2⟩ := sourceSteps_all (P := fun w => ∀ x ∈ w.datasets, P x) (c := c) (mk := mk ch! "CONTROL")
    (add := addC) c.controlSources WState.new (by simp [WState.new])
    (fun w s k w' hs hk hw h1 => hmk (b := false) ⟨by simpa using hs, hk⟩ hw h1)
    (fun w s k w' hs hk hw h1 => hkeep (b := false) hC w s k w' ⟨by simpa using hs, hk⟩ hw h1)
  unfold writeSteps at hh
  rcases List.mem_cons.1 hh with rfl | hh
  · simp [H5File.blank]
  rcases List.mem_cons.1 hh with rfl | hh
  · simp [WState.soFar, WState.new]
  rcases List.mem_append.1 hh with hh | hh
  · obtain ⟨w, hw, rfl⟩ := List.mem_map.1 hh
    exact c1 w hw
  · cases hc : foldE (writeSource c addC) WState.new c.controlSources with
    | error e => rw [hc] at hh; simp at hh
    | ok w =>
      rw [hc] at hh
      simp only at hh
      obtain ⟨i1, i2⟩ := sourceSteps_all (P := fun w => ∀ x ∈ w.datasets, P x) (c := c)
        (mk := mk ch! "INSTRUMENT") (add := addI) c.instrumentSources w (c2 w hc)
        (fun w s k w' hs hk hw h1 => hmk (b := true) ⟨by simpa using hs, hk⟩ hw h1)
        (fun w s k w' hs hk hw h1 => hkeep (b := true) hI w s k w' ⟨by simpa using hs, hk⟩ hw h1)
      rcases List.mem_append.1 hh with hh | hh
      · obtain ⟨w, hw, rfl⟩ := List.mem_map.1 hh
        exact i1 w hw
      · cases hi : foldE (writeSource c addI) w c.instrumentSources with
        | error e => rw [hi] at hh; simp at hh
        | ok w' =>
          rw [hi] at hh
          have hw' := i2 w' hi
          unfold finishSteps at hh
          rcases List.mem_append.1 hh with hh | hh
          · obtain ⟨ix, -, rfl⟩ := List.mem_map.1 hh
            exact hw'
          · cases hf : foldE writeIndexGroup [] w'.indexes with
            | error e => rw [hf] at hh; simp at hh
            | ok index =>
              rw [hf] at hh
              simp only [List.mem_cons, List.not_mem_nil, or_false] at hh
              rcases hh with rfl | rfl <;> exact hw'

/-- C111. At every moment of `write`, also of a call which fails, every dataset below CONTROL/ and INSTRUMENT/ is the complete array
of a field of the collection, with one row per train for control data. -/
theorem interrupted_datasets {c : DC V} {h : H5File V} (hh : h ∈ c.writeSteps .copy) : ∀ x ∈ h.datasets, FieldDataset c x :=
  steps_datasets (addControl_adds c) (addInstrument_adds c) makeDataset_field hh

theorem makeVirtual_field {c : DC V} {b : Bool} {w w' : WState V} {s k : Str} (hF : HasField c b s k)
    (hw : ∀ x ∈ w.datasets, VirtualField c x) (h : makeVirtual c (sectionName b) w s k = .ok w') :
    ∀ x ∈ w'.datasets, VirtualField c x := by
  unfold makeVirtual at h
  cases hg : assembleData c s k with
  | error e => rw [hg] at h; simp at h
  | ok y =>
    rw [hg] at h
    cases y with
    | none =>
      obtain rfl := Except.ok.inj h
      exact hw
    | some y =>
      obtain ⟨ds, tids⟩ := y
      simp only at h
      unfold WState.create at h
      simp only at h
      split at h
      · simp at h
      · obtain rfl := Except.ok.inj h
        intro x hx
        rcases List.mem_append.1 hx with hx | hx
        · exact hw x hx
        · obtain rfl := List.mem_singleton.1 hx
          refine ⟨b, s, k, hF, h5path_dataPath b s k, fun a ha => ?_⟩
          cases hco : a.coords with
          | none => rw [assembleData_none ha hco] at hg; simp at hg
          | some ts =>
            rw [assembleData_array ha hco (fun _ => assembleData_full hg)] at hg
            simp only [Except.ok.injEq, Option.some.injEq, Prod.mk.injEq] at hg
            exact hg.1.symm

/-- C111. At every moment of `write_virtual`, also of a call which fails, every dataset shows the complete array of a field of the
collection. -/
theorem interrupted_virtual_datasets {c : DC V} {h : H5File V} (hh : h ∈ c.writeSteps .virtual) : ∀ x ∈ h.datasets, VirtualField c x :=
  steps_datasets (vAddControl_adds c) (vAddInstrument_adds c) makeVirtual_field hh

/-- It is not true that a file which is not complete cannot be opened: while the names of the sources are not filled in yet it
opens, without sources. -/
theorem interrupted_write_wrong : ∃ h ∈ exWrite.writeSteps .copy, exWrite.write ≠ .ok h ∧
    (FileAccess.init (ch! "new.h5") h none).map (fun f => (f.trainIds, f.controlSources, f.instrumentSources)) =
      .ok ([1, 2, 3], [], []) := by
  refine ⟨(exWrite.writeSteps .copy).dropLast.getLast (by decide), ?_, by decide, by decide⟩
  exact List.dropLast_subset _ (List.getLast_mem _)

example : (exWrite.writeSteps .copy).length = 10 ∧
    (exWrite.writeSteps .copy).getLast?.map (fun h => FileAccess.init (ch! "new.h5") h none) = some (readBack exWrite) :=
  ⟨by decide, by decide⟩

/-- Files left half written which have some datasets already. -/
example : (exWrite.writeSteps .copy).map (fun h => h.datasets.length) ≠ List.replicate 10 0 ∧
    ∃ h ∈ exWrite.writeSteps .copy, h.datasets ≠ [] ∧ exWrite.write ≠ .ok h := by
  refine ⟨by decide, (exWrite.writeSteps .copy).dropLast.getLast (by decide), ?_, by decide, by decide⟩
  exact List.dropLast_subset _ (List.getLast_mem _)

/-- The same with virtual datasets: there are some in a file which is not complete, and `get_array` works for the fields. -/
example : (∃ h ∈ exWrite.writeSteps .virtual, h.datasets ≠ [] ∧ exWrite.writeVirtual ≠ .ok h) ∧
    ∀ s ∈ exWrite.selection.keys, ∀ ks, exWrite.keysForSource s = .ok ks → ∀ k ∈ ks, (exWrite.getArray s k id).toBool = true := by
  refine ⟨⟨(exWrite.writeSteps .virtual).dropLast.getLast (by decide), List.dropLast_subset _ (List.getLast_mem _), by decide, by decide⟩, ?_⟩
  have h : exWrite.selection.keys.all (fun s => match exWrite.keysForSource s with
    | .ok ks => ks.all (fun k => (exWrite.getArray s k id).toBool)
    | .error _ => true) = true := by decide +kernel
  intro s hs ks hks k hk
  have := List.all_eq_true.1 h s hs
  rw [hks] at this
  exact List.all_eq_true.1 this k hk

/-! ### C112: the files on disk -/

/-- Whatever happens, and at any moment, no other file changes. -/
theorem write_other_files {s s' : Store V} {kind : WriteKind} {c : DC V} {name : Str}
    (h : s' ∈ s.writeDisks kind c name) : SameElsewhere name s s' := by
  unfold Store.writeDisks at h
  split at h
  · obtain rfl := List.mem_singleton.1 h
    exact fun _ _ => rfl
  · obtain ⟨x, -, rfl⟩ := List.mem_map.1 h
    intro n hn
    simp [Store.put, hn]

/-- A target which is open in this process (as the files of a collection normally are) or may not be written is refused
with OSError, and stays as it is. -/
theorem write_open_refused {s : Store V} {kind : WriteKind} {c : DC V} {name : Str}
    (h : name ∈ s.opened ∨ s.mayWrite name = false) :
    s.writeResult kind c name = .error .os ∧ ∀ s' ∈ s.writeDisks kind c name, s' = s := by
  unfold Store.writeResult Store.writeDisks
  rw [if_pos h, if_pos h]
  exact ⟨rfl, fun s' hs => List.mem_singleton.1 hs⟩

theorem reread_same {s : Store V} {c : DC V} {name : Str} {h : H5File V} (hd : OnDisk s c)
    (hn : ∀ f ∈ c.files, f.filename ≠ name) : c.reread (s.put name h) = c := by
  unfold DC.reread
  have : c.files.map (FileAccess.reread (s.put name h)) = c.files := by
    conv_rhs => rw [← List.map_id c.files]
    apply List.map_congr_left
    intro f hf
    unfold FileAccess.reread
    split
    · rfl
    · have : (s.put name h).disk f.filename = some f.file := by
        simp only [Store.put, if_neg (hn f hf)]
        exact hd f hf
      rw [this]
      rfl
  rw [this]

/-- Writing to any other file which can be written: the call succeeds just when the data can be written, the file is then what
was written, and after a failure it cannot be opened. -/
theorem write_elsewhere {s : Store V} {kind : WriteKind} {c : DC V} {name : Str} (hd : OnDisk s c)
    (hn : ∀ f ∈ c.files, f.filename ≠ name) (ho : name ∉ s.opened) (hw : s.mayWrite name = true) :
    (∀ h, c.writeAs kind = .ok h → s.writeResult kind c name = .ok () ∧
      ∃ s', (s.writeDisks kind c name).getLast? = some s' ∧ s'.disk name = some h) ∧
    (∀ e, c.writeAs kind = .error e → s.writeResult kind c name = .error e ∧
      ∀ s' ∈ s.writeDisks kind c name, ∃ h, s'.disk name = some h ∧ Unreadable h) := by
  have hno : ¬ (name ∈ s.opened ∨ s.mayWrite name = false) := by rw [hw]; simp [ho]
  unfold Store.writeResult Store.writeDisks
  rw [if_neg hno, if_neg hno, reread_same hd hn]
  constructor
  · intro h hh
    rw [hh]
    refine ⟨rfl, s.put name h, ?_, by simp [Store.put]⟩
    rw [List.getLast?_map, (write_steps_grow hh).1]
    rfl
  · intro e he
    rw [he]
    refine ⟨rfl, ?_⟩
    intro s' hs'
    obtain ⟨h, hh, rfl⟩ := List.mem_map.1 hs'
    exact ⟨h, by simp [Store.put], failed_write_unreadable he h hh⟩

/-! #### The target is a file of the collection which is not open -/

theorem reread_filename (s : Store V) (f : FileAccess V) : (f.reread s).filename = f.filename := by
  unfold FileAccess.reread; split <;> rfl

theorem reread_control (s : Store V) (f : FileAccess V) : (f.reread s).controlSources = f.controlSources := by
  unfold FileAccess.reread; split <;> rfl

theorem reread_instrument (s : Store V) (f : FileAccess V) : (f.reread s).instrumentSources = f.instrumentSources := by
  unfold FileAccess.reread; split <;> rfl

theorem reread_controlSources (s : Store V) (c : DC V) : (c.reread s).controlSources = c.controlSources := by
  unfold DC.controlSources DC.reread
  simp only [List.flatMap_map, reread_control]

theorem reread_instrumentSources (s : Store V) (c : DC V) : (c.reread s).instrumentSources = c.instrumentSources := by
  unfold DC.instrumentSources DC.reread
  simp only [List.flatMap_map, reread_instrument]

theorem reread_sourceIndex (s : Store V) (c : DC V) (source : Str) :
    (c.reread s).sourceIndex source = (c.sourceIndex source).map (FileAccess.reread s) := by
  unfold DC.sourceIndex DC.reread
  simp only [List.filter_map]
  congr 1
  apply List.filter_congr
  intro f _
  simp only [Function.comp, reread_control, reread_instrument]

theorem emptied_keys {f : FileAccess V} {source : Str} (h : f.file = H5File.blank) : ∃ e, f.getKeys source = .error e := by
  unfold FileAccess.getKeys FileAccess.readKeys visitDatasets
  rw [h]
  by_cases h1 : source ∈ f.controlSources
  · rw [if_pos h1]; exact ⟨_, rfl⟩
  · rw [if_neg h1]
    by_cases h2 : source ∈ f.instrumentSources
    · rw [if_pos h2]; exact ⟨_, rfl⟩
    · rw [if_neg h2]; exact ⟨_, rfl⟩

theorem emptied_chunks {c : DC V} {f : FileAccess V} {source key : Str} (h : f.file = H5File.blank)
    (hf : f ∈ c.sourceIndex source) : ∃ e, c.findDataChunks source key = .error e := by
  cases hc : c.findDataChunks source key with
  | error e => exact ⟨e, rfl⟩
  | ok cs =>
    exfalso
    unfold DC.findDataChunks at hc
    cases hm : mapE (c.chunksOfFile source key) (c.sourceIndex source) with
    | error e => rw [hm] at hc; simp at hc
    | ok l =>
      obtain ⟨x, hx⟩ := mapE_ok_all hm hf
      unfold DC.chunksOfFile FileAccess.getIndex FileAccess.readIndex at hx
      rw [h] at hx
      simp [H5File.blank, Dict.get?, need] at hx

/-- Reading needs the chunks of the data. -/
def NeedsChunks (c : DC V) (add : WState V → Str → Str → R (WState V)) : Prop :=
  ∀ w s k w', add w s k = .ok w' → ∃ cs, c.findDataChunks s k = .ok cs

theorem getArray_reads {c : DC V} {s k : Str} {a : LArr V} (h : c.getArray s k id = .ok a) :
    ∃ cs, c.findDataChunks s k = .ok cs := by
  unfold DC.getArray at h
  cases hc : c.checkField s k with
  | error e => rw [hc] at h; simp at h
  | ok u =>
    rw [hc] at h
    cases hf : c.findDataChunks s k with
    | error e => rw [hf] at h; simp at h
    | ok cs => exact ⟨cs, rfl⟩

theorem assembleData_reads {c : DC V} {s k : Str} {a : Option (Dataset V × List Nat)} (h : assembleData c s k = .ok a) :
    ∃ cs, c.findDataChunks s k = .ok cs := by
  unfold assembleData at h
  cases hf : c.findDataChunks s k with
  | error e => rw [hf] at h; simp at h
  | ok cs => exact ⟨cs, rfl⟩

theorem addControl_reads (c : DC V) : NeedsChunks c (addControl c) := by
  intro w s k w' h
  unfold addControl at h
  cases hg : c.getArray s k id with
  | error e => rw [hg] at h; simp at h
  | ok a => exact getArray_reads hg

theorem addInstrument_reads (c : DC V) : NeedsChunks c (addInstrument c) := by
  intro w s k w' h
  unfold addInstrument at h
  cases hg : c.getArray s k id with
  | error e => rw [hg] at h; simp at h
  | ok a => exact getArray_reads hg

theorem vAddControl_reads (c : DC V) : NeedsChunks c (fun w s k => dropPath (vAddControl c w s k)) := by
  intro w s k w' h
  beta_reduce at h
  unfold vAddControl at h
  cases hg : assembleData c s k with
  | error e => rw [hg] at h; simp [dropPath] at h
  | ok a => exact assembleData_reads hg

theorem vAddInstrument_reads (c : DC V) : NeedsChunks c (fun w s k => dropPath (vAddInstrument c w s k)) := by
  intro w s k w' h
  beta_reduce at h
  unfold vAddInstrument at h
  cases hg : assembleData c s k with
  | error e => rw [hg] at h; simp [dropPath] at h
  | ok a => exact assembleData_reads hg

theorem foldE_each {α σ : Type _} {f : σ → α → R σ} : ∀ {l : List α} {s s' : σ}, foldE f s l = .ok s' →
    ∀ a ∈ l, ∃ t t', f t a = .ok t'
  | [], _, _, _, a, ha => absurd ha List.not_mem_nil
  | b :: l, s, s', h, a, ha => by
    obtain ⟨s1, h1, h2⟩ := foldE_cons_ok.1 h
    rcases List.mem_cons.1 ha with rfl | ha
    · exact ⟨s, s1, h1⟩
    · exact foldE_each h2 a ha

theorem sources_read {c : DC V} {add : WState V → Str → Str → R (WState V)} (hr : NeedsChunks c add) {l : List Str}
    {w w' : WState V} (h : foldE (writeSource c add) w l = .ok w') {source : Str} (hs : source ∈ l) :
    ∃ keys, c.keysForSource source = .ok keys ∧ ∀ key ∈ keys, ∃ cs, c.findDataChunks source key = .ok cs := by
  obtain ⟨t, t', ht⟩ := foldE_each h source hs
  unfold writeSource at ht
  cases hk : c.keysForSource source with
  | error e => rw [hk] at ht; simp at ht
  | ok keys =>
    rw [hk] at ht
    refine ⟨keys, rfl, fun key hkey => ?_⟩
    obtain ⟨u, u', hu⟩ := foldE_each ht key hkey
    exact hr _ _ _ _ hu

theorem writeAs_reads {c : DC V} {kind : WriteKind} {h : H5File V} (hw : c.writeAs kind = .ok h) {source : Str}
    (hs : source ∈ c.controlSources ∨ source ∈ c.instrumentSources) :
    ∃ keys, c.keysForSource source = .ok keys ∧ ∀ key ∈ keys, ∃ cs, c.findDataChunks source key = .ok cs := by
  have main : ∀ addC addI : WState V → Str → Str → R (WState V), NeedsChunks c addC → NeedsChunks c addI →
      writeWith c addC addI = .ok h →
      ∃ keys, c.keysForSource source = .ok keys ∧ ∀ key ∈ keys, ∃ cs, c.findDataChunks source key = .ok cs := by
    intro addC addI hC hI hw
    unfold writeWith at hw
    cases hc : foldE (writeSource c addC) WState.new c.controlSources with
    | error e => rw [hc] at hw; simp at hw
    | ok w =>
      rw [hc] at hw
      simp only at hw
      cases hi : foldE (writeSource c addI) w c.instrumentSources with
      | error e => rw [hi] at hw; simp at hw
      | ok w' =>
        rcases hs with hs | hs
        · exact sources_read hC hc hs
        · exact sources_read hI hi hs
  cases kind with
  | copy => exact main _ _ (addControl_reads c) (addInstrument_reads c) hw
  | virtual => exact main _ _ (vAddControl_reads c) (vAddInstrument_reads c) hw

/-- When the target is a file of the collection holding selected data which this process does not have open (the run was
opened with cached information, or its files were closed), the call fails, and from the first moment on the file cannot be opened any
more: its data is lost. -/
theorem write_over_source_lost {s : Store V} {kind : WriteKind} {c : DC V} {f : FileAccess V} (hd : OnDisk s c)
    (hf : f ∈ c.files) (hn : Needed c f) (ho : f.filename ∉ s.opened) (hw : s.mayWrite f.filename = true) :
    (∃ e, s.writeResult kind c f.filename = .error e) ∧
    ∀ s' ∈ s.writeDisks kind c f.filename, ∃ h, s'.disk f.filename = some h ∧ Unreadable h := by
  have hno : ¬ (f.filename ∈ s.opened ∨ s.mayWrite f.filename = false) := by rw [hw]; simp [ho]
  obtain ⟨source, hsel, hsrc, keys, hk, hne⟩ := hn
  generalize hs' : s.put f.filename H5File.blank = s'
  have hblank : ∀ g ∈ c.files, g.filename = f.filename → (g.reread s').file = H5File.blank := by
    intro g hg e
    have e2 : s'.disk g.filename = some H5File.blank := by rw [← hs', e]; simp [Store.put]
    have e3 : g.filename ∉ s'.opened := by rw [← hs', e]; exact ho
    unfold FileAccess.reread
    rw [if_neg e3, e2]
  have hfail : ∃ e, (c.reread s').writeAs kind = .error e := by
    cases hwr : (c.reread s').writeAs kind with
    | error e => exact ⟨e, rfl⟩
    | ok h =>
      exfalso
      have hmem : source ∈ (c.reread s').controlSources ∨ source ∈ (c.reread s').instrumentSources := by
        rw [reread_controlSources, reread_instrumentSources]
        unfold DC.controlSources DC.instrumentSources
        rcases hsrc with h1 | h1
        · left
          rw [List.mem_dedup, List.mem_flatMap]
          exact ⟨f, hf, List.mem_filter.2 ⟨h1, by simpa using hsel⟩⟩
        · right
          rw [List.mem_dedup, List.mem_flatMap]
          exact ⟨f, hf, List.mem_filter.2 ⟨h1, by simpa using hsel⟩⟩
      obtain ⟨keys', hk', hr⟩ := writeAs_reads hwr hmem
      have hne' : keys' ≠ [] := by
        unfold DC.keysForSource at hk hk'
        have esel : (c.reread s').selection = c.selection := rfl
        rw [esel] at hk'
        cases hg : c.selection.get? source with
        | none => rw [hg] at hk; simp at hk
        | some o =>
          rw [hg] at hk hk'
          cases o with
          | some ks =>
            obtain rfl := Except.ok.inj hk
            obtain rfl := Except.ok.inj hk'
            exact hne
          | none =>
            simp only at hk hk'
            rw [reread_sourceIndex] at hk'
            cases hl : c.sourceIndex source with
            | nil => rw [hl] at hk; simp at hk
            | cons g l =>
              rw [hl] at hk hk'
              simp only [List.map_cons, List.head?_cons] at hk hk'
              have hgm : g ∈ c.files := by
                have : g ∈ c.sourceIndex source := by rw [hl]; simp
                exact (List.mem_filter.1 this).1
              by_cases e : g.filename = f.filename
              · obtain ⟨er, her⟩ := emptied_keys (source := source) (hblank g hgm e)
                rw [her] at hk'
                simp at hk'
              · have : g.reread s' = g := by
                  unfold FileAccess.reread
                  split
                  · rfl
                  · have : s'.disk g.filename = some g.file := by
                      rw [← hs']
                      simp only [Store.put, if_neg e]
                      exact hd g hgm
                    rw [this]
                rw [this, hk] at hk'
                obtain rfl := Except.ok.inj hk'
                exact hne
      obtain ⟨key, hkey⟩ := List.exists_mem_of_ne_nil _ hne'
      obtain ⟨cs, hcs⟩ := hr key hkey
      have hfm : f.reread s' ∈ (c.reread s').sourceIndex source := by
        rw [reread_sourceIndex]
        exact List.mem_map_of_mem (List.mem_filter.2 ⟨hf, by simpa using hsrc⟩)
      obtain ⟨er, her⟩ := emptied_chunks (key := key) (hblank f hf rfl) hfm
      rw [hcs] at her
      simp at her
  obtain ⟨e, he⟩ := hfail
  unfold Store.writeResult Store.writeDisks
  rw [if_neg hno, if_neg hno, hs', he]
  refine ⟨⟨e, rfl⟩, ?_⟩
  intro s2 hs2
  obtain ⟨h, hh, rfl⟩ := List.mem_map.1 hs2
  exact ⟨h, by simp [Store.put], failed_write_unreadable he h hh⟩

/-- The disk with the files of `exWrite`, of which the process has some open. -/
def exStore (opened : List Str) : Store Nat where
  disk := fun n => (exWrite.files.find? (fun f => f.filename == n)).map FileAccess.file
  opened := opened
  mayWrite := fun _ => true

theorem exStore_onDisk (opened : List Str) : OnDisk (exStore opened) exWrite := by
  intro f hf
  have : ∀ f ∈ exWrite.files, (exWrite.files.find? (fun g => g.filename == f.filename)).map FileAccess.file = some f.file := by
    decide
  exact this f hf

/-- It is not true that writing leaves the files of the collection as they are: with the files not open, `write` to one of
them destroys it, and fails. -/
theorem write_over_source_wrong :
    (exStore []).writeResult .copy exWrite (ch! "a") = .error .key ∧
    ((exStore []).writeDisks .copy exWrite (ch! "a")).getLast?.map (fun s => s.disk (ch! "a")) =
      some (some (exWrite.writeSteps .copy)[2]) ∧
    (exStore []).disk (ch! "a") = some (exInst (ch! "a") [1, 2] [0, 2] [2, 1] [10, 11, 12]).file := by
  refine ⟨by decide, by decide, by decide⟩

example : (exStore [ch! "a", ch! "b", ch! "c"]).writeResult .copy exWrite (ch! "a") = .error .os ∧
    (exStore [ch! "a", ch! "b", ch! "c"]).writeResult .copy exWrite (ch! "new") = .ok () ∧
    (exStore []).writeResult .virtual exWrite (ch! "new") = .ok () ∧
    (exStore []).writeResult .virtual exWrite (ch! "b") = .error .key := ⟨by decide, by decide, by decide, by decide⟩

example : Needed exWrite (exInst (ch! "a") [1, 2] [0, 2] [2, 1] [10, 11, 12]) :=
  ⟨ch! "D:o", by decide, by decide, [ch! "data.y"], by decide, by decide⟩

end KD
