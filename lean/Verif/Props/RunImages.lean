/-
C145: from the files of a run to images of the detector.
-/
import Verif.Model.TrainArrays
import Verif.Spec.RunImages
import Verif.Props.Images
import Verif.Props.SameData
import Verif.Props.Links
import Verif.Props.IterateKeys
import Verif.Props.DetArray

namespace KD

open KD.Spec

variable {P : Type} [Inhabited P]

theorem trainArrays_get? (info : Str → Str → Nat × List Nat) (d : Dict Str (SourceData (List Nat → P))) (s : Str) :
    (trainArrays info d).get? s = (d.get? s).map (fun sd => sd.data.map (fun y => (y.1, y.2.array (info s y.1).1 (info s y.1).2))) := by
  unfold trainArrays
  exact get?_mapKV d (fun s sd => sd.data.map (fun y => (y.1, y.2.array (info s y.1).1 (info s y.1).2))) s

theorem dataArrays_get? (info : Str → Str → Nat × List Nat) (s : Str) (x : Dict Str (Entry (List Nat → P))) (k : Str) :
    Dict.get? (x.map (fun y => (y.1, y.2.array (info s y.1).1 (info s y.1).2))) k =
      (x.get? k).map (fun e => e.array (info s k).1 (info s k).2) :=
  get?_mapKV x (fun k e => e.array (info s k).1 (info s k).2) k

/-- The array of `n` entries. -/
theorem shown_array {es : List (List Nat → P)} {e : Entry (List Nat → P)} {n dt : Nat} {sh : List Nat} (h : shown es = some e)
    (hn : es.length = n) : (e.array dt sh).dtype = dt ∧ (e.array dt sh).shape = frameDims n ++ sh ∧
      ∀ l v, es[l]? = some v → ∀ pixel, (e.array dt sh).get (frameIndex n l ++ pixel) = v pixel := by
  subst hn
  match es, h with
  | [v], h =>
    simp only [shown, Option.some.injEq] at h
    subst h
    refine ⟨rfl, by simp [Entry.array, frameDims], fun l w hl pixel => ?_⟩
    match l, hl with
    | 0, hl =>
      simp only [List.getElem?_cons_zero, Option.some.injEq] at hl
      subst hl
      simp [Entry.array, frameIndex]
  | a :: b :: r, h =>
    simp only [shown, Option.some.injEq] at h
    subst h
    refine ⟨rfl, by simp [Entry.array, frameDims], fun l w hl pixel => ?_⟩
    have : (a :: b :: r).getD l (fun _ => default) = w := by simp [List.getD, hl]
    simp only [Entry.array, frameIndex, List.length_cons, show ¬ (r.length + 1 + 1 = 1) by omega, if_false, List.singleton_append, entriesGet]
    rw [this]

/-- A train which shows the entries `E s` for the sources: it can be stacked, and the array of a module has its entries. -/
theorem arrays_stackable {info : Str → Str → Nat × List Nat} {d : Dict Str (SourceData (List Nat → P))} {key : Str} {modules n dt : Nat}
    {sh : List Nat} {E : Str → List (List Nat → P)} (hk : d.keys.Nodup) (hmod : ∀ s ∈ d.keys, ∃ m < modules, ModuleOf s m)
    (hdiff : ∀ s ∈ d.keys, ∀ s' ∈ d.keys, ∀ m, ModuleOf s m → ModuleOf s' m → s = s')
    (hE : ∀ s ∈ d.keys, shownAt d s key = shown (E s) ∨ (E s = [] ∧ n ≠ 1 ∧ shownAt d s key = some (.many [])))
    (hinfo : ∀ s ∈ d.keys, shownAt d s key ≠ none → info s key = (dt, sh))
    (hn : ∀ s ∈ d.keys, E s = [] ∨ (E s).length = n) (hsome : ∃ s ∈ d.keys, E s ≠ []) :
    Stackable (trainArrays info d) key modules dt (frameDims n ++ sh) ∧
      (∀ s ∈ d.keys, ∀ m, ModuleOf s m → E s ≠ [] → ∃ a, DataOf (trainArrays info d) key m a ∧ a.shape = frameDims n ++ sh ∧
        ∀ l v, (E s)[l]? = some v → ∀ pixel, a.get (frameIndex n l ++ pixel) = v pixel) ∧
      ∀ m, (∀ s ∈ d.keys, ModuleOf s m → E s = []) → ∀ a, DataOf (trainArrays info d) key m a → a.shape ≠ frameDims n ++ sh := by
  have hkeys : (trainArrays info d).map Prod.fst = d.keys := by
    simp [trainArrays, Dict.keys, Function.comp_def]
  have hnd : Dict.keys (trainArrays info d) = d.keys := hkeys
  -- the array of a source for the key
  have hget : ∀ x ∈ trainArrays info d, x.1 ∈ d.keys ∧ x.2.get? key = (shownAt d x.1 key).map (fun e => e.array (info x.1 key).1 (info x.1 key).2) := by
    intro x hx
    have h1 : x.1 ∈ d.keys := by rw [← hkeys]; exact List.mem_map_of_mem hx
    refine ⟨h1, ?_⟩
    have h2 : (trainArrays info d).get? x.1 = some x.2 := (Dict.get?_eq_some_iff (by rw [hnd]; exact hk)).2 hx
    rw [trainArrays_get?] at h2
    unfold shownAt
    cases hd : d.get? x.1 with
    | none => rw [hd] at h2; simp at h2
    | some sd =>
      rw [hd] at h2
      simp only [Option.map_some, Option.some.injEq] at h2
      rw [← h2]
      exact dataArrays_get? info x.1 sd.data key
  have hfull : ∀ x ∈ trainArrays info d, ∀ a, x.2.get? key = some a → (E x.1 ≠ [] → a.dtype = dt ∧ a.shape = frameDims n ++ sh ∧
      ∀ l v, (E x.1)[l]? = some v → ∀ pixel, a.get (frameIndex n l ++ pixel) = v pixel) ∧
      (E x.1 = [] → n ≠ 1 ∧ a.dtype = dt ∧ a.shape = 0 :: sh) := by
    intro x hx a ha
    obtain ⟨h1, h2⟩ := hget x hx
    rw [h2] at ha
    obtain ⟨e, he, rfl⟩ := Option.map_eq_some_iff.1 ha
    rw [hinfo x.1 h1 (by rw [he]; simp)]
    refine ⟨fun hne => ?_, fun hnil => ?_⟩
    · rcases hE x.1 h1 with h3 | ⟨h3, -⟩
      · exact shown_array (h3 ▸ he) ((hn x.1 h1).resolve_left hne)
      · exact absurd h3 hne
    · rcases hE x.1 h1 with h3 | ⟨-, h3, h4⟩
      · rw [h3, hnil] at he
        simp [shown] at he
      · rw [h4] at he
        obtain rfl := Option.some.inj he
        exact ⟨h3, rfl, rfl⟩
  have hpres : ∀ s ∈ d.keys, E s ≠ [] → ∃ x ∈ trainArrays info d, x.1 = s ∧ ∃ a, x.2.get? key = some a := by
    intro s hs hne
    rw [← hkeys] at hs
    obtain ⟨x, hx, rfl⟩ := List.mem_map.1 hs
    obtain ⟨h1, h2⟩ := hget x hx
    refine ⟨x, hx, rfl, ?_⟩
    rw [h2]
    rcases hE x.1 h1 with h3 | ⟨h3, -⟩
    · rw [h3]
      match hes : E x.1 with
      | [] => exact absurd hes hne
      | [v] => simp [shown]
      | a :: b :: r => simp [shown]
    · exact absurd h3 hne
  have hdata : ∀ x ∈ trainArrays info d, ∀ m, ModuleOf x.1 m → ∀ a, x.2.get? key = some a → DataOf (trainArrays info d) key m a := by
    intro x hx m hm a ha
    obtain ⟨before, after, hba⟩ := List.append_of_mem hx
    refine ⟨before, x, after, hba, hm, ha, fun y hy hym => ?_⟩
    exfalso
    have hy' : y ∈ trainArrays info d := by rw [hba]; simp [hy]
    have he := hdiff x.1 (hget x hx).1 y.1 (hget y hy').1 m hm hym
    have hn2 : ((trainArrays info d).map Prod.fst).Nodup := by rw [hkeys]; exact hk
    rw [hba] at hn2
    simp only [List.map_append, List.map_cons, List.nodup_append, List.nodup_cons] at hn2
    exact hn2.2.1.1 (he ▸ List.mem_map_of_mem hy)
  have hof : ∀ m a, DataOf (trainArrays info d) key m a → ∃ x ∈ trainArrays info d, ModuleOf x.1 m ∧ x.2.get? key = some a := by
    rintro m a ⟨before, x, after, e, h1, h2, -⟩
    exact ⟨x, by rw [e]; simp, h1, h2⟩
  have hfd : n ≠ 1 → frameDims n ++ sh = n :: sh := by intro h; simp [frameDims, h]
  refine ⟨⟨?_, ?_, ?_, ?_, ?_⟩, ?_, ?_⟩
  · intro x hx
    obtain ⟨m, -, hm⟩ := hmod x.1 (hget x hx).1
    exact ⟨m, hm⟩
  · rintro a ⟨x, hx, ha⟩
    by_cases hne : E x.1 = []
    · exact ((hfull x hx a ha).2 hne).2.1
    · exact ((hfull x hx a ha).1 hne).1
  · rintro a ⟨x, hx, ha⟩
    by_cases hne : E x.1 = []
    · obtain ⟨h1, -, h2⟩ := (hfull x hx a ha).2 hne
      exact .inr ⟨n, sh, hfd h1, h2⟩
    · exact .inl ((hfull x hx a ha).1 hne).2.1
  · obtain ⟨s, hs, hne⟩ := hsome
    obtain ⟨m, -, hm⟩ := hmod s hs
    obtain ⟨x, hx, rfl, a, ha⟩ := hpres s hs hne
    exact ⟨m, a, hdata x hx m hm a ha, ((hfull x hx a ha).1 hne).2.1⟩
  · intro m a ha _
    obtain ⟨x, hx, h1, -⟩ := hof m a ha
    obtain ⟨m', h2, h3⟩ := hmod x.1 (hget x hx).1
    rw [moduleOf_unique h1 h3]
    exact h2
  · intro s hs m hm hne
    obtain ⟨x, hx, rfl, a, ha⟩ := hpres s hs hne
    exact ⟨a, hdata x hx m hm a ha, ((hfull x hx a ha).1 hne).2⟩
  · intro m hm a ha
    obtain ⟨x, hx, h1, h2⟩ := hof m a ha
    obtain ⟨h3, -, h4⟩ := (hfull x hx a h2).2 (hm x.1 (hget x hx).1 h1)
    rw [h4, hfd h3]
    intro h5
    obtain ⟨s, hs, hne⟩ := hsome
    have h6 := (hn s hs).resolve_left hne
    have : n = 0 := by simpa using (List.cons.inj h5).1.symm
    rw [this] at h6
    exact hne (List.length_eq_zero_iff.1 h6)

/-- The entries of a field in a train. -/
noncomputable def heldEntries (c : DC (List Nat → P)) (hc : NoConflict c.files) (key : Str) (t : Nat) (s : Str) : List (List Nat → P) :=
  open Classical in if Available c s key then (holdsEntries_exists hc true s key t).choose else []

omit [Inhabited P] in
theorem heldEntries_spec {c : DC (List Nat → P)} (hc : NoConflict c.files) {key : Str} {t : Nat} {s : Str} (h : Available c s key) :
    HoldsEntries c true s key t (heldEntries c hc key t s) := by
  unfold heldEntries
  rw [if_pos h]
  exact (holdsEntries_exists hc true s key t).choose_spec.1

omit [Inhabited P] in
theorem heldEntries_frame {c : DC (List Nat → P)} (hc : NoConflict c.files) {key : Str} {t m l : Nat} {v : List Nat → P} :
    ModuleFrame c key t m l v ↔ ∃ s, ModuleOf s m ∧ Available c s key ∧ (heldEntries c hc key t s)[l]? = some v := by
  constructor
  · rintro ⟨s, es, h1, h2, h3, h4⟩
    exact ⟨s, h1, h2, by rw [holdsEntries_unique (heldEntries_spec hc h2) h3]; exact h4⟩
  · rintro ⟨s, h1, h2, h3⟩
    exact ⟨s, _, h1, h2, heldEntries_spec hc h2, h3⟩

/-- The data of a train as read by `train_from_id`, or by iterating if each module has data or there are several frames: it can be stacked. -/
theorem run_stackable {c : DC (List Nat → P)} {info : Str → Str → Nat × List Nat} {d d' : Dict Str (SourceData (List Nat → P))} {key : Str}
    {t modules n dt : Nat} {sh : List Nat} (hc : NoConflict c.files) (hg : GoodData c) (hi : DatasetInfo c info)
    (hd : DetectorTrain c key t modules n dt sh) (h : c.trainFromId t = .ok (t, d')) (hk : d.keys = d'.keys)
    (hsame : ∀ s, shownAt d s key = shownAt d' s key ∨
      (n ≠ 1 ∧ shownAt d s key = some (.many []) ∧ shownAt d' s key = none ∧ Available c s key)) :
    Stackable (trainArrays info d) key modules dt (frameDims n ++ sh) ∧
      (∀ m l v, ModuleFrame c key t m l v → ∃ a, DataOf (trainArrays info d) key m a ∧ a.shape = frameDims n ++ sh ∧
        ∀ pixel, a.get (frameIndex n l ++ pixel) = v pixel) ∧
      ∀ m, (∀ l v, ¬ ModuleFrame c key t m l v) → ∀ a, DataOf (trainArrays info d) key m a → a.shape ≠ frameDims n ++ sh := by
  obtain ⟨-, -, k1, k2, -⟩ := train_from_id_sources h
  have hall : ∀ s, Available c s key → s ∈ c.allSources := fun s hs => hs.1
  have hkey : ∀ s, s ∈ d.keys ↔ s ∈ c.allSources := fun s => by rw [hk]; exact k2 s
  have hfield : ∀ s, Available c s key → HasField c true s key := by
    intro s hs
    rw [hasField_iff]
    exact ⟨by simpa using (hd.sources s hs.1).1, hs⟩
  have hsh : ∀ s ∈ d.keys, shownAt d' s key = shown (heldEntries c hc key t s) := by
    intro s _
    by_cases hav : Available c s key
    · exact shown_entries hc hg (hfield s hav) h (heldEntries_spec hc hav)
    · rw [shownAt_unavailable hc h hav]
      unfold heldEntries
      rw [if_neg hav]
      rfl
  have hinf : ∀ s, Available c s key → info s key = (dt, sh) := by
    intro s hs
    obtain ⟨f, hf, hh⟩ : ∃ f ∈ c.files, Holds f s := by
      obtain ⟨v, -, ⟨-, f, hf, -⟩ | ⟨ks, -, -, f, hf, hh⟩⟩ := available_iff.1 hs
      · obtain ⟨h1, h2⟩ := mem_sourceIndex.1 (List.mem_of_mem_head? hf)
        exact ⟨f, h1, h2⟩
      · exact ⟨f, hf, hh⟩
    obtain ⟨firsts, counts, ds, -, h2, -⟩ := (hg.instr s (hd.sources s hs.1).1 key hs f hf hh).data
    rw [hi f hf s key ds h2]
    obtain ⟨h3, h4⟩ := hd.format f hf s hs ds h2
    rw [h3, h4]
  have hnil : ∀ s, ¬ Available c s key → heldEntries c hc key t s = [] := by
    intro s hs
    unfold heldEntries
    rw [if_neg hs]
  obtain ⟨r1, r2, r3⟩ := arrays_stackable (info := info) (d := d) (key := key) (modules := modules) (n := n) (dt := dt) (sh := sh)
    (E := heldEntries c hc key t) (by rw [hk]; exact k1) (fun s hs => (hd.sources s ((hkey s).1 hs)).2)
    (fun s hs s' hs' m => hd.different s ((hkey s).1 hs) s' ((hkey s').1 hs') m)
    (by
      intro s hs
      rcases hsame s with h1 | ⟨h1, h2, h3, -⟩
      · exact .inl (h1.trans (hsh s hs))
      · refine .inr ⟨?_, h1, h2⟩
        rw [hsh s hs] at h3
        match hes : heldEntries c hc key t s with
        | [] => rfl
        | [v] => rw [hes] at h3; simp [shown] at h3
        | a :: b :: r => rw [hes] at h3; simp [shown] at h3)
    (by
      intro s hs hne
      by_cases hav : Available c s key
      · exact hinf s hav
      · rcases hsame s with h1 | ⟨-, -, -, h4⟩
        · exact absurd (h1.trans (shownAt_unavailable hc h hav)) hne
        · exact hinf s h4)
    (by
      intro s _
      by_cases hav : Available c s key
      · exact hd.frames s hav _ (heldEntries_spec hc hav)
      · exact .inl (hnil s hav))
    (by
      obtain ⟨s, hs, es, h1, h2⟩ := hd.some_frames
      exact ⟨s, (hkey s).2 hs.1, by rw [holdsEntries_unique (heldEntries_spec hc hs) h1]; exact h2⟩)
  refine ⟨r1, ?_, ?_⟩
  · intro m l v hv
    obtain ⟨s, h1, h2, h3⟩ := (heldEntries_frame hc).1 hv
    obtain ⟨a, a1, a2, a3⟩ := r2 s ((hkey s).2 h2.1) m h1 (by intro h0; rw [h0] at h3; simp at h3)
    exact ⟨a, a1, a2, a3 l v h3⟩
  · intro m hm
    refine r3 m (fun s hs h1 => ?_)
    by_cases hav : Available c s key
    · by_contra hne
      obtain ⟨v, l, e⟩ := List.exists_cons_of_ne_nil hne
      exact hm 0 v ((heldEntries_frame hc).2 ⟨s, h1, hav, by rw [e]; rfl⟩)
    · exact hnil s hav

theorem shownAt_keys {V : Type} {d d' : Dict Str (SourceData V)} (hk : d.keys = d'.keys)
    (h : ∀ s sd, d.get? s = some sd → ∃ sd', d'.get? s = some sd' ∧ SameExceptEmpty sd.data sd'.data) (s k : Str) :
    shownAt d s k = shownAt d' s k ∨ (shownAt d s k = some (.many []) ∧ shownAt d' s k = none) := by
  unfold shownAt
  cases hd : d.get? s with
  | none =>
    rw [Dict.get?_none_iff.2 (hk ▸ Dict.get?_none_iff.1 hd)]
    exact .inl rfl
  | some sd =>
    obtain ⟨sd', h1, h2⟩ := h s sd hd
    rw [h1]
    exact h2 k

omit [Inhabited P] in
/-- What stacking gives for the data of a train: the frames of all modules at their places. -/
theorem stacked_frames {c : DC (List Nat → P)} {train : Dict Str (Dict Str (Arr P))} {key : Str} {t modules n dt k : Nat} {sh : List Nat}
    {conv : Nat → P} {axis : Int} (h1 : Stackable train key modules dt (frameDims n ++ sh))
    (h2 : ∀ m l v, ModuleFrame c key t m l v → ∃ a, DataOf train key m a ∧ a.shape = frameDims n ++ sh ∧
        ∀ pixel, a.get (frameIndex n l ++ pixel) = v pixel)
    (h3 : ∀ m, (∀ l v, ¬ ModuleFrame c key t m l v) → ∀ a, DataOf train key m a → a.shape ≠ frameDims n ++ sh)
    (hk : axis = k ∨ axis = (k : Int) - ((frameDims n ++ sh).length + 1 : Nat)) (hle : k ≤ (frameDims n ++ sh).length) :
    ∃ r, stackDetector conv train key axis modules = .ok r ∧ StackOf c key t modules n dt sh k (conv dt) r := by
  obtain ⟨r, r1, r2, r3, r4⟩ := stack_places (conv := conv) h1 hk hle
  refine ⟨r, r1, r2, r3, ?_, ?_⟩
  · intro m hm l v hv before after pixel hb he
    obtain ⟨a, a1, a2, a3⟩ := h2 m l v hv
    rw [(r4 before m after hb hm).1 a a1 a2, he, a3]
  · intro m hm hno before after hb
    exact (r4 before m after hb hm).2 (h3 m hno)

/-- C145. Stacking the data which `train_from_id` gives for a train puts each frame which the files have at its place. -/
theorem run_stack {c : DC (List Nat → P)} {info : Str → Str → Nat × List Nat} {key : Str} {t modules n dt k : Nat} {sh : List Nat}
    {axis : Int} (conv : Nat → P) (hc : NoConflict c.files) (hg : GoodData c) (hi : DatasetInfo c info) (ht : t ∈ c.trainIds)
    (hd : DetectorTrain c key t modules n dt sh) (hk : axis = k ∨ axis = (k : Int) - ((frameDims n ++ sh).length + 1 : Nat))
    (hle : k ≤ (frameDims n ++ sh).length) :
    ∃ d r, c.trainFromId t = .ok (t, d) ∧ stackDetector conv (trainArrays info d) key axis modules = .ok r ∧
      StackOf c key t modules n dt sh k (conv dt) r := by
  obtain ⟨d, h⟩ := train_from_id_succeeds hg ht
  obtain ⟨h1, h2, h3⟩ := run_stackable hc hg hi hd h rfl (fun _ => .inl rfl)
  obtain ⟨r, r1, r2⟩ := stacked_frames (conv := conv) h1 h2 h3 hk hle
  exact ⟨d, r, h, r1, r2⟩

/-- The data of a train as yielded by iterating can be stacked. -/
theorem iter_stackable {c : DC (List Nat → P)} {info : Str → Str → Nat × List Nat} {key : Str} {t modules n dt : Nat} {sh : List Nat}
    (hc : NoConflict c.files) (hg : GoodData c) (hi : DatasetInfo c info) (hd : DetectorTrain c key t modules n dt sh)
    (hone : n = 1 → ∀ s, Available c s key → ∀ es, HoldsEntries c true s key t es → es ≠ [])
    {req : Bool} {items : List (Nat × Dict Str (SourceData (List Nat → P)))} (h : c.trains none none req = .ok items)
    {d : Dict Str (SourceData (List Nat → P))} (hm : (t, d) ∈ items) :
    Stackable (trainArrays info d) key modules dt (frameDims n ++ sh) ∧
      (∀ m l v, ModuleFrame c key t m l v → ∃ a, DataOf (trainArrays info d) key m a ∧ a.shape = frameDims n ++ sh ∧
        ∀ pixel, a.get (frameIndex n l ++ pixel) = v pixel) ∧
      ∀ m, (∀ l v, ¬ ModuleFrame c key t m l v) → ∀ a, DataOf (trainArrays info d) key m a → a.shape ≠ frameDims n ++ sh := by
  have hcat : ∀ s ∈ c.instrumentSources, s ∉ c.controlSources := fun s h1 h2 => (hg.ctrl s h2).1 h1
  obtain ⟨-, h2⟩ := trains_agree hc hcat h
  obtain ⟨ht, d', h3, h4, h5⟩ := h2 t d hm
  refine run_stackable hc hg hi hd h3 h4 (fun s => ?_)
  have hkey := shownAt_keys h4 (fun s sd hs => by
    obtain ⟨sd', e1, -, -, e2⟩ := h5 s sd hs
    exact ⟨sd', e1, e2⟩) s key
  rcases hkey with he | ⟨e1, e2⟩
  · exact .inl he
  · have hav := ((trains_shows hc h hm s key).1 (by rw [e1]; simp)).1
    refine .inr ⟨fun hn => ?_, e1, e2, hav⟩
    have hF : HasField c true s key := by
      rw [hasField_iff]
      exact ⟨by simpa using (hd.sources s hav.1).1, hav⟩
    have hes := heldEntries_spec hc (t := t) hav
    have := shown_entries hc hg hF h3 hes
    rw [e2] at this
    refine hone hn s hav _ hes ?_
    match hx : heldEntries c hc key t s with
    | [] => rfl
    | [v] => rw [hx] at this; simp [shown] at this
    | a :: b :: r => rw [hx] at this; simp [shown] at this

/-- C145. Stacking the data of a train yielded by `trains()` puts each frame which the files have at its place; trains with a single frame
for some modules and none for others are left out here. -/
theorem iter_stack_partial {c : DC (List Nat → P)} {info : Str → Str → Nat × List Nat} {key : Str} {t modules n dt k : Nat} {sh : List Nat}
    {axis : Int} (conv : Nat → P) (hc : NoConflict c.files) (hg : GoodData c) (hi : DatasetInfo c info)
    (hd : DetectorTrain c key t modules n dt sh)
    (hone : n = 1 → ∀ s, Available c s key → ∀ es, HoldsEntries c true s key t es → es ≠ [])
    (hk : axis = k ∨ axis = (k : Int) - ((frameDims n ++ sh).length + 1 : Nat)) (hle : k ≤ (frameDims n ++ sh).length)
    {req : Bool} {items : List (Nat × Dict Str (SourceData (List Nat → P)))} (h : c.trains none none req = .ok items)
    {d : Dict Str (SourceData (List Nat → P))} (hm : (t, d) ∈ items) :
    ∃ r, stackDetector conv (trainArrays info d) key axis modules = .ok r ∧ StackOf c key t modules n dt sh k (conv dt) r := by
  obtain ⟨h1, h2, h3⟩ := iter_stackable hc hg hi hd hone h hm
  exact stacked_frames (conv := conv) h1 h2 h3 hk hle

/-! ### An example -/

/-- A frame: the element at (i, j) is 1000000 * k + 1000 * i + j. -/
def exFrame (k : Nat) : List Nat → Nat := fun idx => idx.foldl (fun a b => 1000 * a + b) k

/-- A file of module `n` with frames of 256 by 256 pixels. -/
def exImgFile (n : Char) (firsts counts : List Nat) (rows : List Nat) : FileAccess (List Nat → Nat) :=
  ⟨[n], [10, 11, 12], [], [exSource n],
    { trainId := some [10, 11, 12], version := some (ch! "1.0"), sources05 := none,
      sources10 := some [ch! "INSTRUMENT/" ++ exSource n ++ ch! "/image"],
      index := [([ch! "INDEX", ch! "X_AGIPD1M-1", ch! "DET", [n] ++ ch! "CH0:xtdf", ch! "image"],
        ⟨some (firsts.map (BitVec.ofNat 64)), some (counts.map (BitVec.ofNat 64)), none, none⟩)],
      groups := [],
      datasets := [([ch! "INSTRUMENT", ch! "X_AGIPD1M-1", ch! "DET", [n] ++ ch! "CH0:xtdf", ch! "image", ch! "data"],
        ⟨rows.map exFrame, [256, 256], 0⟩)] }⟩

def exImgFile3 : FileAccess (List Nat → Nat) := exImgFile '3' [0, 2, 2] [2, 0, 0] [100, 101]
def exImgFile0 : FileAccess (List Nat → Nat) := exImgFile '0' [0, 2, 3] [2, 1, 2] [200, 201, 210, 220, 221]

/-- Two modules: 2 frames each in train 10, a single frame of one module in train 11, and 2 frames of one module in train 12. -/
def exImgRun : DC (List Nat → Nat) where
  files := [exImgFile3, exImgFile0]
  selection := [(exSource '3', none), (exSource '0', none)]
  trainIds := [10, 11, 12]
  ctxCloses := true

def exImgInfo : Str → Str → Nat × List Nat := fun _ _ => (0, [256, 256])

theorem exImg_noConflict : NoConflict exImgRun.files := by
  unfold NoConflict
  simp only [exImgRun, List.pairwise_cons, List.mem_singleton, forall_eq, List.not_mem_nil, false_implies, implies_true, List.Pairwise.nil, and_true]
  intro s t h1 h2
  have e1 : s = exSource '3' := by
    rcases h1 with h | h
    · simp [exImgFile3, exImgFile] at h
    · simpa [exImgFile3, exImgFile] using h
  have e2 : s = exSource '0' := by
    rcases h2 with h | h
    · simp [exImgFile0, exImgFile] at h
    · simpa [exImgFile0, exImgFile] using h
  exact absurd (e1.symm.trans e2) (by decide)

theorem exImg_sources : exImgRun.instrumentSources = [exSource '3', exSource '0'] ∧ exImgRun.controlSources = [] ∧
    exImgRun.allSources = [exSource '3', exSource '0'] := by decide

theorem exImg_keys : ∀ s ∈ [exSource '3', exSource '0'], exImgRun.keysForSource s = .ok [ch! "image.data"] := by decide

theorem exImg_available {s k : Str} (h : Available exImgRun s k) : (s = exSource '3' ∨ s = exSource '0') ∧ k = ch! "image.data" := by
  have hs : s ∈ [exSource '3', exSource '0'] := by rw [← exImg_sources.2.2]; exact h.1
  have hk := (available_keys h.1 (exImg_keys s hs)).2 h
  exact ⟨by simpa using hs, by simpa using hk⟩

theorem exImg_holds {f : FileAccess (List Nat → Nat)} (hf : f ∈ exImgRun.files) {s : Str} (hh : Holds f s) :
    (s = exSource '3' ∧ f = exImgFile3) ∨ (s = exSource '0' ∧ f = exImgFile0) := by
  rcases List.mem_cons.1 hf with rfl | hf
  · left
    rcases hh with h | h
    · simp [exImgFile3, exImgFile] at h
    · exact ⟨by simpa [exImgFile3, exImgFile] using h, rfl⟩
  · obtain rfl := List.mem_singleton.1 hf
    right
    rcases hh with h | h
    · simp [exImgFile0, exImgFile] at h
    · exact ⟨by simpa [exImgFile0, exImgFile] using h, rfl⟩

theorem exImg_good : GoodData exImgRun := by
  refine ⟨?_, ?_, ?_⟩
  · intro s hs
    rw [exImg_sources.2.2] at hs
    exact ⟨_, exImg_keys s hs⟩
  · intro s hs k hav f hf hh
    obtain ⟨-, rfl⟩ := exImg_available hav
    rcases exImg_holds hf hh with ⟨rfl, rfl⟩ | ⟨rfl, rfl⟩
    · exact ⟨by decide, by decide, [0, 2, 2], [2, 0, 0], ⟨[exFrame 100, exFrame 101], [256, 256], 0⟩, by decide, rfl, by decide, by decide,
        inBounds_cons (by decide) (inBounds_cons (by decide) (inBounds_cons (by decide) (inBounds_nil _)))⟩
    · exact ⟨by decide, by decide, [0, 2, 3], [2, 1, 2],
        ⟨[exFrame 200, exFrame 201, exFrame 210, exFrame 220, exFrame 221], [256, 256], 0⟩, by decide, rfl, by decide, by decide,
        inBounds_cons (by decide) (inBounds_cons (by decide) (inBounds_cons (by decide) (inBounds_nil _)))⟩
  · intro s hs
    rw [exImg_sources.2.1] at hs
    simp at hs

theorem exImg_info : DatasetInfo exImgRun exImgInfo := by
  intro f hf s key ds h
  have key : ∀ p ∈ f.file.datasets, p.2.dtype = 0 ∧ p.2.rowShape = [256, 256] := by
    rcases List.mem_cons.1 hf with rfl | hf
    · simp [exImgFile3, exImgFile]
    · obtain rfl := List.mem_singleton.1 hf
      simp [exImgFile0, exImgFile]
  unfold FileAccess.dataset need at h
  split at h
  · next v hv =>
    obtain rfl := Except.ok.inj h
    obtain ⟨h1, h2⟩ := key _ (Dict.mem_of_get? hv)
    rw [h1, h2]
    rfl
  · simp at h

theorem exImg_entries (t : Nat) (es3 es0 : List (List Nat → Nat)) (ht : t ∈ [10, 11, 12])
    (h3 : fileEntries exImgFile3 true (exSource '3') (ch! "image.data") t = es3)
    (h0 : fileEntries exImgFile0 true (exSource '0') (ch! "image.data") t = es0) :
    HoldsEntries exImgRun true (exSource '3') (ch! "image.data") t es3 ∧
      HoldsEntries exImgRun true (exSource '0') (ch! "image.data") t es0 := by
  have hne : exSource '3' ≠ exSource '0' := by decide
  refine ⟨⟨?_, fun hn => absurd ⟨exImgFile3, by simp [exImgRun], .inr (by simp [exImgFile3, exImgFile]), ht⟩ hn⟩,
    ⟨?_, fun hn => absurd ⟨exImgFile0, by simp [exImgRun], .inr (by simp [exImgFile0, exImgFile]), ht⟩ hn⟩⟩
  · intro f hf hh _
    rcases exImg_holds hf hh with ⟨-, rfl⟩ | ⟨h, -⟩
    · exact h3
    · exact absurd h hne
  · intro f hf hh _
    rcases exImg_holds hf hh with ⟨h, -⟩ | ⟨-, rfl⟩
    · exact absurd h.symm hne
    · exact h0

theorem exImg_module3 : ModuleOf (exSource '3') 3 := (moduleOf_iff _ _).2 ⟨ch! "3", by decide, by decide⟩
theorem exImg_module0 : ModuleOf (exSource '0') 0 := (moduleOf_iff _ _).2 ⟨ch! "0", by decide, by decide⟩

/-- In each train the run is as the theorems ask for. -/
theorem exImg_train {t n : Nat} {es3 es0 : List (List Nat → Nat)} (ht : t ∈ [10, 11, 12])
    (h3 : fileEntries exImgFile3 true (exSource '3') (ch! "image.data") t = es3)
    (h0 : fileEntries exImgFile0 true (exSource '0') (ch! "image.data") t = es0) (hn3 : es3 = [] ∨ es3.length = n) (hn0 : es0.length = n)
    (hpos : n ≠ 0) : DetectorTrain exImgRun (ch! "image.data") t 16 n 0 [256, 256] := by
  obtain ⟨e3, e0⟩ := exImg_entries t es3 es0 ht h3 h0
  have hsrc : ∀ s, s ∈ exImgRun.allSources ↔ s = exSource '3' ∨ s = exSource '0' := by
    intro s
    rw [exImg_sources.2.2]
    simp
  refine ⟨?_, ?_, ?_, ?_, ?_⟩
  · intro s hs
    refine ⟨by rw [exImg_sources.1, ← exImg_sources.2.2]; exact hs, ?_⟩
    rcases (hsrc s).1 hs with rfl | rfl
    · exact ⟨3, by decide, exImg_module3⟩
    · exact ⟨0, by decide, exImg_module0⟩
  · intro s hs s' hs' m hm hm'
    rcases (hsrc s).1 hs with rfl | rfl <;> rcases (hsrc s').1 hs' with rfl | rfl
    · rfl
    · exact absurd ((moduleOf_unique exImg_module3 hm).trans (moduleOf_unique hm' exImg_module0)) (by decide)
    · exact absurd ((moduleOf_unique exImg_module0 hm).trans (moduleOf_unique hm' exImg_module3)) (by decide)
    · rfl
  · intro f hf s _ ds h
    have := exImg_info f hf s _ ds h
    exact ⟨(congrArg Prod.fst this).symm, (congrArg Prod.snd this).symm⟩
  · intro s hs es he
    rcases (exImg_available hs).1 with rfl | rfl
    · rw [holdsEntries_unique he e3]; exact hn3
    · rw [holdsEntries_unique he e0]; exact .inr hn0
  · refine ⟨exSource '0', ⟨(hsrc _).2 (.inr rfl), _, exImg_keys _ (by simp), by simp⟩, es0, e0, ?_⟩
    rintro rfl
    exact hpos hn0.symm

/-- The theorems apply to train 12: 2 frames of module 0. -/
example : ∃ d r, exImgRun.trainFromId 12 = .ok (12, d) ∧ stackDetector (fun _ => 7) (trainArrays exImgInfo d) (ch! "image.data") (-3) 16 = .ok r ∧
    r.shape = [2, 16, 256, 256] ∧ r.get [1, 0, 5, 6] = 221005006 ∧ r.get [1, 3, 5, 6] = 7 := by
  have hd := exImg_train (t := 12) (n := 2) (by decide) rfl rfl (.inl rfl) rfl (by decide)
  obtain ⟨d, r, h1, h2, h3⟩ := run_stack (axis := -3) (k := 1) (fun _ => 7) exImg_noConflict exImg_good exImg_info (by decide) hd
    (.inr (by decide)) (by decide)
  obtain ⟨e3, e0⟩ := exImg_entries 12 [] _ (by decide) rfl rfl
  refine ⟨d, r, h1, h2, h3.shape, ?_, ?_⟩
  · refine h3.frames 0 (by decide) 1 (exFrame 221) ⟨exSource '0', _, exImg_module0, ?_, e0, rfl⟩ [1] [5, 6] [5, 6] rfl rfl
    exact ⟨by rw [exImg_sources.2.2]; simp, _, exImg_keys _ (by simp), by simp⟩
  · refine h3.missing 3 (by decide) ?_ [1] [5, 6] rfl
    rintro l v ⟨s, es, m1, m2, m3, m4⟩
    rcases (exImg_available m2).1 with rfl | rfl
    · rw [holdsEntries_unique m3 e3] at m4
      simp at m4
    · exact absurd (moduleOf_unique m1 exImg_module0) (by decide)

/-- What `iter_stack_partial` leaves out does not work: in train 11 one module has a single frame, and another none. The data read by `train_from_id`
can be stacked, while the data yielded by `trains()` is refused with ValueError. -/
theorem single_frame_wrong : ∃ items d d', exImgRun.trains none none false = .ok items ∧ (11, d) ∈ items ∧
    exImgRun.trainFromId 11 = .ok (11, d') ∧
    stackDetector (fun _ => 7) (trainArrays exImgInfo d) (ch! "image.data") (-3) 16 = .error .value ∧
    ∃ r, stackDetector (fun _ => 7) (trainArrays exImgInfo d') (ch! "image.data") (-3) 16 = .ok r ∧ r.shape = [16, 256, 256] := by
  refine ⟨_, _, _, rfl, List.mem_cons_of_mem _ List.mem_cons_self, rfl, rfl, _, rfl, rfl⟩

end KD

namespace KD.Geo

open KD.Spec

variable {P : Type} [Inhabited P] {K : Type} [Field K] [LinearOrder K] [IsStrictOrderedRing K] [FloorRing K]

omit [Inhabited P] in
/-- The images of a train whose data can be stacked. -/
theorem frames_images (g : Geom K) (rowStep : K) (safe : Nat → Nat → Bool) (nan conv : Nat → P) {c : DC (List Nat → P)}
    {train : Dict Str (Dict Str (Arr P))} {key : Str} {t n dt h w : Nat} (hC : Spec.Complete g) (hS : Spec.RightSize g)
    (hA : Spec.AllSnap g (g.det.pixelShape rowStep)) (hno : Spec.NoOverlap g (g.det.pixelShape rowStep)) (hsh : (16, h, w) = Spec.shape g.det)
    (h1 : Stackable train key 16 dt (frameDims n ++ [h, w]))
    (h2 : ∀ m l v, ModuleFrame c key t m l v → ∃ a, DataOf train key m a ∧ a.shape = frameDims n ++ [h, w] ∧
        ∀ pixel, a.get (frameIndex n l ++ pixel) = v pixel)
    (h3 : ∀ m, (∀ l v, ¬ ModuleFrame c key t m l v) → ∀ a, DataOf train key m a → a.shape ≠ frameDims n ++ [h, w]) :
    ∃ stacked img centre, stackDetector conv train key (-3) 16 = .ok stacked ∧
      g.positionArray rowStep safe nan stacked none = .ok (img, centre) ∧
      Spec.RunImage g (g.det.pixelShape rowStep) c key t n dt (conv dt) (nan dt) img centre := by
  obtain ⟨st, img, ce, H, W, r1, r2, r3, r4, r5, r6⟩ := stacked_images g rowStep safe nan conv hC hS hA hno h1 hsh
  have hlen : ∀ l, (frameIndex n l).length = (frameDims n).length := by
    intro l
    unfold frameIndex frameDims
    split <;> rfl
  refine ⟨st, img, ce, r1, r2, r3, H, W, r4, ?_, ?_⟩
  · intro m i j yx hcov
    obtain ⟨y, x, y1, x1, y2, x2, hv⟩ := r5 m i j yx hcov
    refine ⟨y, x, y1, x1, y2, x2, ?_, ?_⟩
    · intro l v hf
      obtain ⟨a, a1, a2, a3⟩ := h2 m l v hf
      rw [(hv _ (hlen l)).1 a a1 a2, a3]
    · intro hm l
      exact (hv _ (hlen l)).2 (h3 m hm)
  · intro y x hy hx hn l
    exact r6 y x hy hx hn _ (hlen l)

/-- C145. From the files to the image: the data of a train read by `train_from_id`, stacked and assembled, shows each pixel of each frame
which the files have for a module where the geometry has it. -/
theorem run_images (g : Geom K) (rowStep : K) (safe : Nat → Nat → Bool) (nan conv : Nat → P) {c : DC (List Nat → P)}
    {info : Str → Str → Nat × List Nat} {key : Str} {t n dt h w : Nat} (hC : Spec.Complete g) (hS : Spec.RightSize g)
    (hA : Spec.AllSnap g (g.det.pixelShape rowStep)) (hno : Spec.NoOverlap g (g.det.pixelShape rowStep)) (hsh : (16, h, w) = Spec.shape g.det)
    (hc : NoConflict c.files) (hg : GoodData c) (hi : DatasetInfo c info) (ht : t ∈ c.trainIds) (hd : DetectorTrain c key t 16 n dt [h, w]) :
    ∃ d stacked img centre, c.trainFromId t = .ok (t, d) ∧ stackDetector conv (trainArrays info d) key (-3) 16 = .ok stacked ∧
      g.positionArray rowStep safe nan stacked none = .ok (img, centre) ∧
      Spec.RunImage g (g.det.pixelShape rowStep) c key t n dt (conv dt) (nan dt) img centre := by
  obtain ⟨d, h⟩ := train_from_id_succeeds hg ht
  obtain ⟨h1, h2, h3⟩ := run_stackable hc hg hi hd h rfl (fun _ => .inl rfl)
  obtain ⟨st, img, ce, r1, r2, r3⟩ := frames_images g rowStep safe nan conv hC hS hA hno hsh h1 h2 h3
  exact ⟨d, st, img, ce, h, r1, r2, r3⟩

/-- C145. The same for the data yielded by `trains()`. -/
theorem iter_images_partial (g : Geom K) (rowStep : K) (safe : Nat → Nat → Bool) (nan conv : Nat → P) {c : DC (List Nat → P)}
    {info : Str → Str → Nat × List Nat} {key : Str} {t n dt h w : Nat} (hC : Spec.Complete g) (hS : Spec.RightSize g)
    (hA : Spec.AllSnap g (g.det.pixelShape rowStep)) (hno : Spec.NoOverlap g (g.det.pixelShape rowStep)) (hsh : (16, h, w) = Spec.shape g.det)
    (hc : NoConflict c.files) (hg : GoodData c) (hi : DatasetInfo c info) (hd : DetectorTrain c key t 16 n dt [h, w])
    (hone : n = 1 → ∀ s, Available c s key → ∀ es, HoldsEntries c true s key t es → es ≠ [])
    {req : Bool} {items : List (Nat × Dict Str (SourceData (List Nat → P)))} (hit : c.trains none none req = .ok items)
    {d : Dict Str (SourceData (List Nat → P))} (hm : (t, d) ∈ items) :
    ∃ stacked img centre, stackDetector conv (trainArrays info d) key (-3) 16 = .ok stacked ∧
      g.positionArray rowStep safe nan stacked none = .ok (img, centre) ∧
      Spec.RunImage g (g.det.pixelShape rowStep) c key t n dt (conv dt) (nan dt) img centre := by
  obtain ⟨h1, h2, h3⟩ := iter_stackable hc hg hi hd hone hit hm
  exact frames_images g rowStep safe nan conv hC hS hA hno hsh h1 h2 h3

/-- Train 12 of the example and the usual LPD geometry meet the hypotheses: the second image shows frame 221 of module 0. -/
example : ∃ g : Geom ℚ, ∃ d stacked img centre, exImgRun.trainFromId 12 = .ok (12, d) ∧
    stackDetector (fun _ => 99) (trainArrays exImgInfo d) (ch! "image.data") (-3) 16 = .ok stacked ∧
    g.positionArray 1 (fun _ _ => true) (fun _ => 98) stacked none = .ok (img, centre) ∧
    ∃ y x : Nat, img.get [0, y, x] = 220007008 ∧ img.get [1, y, x] = 221007008 := by
  obtain ⟨g, hg, hC, hS, hA, hno⟩ := exLpd_good
  have hdet : g.det = .lpd := by
    obtain ⟨g', h1, h2, -⟩ := lpd_quads (K := ℚ) [(114 / 10, 299), (-115 / 10, 8), (2545 / 10, -16), (2785 / 10, 275)] (1 / 1000) none none (by simp)
    obtain rfl := Except.ok.inj (hg.symm.trans h1)
    exact h2
  have hd := exImg_train (t := 12) (n := 2) (by decide) rfl rfl (.inl rfl) rfl (by decide)
  obtain ⟨d, st, img, ce, h1, h2, h3, h4⟩ := run_images g 1 (fun _ _ => true) (fun _ => 98) (fun _ => 99) hC hS hA hno (by rw [hdet]; rfl)
    exImg_noConflict exImg_good exImg_info (by decide) hd
  obtain ⟨H, W, -, h5, -⟩ := h4.image
  obtain ⟨yx, hc, -⟩ := pixel_has_cell hC hA (m := 0) (i := 7) (j := 8) (by rw [hdet]; decide) (by rw [hdet]; decide) (by rw [hdet]; decide)
  obtain ⟨y, x, -, -, -, -, hv, -⟩ := h5 0 7 8 yx hc
  obtain ⟨-, e0⟩ := exImg_entries 12 [] _ (by decide) rfl rfl
  have hav : Available exImgRun (exSource '0') (ch! "image.data") :=
    ⟨by rw [exImg_sources.2.2]; simp, _, exImg_keys _ (by simp), by simp⟩
  exact ⟨g, d, st, img, ce, h1, h2, h3, y, x, hv 0 (exFrame 220) ⟨_, _, exImg_module0, hav, e0, rfl⟩,
    hv 1 (exFrame 221) ⟨_, _, exImg_module0, hav, e0, rfl⟩⟩

/-- Train 10 as yielded by `trains()` meets the hypotheses. -/
example : ∃ g : Geom ℚ, ∃ items d stacked img centre, exImgRun.trains none none true = .ok items ∧ (10, d) ∈ items ∧
    stackDetector (fun _ => 99) (trainArrays exImgInfo d) (ch! "image.data") (-3) 16 = .ok stacked ∧
    g.positionArray 1 (fun _ _ => true) (fun _ => 98) stacked none = .ok (img, centre) ∧
    Spec.RunImage g (g.det.pixelShape 1) exImgRun (ch! "image.data") 10 2 0 99 98 img centre := by
  obtain ⟨g, hg, hC, hS, hA, hno⟩ := exLpd_good
  have hdet : g.det = .lpd := by
    obtain ⟨g', h1, h2, -⟩ := lpd_quads (K := ℚ) [(114 / 10, 299), (-115 / 10, 8), (2545 / 10, -16), (2785 / 10, 275)] (1 / 1000) none none (by simp)
    obtain rfl := Except.ok.inj (hg.symm.trans h1)
    exact h2
  have hd := exImg_train (t := 10) (n := 2) (by decide) rfl rfl (.inr rfl) rfl (by decide)
  have hitems : ∃ items d, exImgRun.trains none none true = .ok items ∧ (10, d) ∈ items := ⟨_, _, rfl, List.mem_cons_self⟩
  obtain ⟨items, d, h1, h2⟩ := hitems
  obtain ⟨st, img, ce, h3, h4, h5⟩ := iter_images_partial g 1 (fun _ _ => true) (fun _ => 98) (fun _ => 99) hC hS hA hno (by rw [hdet]; rfl)
    exImg_noConflict exImg_good exImg_info hd (by simp) h1 h2
  exact ⟨g, items, d, st, img, ce, h1, h2, h3, h4, h5⟩

end KD.Geo
