/- Properties C55, C56, C57: iterating over the trains of a detector. -/
import Verif.Props.DetArray
import Verif.Lemmas.DetIterate

set_option linter.unusedSimpArgs false

namespace KD
open Spec

variable {V : Type}

theorem checkPulses_step {libs : Libs} {arg : PulseArg} {ps : Pulses} (h : checkPulses libs arg = .ok ps) : GoodStep ps := by
  intro a b s hs
  unfold checkPulses at h
  split at h
  · simp at h
  · split at h
    · split at h
      · simp at h
      · split at h
        · simp at h
        · obtain rfl := Except.ok.inj h
          simp only [PulseSet.slice.injEq] at hs
          omega
    · simp at h
  · split at h
    · simp at h
    · obtain rfl := Except.ok.inj h
      simp at hs
  · split at h
    · simp at h
    · obtain rfl := Except.ok.inj h
      simp at hs

theorem checkPulses_byId {libs : Libs} {arg : PulseArg} {ps : Pulses} (h : checkPulses libs arg = .ok ps) :
    ∃ v, arg = .by_ ps.byId v := by
  unfold checkPulses at h
  split at h
  · simp at h
  all_goals
    repeat' split at h
    all_goals first | (obtain rfl := Except.ok.inj h; exact ⟨_, rfl⟩) | simp at h

theorem askedIter_iff {ps : Pulses} {k p : Nat} (hk : k < 2700) (hp : p < 2700) : AskedIter ps k p ↔ AskedSet ps k p := by
  unfold AskedIter AskedSet
  constructor
  · exact Or.inr
  · rintro (h | h)
    · rw [h]
      simp only [PulseSet.desired, arange_one_mem, maxPulses]
      split <;> omega
    · exact h

theorem workOf_ok {d : Det V} {x : Nat × Str} {w : List (Nat × Str × Str)} (h : d.workOf x = .ok w) :
    ∃ ks, d.data.keysForSource x.2 = .ok ks ∧ w = ks.map (fun k => (x.1, x.2, k)) := by
  unfold Det.workOf at h
  split at h
  · simp at h
  · rename_i ks hks
    exact ⟨ks, hks, (Except.ok.inj h).symm⟩

theorem work_nodup {d : Det V} : ∀ {ms : List (Nat × Str)} {work : List (List (Nat × Str × Str))},
    mapE d.workOf ms = .ok work → (ms.map Prod.fst).Nodup → (work.flatten.map (fun w => (w.2.2, w.1))).Nodup := by
  intro ms
  induction ms with
  | nil => intro work h _; obtain rfl := Except.ok.inj h; simp
  | cons x ms ih =>
    intro work h hn
    obtain ⟨w, ws, h1, h2, rfl⟩ := mapE_cons_ok.1 h
    rw [List.map_cons, List.nodup_cons] at hn
    obtain ⟨ks, hks, rfl⟩ := workOf_ok h1
    rw [List.flatten_cons, List.map_append, List.nodup_append]
    refine ⟨?_, ih h2 hn.2, ?_⟩
    · rw [List.map_map]
      refine (keysForSource_nodup hks).map ?_
      intro a b hab
      exact (Prod.mk.inj hab).1
    · rintro a ha b hb rfl
      simp only [List.mem_map, List.mem_flatten] at ha hb
      obtain ⟨_, ⟨k, -, rfl⟩, rfl⟩ := ha
      obtain ⟨w', ⟨l, hl, hw'⟩, heq⟩ := hb
      obtain ⟨x', hx', hwx⟩ := (mapE_mem h2).1 hl
      obtain ⟨ks', -, rfl⟩ := workOf_ok hwx
      obtain ⟨k', -, rfl⟩ := List.mem_map.1 hw'
      have e := (Prod.mk.inj heq).2
      simp only at e
      exact hn.1 (List.mem_map.2 ⟨x', hx', e⟩)

theorem pureKey_tag {d : Det V} {libs : Libs} {num : V → Nat} {ps : Pulses} {t : Nat} {w : Nat × Str × Str}
    {y : Str × Nat × ModData V} (h : d.pureKey libs num ps t w = .ok (some y)) : y.1 = w.2.2 ∧ y.2.1 = w.1 := by
  unfold Det.pureKey at h
  repeat' split at h
  all_goals first | (obtain rfl := Option.some.inj (Except.ok.inj h); exact ⟨rfl, rfl⟩) | simp at h

theorem collected_sublist {d : Det V} {libs : Libs} {num : V → Nat} {ps : Pulses} {t : Nat} :
    ∀ {ws : List (Nat × Str × Str)} {l : List (Option (Str × Nat × ModData V))},
    mapE (d.pureKey libs num ps t) ws = .ok l →
    ((l.filterMap id).map (fun y => (y.1, y.2.1))).Sublist (ws.map (fun w => (w.2.2, w.1))) := by
  intro ws
  induction ws with
  | nil => intro l h; obtain rfl := Except.ok.inj h; simp
  | cons w ws ih =>
    intro l h
    obtain ⟨o, os, h1, h2, rfl⟩ := mapE_cons_ok.1 h
    cases o with
    | none =>
      rw [List.filterMap_cons_none rfl, List.map_cons]
      exact (ih h2).trans (List.sublist_cons_self _ _)
    | some y =>
      rw [show (some y :: os).filterMap id = y :: os.filterMap id from rfl, List.map_cons, List.map_cons]
      obtain ⟨e1, e2⟩ := pureKey_tag h1
      rw [e1, e2]
      exact (ih h2).cons_cons _

theorem mem_pulseParts {l : List (Nat × ModData V)} {m : Nat} {b : PArr V} :
    (m, b) ∈ pulseParts l ↔ (m, ModData.pulse b) ∈ l := by
  unfold pulseParts
  rw [List.mem_filterMap]
  constructor
  · rintro ⟨⟨m', x⟩, hx, he⟩
    cases x with
    | pulse a =>
      simp only [Option.some.injEq, Prod.mk.injEq] at he
      obtain ⟨rfl, rfl⟩ := he
      exact hx
    | slow e => simp at he
  · intro h
    exact ⟨_, h, rfl⟩

theorem pulseParts_nodup {l : List (Nat × ModData V)} (h : (l.map Prod.fst).Nodup) : ((pulseParts l).map Prod.fst).Nodup := by
  refine List.Nodup.sublist ?_ h
  induction l with
  | nil => simp [pulseParts]
  | cons x l ih =>
    obtain ⟨m, x⟩ := x
    have ih := ih (by rw [List.map_cons, List.nodup_cons] at h; exact h.2)
    cases x with
    | pulse a => exact ih.cons_cons m
    | slow e => exact ih.trans (List.sublist_cons_self _ _)

theorem joinKey_fst {items : List (Str × Nat × ModData V)} {key : Str} {y : Str × IterVal V} (h : joinKey items key = .ok y) :
    y.1 = key := by
  unfold joinKey at h
  simp only at h
  repeat' split at h
  all_goals first | (obtain rfl := Except.ok.inj h; rfl) | simp at h

theorem joinKey_pulses {items : List (Str × Nat × ModData V)} {key : Str} {a : DetArr V}
    (h : joinKey items key = .ok (key, .pulses a)) (hn : (items.map (fun y => (y.1, y.2.1))).Nodup) :
    startsWith key (ch! "image.") = true ∧ ∃ l, concatModules l = .ok a ∧ (l.map Prod.fst).Nodup ∧
      ∀ m b, (m, b) ∈ l ↔ (key, m, ModData.pulse b) ∈ items := by
  unfold joinKey at h
  simp only at h
  split at h
  · rename_i hk
    split at h
    · simp at h
    · rename_i a' ha
      have := (Prod.mk.inj (Except.ok.inj h)).2
      obtain rfl := IterVal.pulses.inj this
      refine ⟨hk, _, ha, ?_, ?_⟩
      · apply pulseParts_nodup
        rw [List.map_map]
        have : (items.filter (fun x => decide (x.1 = key))).map (fun y => (y.1, y.2.1)) =
            (items.filter (fun x => decide (x.1 = key))).map (fun y => (key, y.2.1)) := by
          apply List.map_congr_left
          intro y hy
          have := (List.mem_filter.1 hy).2
          simp only [decide_eq_true_eq] at this
          rw [this]
        have hs := hn.sublist ((List.filter_sublist (p := fun x => decide (x.1 = key))).map (fun y : Str × Nat × ModData V => (y.1, y.2.1)))
        rw [this] at hs
        refine List.Nodup.of_map (fun m => (key, m)) ?_
        rw [List.map_map]
        exact hs
      · intro m b
        rw [mem_pulseParts, List.mem_map]
        constructor
        · rintro ⟨⟨k', m', x⟩, hx, heq⟩
          obtain ⟨h1, h2⟩ := List.mem_filter.1 hx
          simp only [decide_eq_true_eq] at h2
          subst h2
          obtain ⟨rfl, rfl⟩ := Prod.mk.inj heq
          exact h1
        · intro hx
          exact ⟨_, List.mem_filter.2 ⟨hx, by simp⟩, rfl⟩
  · split at h <;> simp at h

theorem detTrains_ok {d : Det V} {libs : Libs} {num : V → Nat} {arg : PulseArg} {items : List (Nat × Dict Str (IterVal V))}
    (hc : NoConflict d.data.files) (h : d.trains libs num arg = .ok items) :
    ∃ ps, checkPulses libs arg = .ok ps ∧ (items.map Prod.fst).Sublist d.data.trainIds ∧
      (∀ t x, (t, x) ∈ items → d.pureAssemble libs num ps t = .ok x) ∧
      ∀ t, t ∈ items.map Prod.fst ↔ t ∈ d.data.trainIds ∧ d.data.checkDataMissing t = .ok false := by
  unfold Det.trains at h
  split at h
  · simp at h
  · rename_i ps hps
    refine ⟨ps, hps, ?_⟩
    rw [detIterate_pure hc libs num ps _ _ (fun s k f ds h => by simp at h)] at h
    generalize d.data.trainIds = ts at h
    induction ts generalizing items with
    | nil => obtain rfl := Except.ok.inj h; simp
    | cons t ts ih =>
      cases hm : mapE (d.pureStep libs num ps) (t :: ts) with
      | error e => rw [hm] at h; simp [Except.map] at h
      | ok l =>
        rw [hm] at h
        obtain rfl := Except.ok.inj h
        obtain ⟨o, os, h1, h2, rfl⟩ := mapE_cons_ok.1 hm
        obtain ⟨i1, i2, i3⟩ := ih (by rw [h2]; rfl)
        unfold Det.pureStep at h1
        split at h1
        · simp at h1
        · rename_i hmiss
          obtain rfl := Except.ok.inj h1
          rw [List.filterMap_cons_none rfl]
          refine ⟨i1.trans (List.sublist_cons_self _ _), i2, fun t' => ?_⟩
          rw [i3, List.mem_cons]
          constructor
          · rintro ⟨a, b⟩; exact ⟨Or.inr a, b⟩
          · rintro ⟨rfl | a, b⟩
            · rw [hmiss] at b; simp at b
            · exact ⟨a, b⟩
        · rename_i hmiss
          split at h1
          · simp at h1
          · rename_i x hx
            obtain rfl := Except.ok.inj h1
            rw [show (some (t, x) :: os).filterMap id = (t, x) :: os.filterMap id from rfl, List.map_cons]
            refine ⟨i1.cons_cons _, ?_, fun t' => ?_⟩
            · intro t' x' hm'
              rcases List.mem_cons.1 hm' with heq | hm'
              · obtain ⟨rfl, rfl⟩ := Prod.mk.inj heq
                exact hx
              · exact i2 t' x' hm'
            · rw [List.mem_cons, i3, List.mem_cons]
              constructor
              · rintro (rfl | ⟨a, b⟩)
                · exact ⟨Or.inl rfl, hmiss⟩
                · exact ⟨Or.inr a, b⟩
              · rintro ⟨rfl | a, b⟩
                · exact Or.inl rfl
                · exact Or.inr ⟨a, b⟩

theorem pureAssemble_get {d : Det V} {libs : Libs} {num : V → Nat} {ps : Pulses} {t : Nat} {x : Dict Str (IterVal V)}
    (h : d.pureAssemble libs num ps t = .ok x) {key : Str} {a : DetArr V} (hg : x.get? key = some (.pulses a))
    (hm : (d.modules.map Prod.fst).Nodup) :
    startsWith key (ch! "image.") = true ∧ ∃ l, concatModules l = .ok a ∧ (l.map Prod.fst).Nodup ∧
      ∀ m b, (m, b) ∈ l ↔ ∃ source ks, (m, source) ∈ d.modules ∧ d.data.keysForSource source = .ok ks ∧ key ∈ ks ∧
        d.pureKey libs num ps t (m, source, key) = .ok (some (key, m, .pulse b)) := by
  unfold Det.pureAssemble at h
  split at h
  · simp at h
  · rename_i work hw
    split at h
    · simp at h
    · rename_i l hl
      have hmem := Dict.mem_of_get? hg
      obtain ⟨key', -, hj⟩ := (mapE_mem h).1 hmem
      have := joinKey_fst hj
      simp only at this
      subst this
      obtain ⟨hk, l', h1, h2, h3⟩ := joinKey_pulses hj ((work_nodup hw hm).sublist (collected_sublist hl))
      refine ⟨hk, l', h1, h2, fun m b => ?_⟩
      rw [h3, List.mem_filterMap]
      constructor
      · rintro ⟨o, ho, he⟩
        obtain rfl : o = some (key, m, ModData.pulse b) := he
        obtain ⟨w, hww, hwp⟩ := (mapE_mem hl).1 ho
        obtain ⟨e1, e2⟩ := pureKey_tag hwp
        obtain ⟨ws, hws, hww⟩ := List.mem_flatten.1 hww
        obtain ⟨y, hy, hyw⟩ := (mapE_mem hw).1 hws
        obtain ⟨ks, hks, rfl⟩ := workOf_ok hyw
        obtain ⟨k, hk', rfl⟩ := List.mem_map.1 hww
        simp only at e1 e2
        subst e1 e2
        exact ⟨y.2, ks, hy, hks, hk', hwp⟩
      · rintro ⟨source, ks, hs, hks, hk', hp⟩
        refine ⟨_, ?_, rfl⟩
        rw [mapE_mem hl]
        refine ⟨_, ?_, hp⟩
        obtain ⟨ws, hws, hww⟩ := mapE_ok_all hw hs
        obtain ⟨ks', hks', rfl⟩ := workOf_ok hww
        rw [hks] at hks'
        obtain rfl := Except.ok.inj hks'
        exact List.mem_flatten.2 ⟨_, hws, List.mem_map.2 ⟨key, hk', rfl⟩⟩

theorem frameIn_pulse_unique {num : V → Nat} {f : FileAccess V} {source key : Str} {t k p p' : Nat} {v v' : V}
    (hnd : f.trainIds.Nodup) (h : FrameIn num f source key t k p v) (h' : FrameIn num f source key t k p' v') : p = p' := by
  obtain ⟨i, fs, cs, a, c, w1, w2, w3, w4, -, ⟨ds, w5, x, w6, rfl⟩, -⟩ := h
  obtain ⟨j, fs', cs', a', c', z1, z2, z3, z4, -, ⟨ds', z5, x', z6, rfl⟩, -⟩ := h'
  have hij : i = j := by
    obtain ⟨e1, e1'⟩ := List.getElem?_eq_some_iff.1 w1
    obtain ⟨e2, e2'⟩ := List.getElem?_eq_some_iff.1 z1
    exact (List.Nodup.getElem_inj_iff hnd).1 (e1'.trans e2'.symm)
  subst hij
  rw [w2] at z2
  obtain ⟨rfl, rfl⟩ := Prod.mk.inj (Except.ok.inj z2)
  rw [w3] at z3
  obtain rfl := Option.some.inj z3
  rw [w5] at z5
  obtain rfl := Except.ok.inj z5
  rw [w6] at z6
  obtain rfl := Option.some.inj z6
  rfl

theorem checkPulses_range {libs : Libs} {start stop step : Bound} {ps : Pulses}
    (h : checkPulses libs (.by_ true (.slice start stop step)) = .ok ps) :
    ∃ a b s : Nat, ps = ⟨true, .slice a b s⟩ ∧ (a : Int) = boundValue start 0 ∧ (b : Int) = boundValue stop 2700 ∧
      (s : Int) = boundValue step 1 ∧ stop ≠ .other := by
  obtain ⟨⟨g1, g2, g3⟩, h1, h2⟩ := (pulse_slice_refused libs true start stop step).2.2.2.1 ⟨ps, h⟩
  have hstop : ¬ boundValue stop (maxPulses : Int) < 0 := by
    intro hc
    apply h2
    right
    cases stop <;> simp_all [boundValue, maxPulses]
  have h2' : ¬ boundValue start 0 < 0 := fun hc => h2 (Or.inl hc)
  simp only [checkPulses, getD_good g1, getD_good g2, getD_good g3] at h
  rw [if_neg h1, if_neg (by tauto)] at h
  obtain rfl := Except.ok.inj h
  have e : ((maxPulses : Nat) : Int) = 2700 := rfl
  rw [e] at hstop ⊢
  exact ⟨_, _, _, rfl, by omega, by omega, by omega, g2⟩

/-- What iterating takes, for the selection as given and as normalised. -/
theorem takenSet_iff {libs : Libs} {arg : PulseArg} {ps : Pulses} (hps : checkPulses libs arg = .ok ps) {num : V → Nat} {c : DC V}
    {source key : Str} {t k p : Nat} {v : V} (hfr : FrameOf num c source key t k p v) (hmax : PulsesBelowMax num c source key) :
    TakenIter num c source key t arg k p ↔ TakenSet ps (fun k p => ∃ v, FrameOf num c source key t k p v) k p := by
  obtain ⟨b1, b2⟩ := hmax t k p v hfr
  by_cases hr : ∃ start stop, IdRange arg start stop
  · obtain ⟨start, stop, step, rfl, hstep⟩ := hr
    obtain ⟨a, b, s, rfl, ha, hb, hs, hne⟩ := checkPulses_range hps
    obtain rfl : s = 1 := by omega
    unfold TakenIter TakenSet
    simp only
    constructor
    · rintro ⟨h, -⟩
      obtain ⟨⟨k', p', v', h1, h2, h3⟩, h4⟩ := h start stop ⟨step, rfl, hstep⟩
      refine ⟨⟨k', p', h1, ⟨v', h2⟩, by omega⟩, ?_⟩
      rintro k' p' h1 ⟨v', h2⟩
      cases stop with
      | none =>
        have := (hmax t k' p' v' h2).2
        simp only [boundValue] at hb
        omega
      | int i =>
        have := h4 k' p' v' i h1 h2 rfl
        simp only [boundValue] at hb
        omega
      | other => exact absurd rfl hne
    · rintro ⟨⟨k', p', h1, ⟨v', h2⟩, h3⟩, h4⟩
      refine ⟨?_, fun h => absurd ⟨step, rfl, hstep⟩ (h start stop)⟩
      rintro start' stop' ⟨step', he, -⟩
      simp only [PulseArg.by_.injEq, PulseVal.slice.injEq, true_and] at he
      obtain ⟨rfl, rfl, rfl⟩ := he
      refine ⟨⟨k', p', v', h1, h2, by omega⟩, ?_⟩
      rintro k' p' v' i h1 h2 rfl
      have := h4 k' p' h1 ⟨v', h2⟩
      simp only [boundValue] at hb
      omega
  · have hno : ∀ start stop, ¬ IdRange arg start stop := fun a b h => hr ⟨a, b, h⟩
    have e1 : TakenIter num c source key t arg k p ↔ Asked arg k p :=
      ⟨fun h => h.2 hno, fun h => ⟨fun a b hab => absurd hab (hno a b), fun _ => h⟩⟩
    have e2 : TakenSet ps (fun k p => ∃ v, FrameOf num c source key t k p v) k p ↔ AskedIter ps k p := by
      unfold TakenSet
      split
      · rename_i a b h1 h2
        exfalso
        obtain ⟨val, hval⟩ := checkPulses_byId hps
        rw [h1] at hval
        subst hval
        cases val with
        | slice start stop step =>
          obtain ⟨a', b', s, rfl, -, -, hs, -⟩ := checkPulses_range hps
          simp only [PulseSet.slice.injEq] at h2
          exact hno start stop ⟨step, rfl, by omega⟩
        | int i =>
          simp only [checkPulses] at hps
          split at hps
          · simp at hps
          · obtain rfl := Except.ok.inj hps
            simp at h2
        | list l =>
          simp only [checkPulses] at hps
          split at hps
          · simp at hps
          · obtain rfl := Except.ok.inj hps
            simp at h2
      · rfl
    rw [e1, e2, askedIter_iff b1 b2]
    exact (checkPulses_asked hps b1 b2).symm

/-- C55, C56. When iterating over the trains of a detector, module `m` has for train `t` and pulse ID `p` the entry `v`
exactly when, in the files, `v` is a frame of this source in this train, with this pulse ID, and is taken: asked for, or,
for a range of pulse IDs, between the first frames at or above its ends. Nothing is labelled with another train. The files
may have any index which lies inside the data. -/
theorem iterate_exact {kind : Option Str} {c : DC V} {name : Option Str} {modules : Option (List Nat)} {minModules : Int}
    {d : Det V} {libs : Libs} {num : V → Nat} {key : Str} {arg : PulseArg} {items : List (Nat × Dict Str (IterVal V))}
    (hd : Det.init kind c name modules minModules = .ok d) (h : d.trains libs num arg = .ok items)
    (hp : PlainSources d) (hv : ∀ x ∈ d.sourceToModno, FramesIndexed c x.1 key)
    (hmax : ∀ x ∈ d.sourceToModno, PulsesBelowMax num c x.1 key)
    {t : Nat} {x : Dict Str (IterVal V)} {a : DetArr V} (ht : (t, x) ∈ items) (hg : x.get? key = some (.pulses a))
    {source : Str} {m : Nat} (hm : (source, m) ∈ d.sourceToModno) {ks : List Str}
    (hks : d.data.keysForSource source = .ok ks) (hk : key ∈ ks) (t' p : Nat) (v : V) :
    a.cell m t' p = some v ↔ t' = t ∧ ∃ k, FrameOf num c source key t k p v ∧ TakenIter num c source key t arg k p := by
  obtain ⟨hn, hsort, -, -, hfs, -⟩ := init_data hd hp
  obtain ⟨hmods, hord⟩ := detector_modules hd
  obtain ⟨ps, hps, hsub, hass, hin⟩ := detTrains_ok hn h
  have htd : t ∈ d.data.trainIds := ((hin t).1 (List.mem_map.2 ⟨_, ht, rfl⟩)).1
  have hmn : (d.modules.map Prod.fst).Nodup := hord.imp (fun h => by omega)
  obtain ⟨hki, l, hcat, hnd, hl⟩ := pureAssemble_get (hass t x ht) hg hmn
  obtain ⟨e1, e2, -, -, -, -⟩ := concatModules_ok hcat
  have hvd := framesIndexed_data hd hp (hv _ hm)
  -- the one source with this number
  have huniq : ∀ s', (m, s') ∈ d.modules → s' = source := by
    intro s' hs'
    have := List.inj_on_of_nodup_map (init_ok hd).2.2.2.1 ((hmods s' m).1 hs') hm rfl
    exact (Prod.mk.inj this).1
  have hspec : ∀ b, (m, b) ∈ l → ∃ f ∈ d.data.files, Holds f source ∧ t ∈ f.trainIds ∧ TrainSpec num f source key ps t b := by
    intro b hb
    obtain ⟨s', ks', hs', -, -, hpk⟩ := (hl m b).1 hb
    obtain rfl := huniq s' hs'
    unfold Det.pureKey Det.pureFind at hpk
    simp only at hpk
    cases hfd : d.data.findData s' t with
    | none => simp [hfd] at hpk
    | some fp =>
      obtain ⟨f, pos⟩ := fp
      obtain ⟨f1, f2, f3, -⟩ := findData_some hfd
      simp only [hfd] at hpk
      cases hds : f.dataset (ch! "INSTRUMENT") s' key with
      | error e => simp [hds] at hpk
      | ok ds =>
        simp only [hds, hki, if_true] at hpk
        split at hpk
        · simp at hpk
        · rename_i b' hb'
          simp only [Except.ok.injEq, Option.some.injEq, Prod.mk.injEq, ModData.pulse.injEq, true_and] at hpk
          subst hpk
          refine ⟨f, f1, f2, List.mem_of_getElem? f3, iterPulseData_spec hb' f3 hds (hvd.1 f f1 f2) (hvd.2 f f1 f2)
            (checkPulses_step hps)⟩
  have hex : (∃ f ∈ d.data.files, Holds f source ∧ t ∈ f.trainIds) → ∃ b, (m, b) ∈ l := by
    rintro ⟨f, f1, f2, f3⟩
    obtain ⟨pos, hfd⟩ := findData_of_mem hn f1 f2 f3
    have hmod := (hmods source m).2 hm
    obtain ⟨o, ho⟩ : ∃ o, d.pureKey libs num ps t (m, source, key) = .ok o := by
      have hass := hass t x ht
      unfold Det.pureAssemble at hass
      split at hass
      · simp at hass
      · rename_i work hw
        split at hass
        · simp at hass
        · rename_i l' hl'
          have : (m, source, key) ∈ work.flatten := by
            obtain ⟨ws, hws, hww⟩ := mapE_ok_all hw hmod
            obtain ⟨ks', hks', rfl⟩ := workOf_ok hww
            simp only at hks'
            rw [hks] at hks'
            obtain rfl := Except.ok.inj hks'
            exact List.mem_flatten.2 ⟨_, hws, List.mem_map.2 ⟨key, hk, rfl⟩⟩
          obtain ⟨o, -, ho⟩ := mapE_ok_all hl' this
          exact ⟨o, ho⟩
    have ho' := ho
    unfold Det.pureKey Det.pureFind at ho'
    simp only [hfd] at ho'
    cases hds : f.dataset (ch! "INSTRUMENT") source key with
    | error e => simp [hds] at ho'
    | ok ds =>
      simp only [hds, hki, if_true] at ho'
      split at ho'
      · simp at ho'
      · rename_i b hb
        obtain rfl := Except.ok.inj ho'
        exact ⟨b, (hl m b).2 ⟨source, ks, hmod, hks, hk, ho⟩⟩
  have hframe : ∀ f ∈ d.data.files, Holds f source → t ∈ f.trainIds → ∀ k p v,
      FrameIn num f source key t k p v ↔ FrameOf num c source key t k p v := by
    intro f f1 f2 f3 k p v
    constructor
    · exact fun hfr => ⟨f, hfs f f1, f2, hfr⟩
    · intro hfr
      obtain ⟨g, g1, g2, hfr'⟩ := (frameOf_data hd hp hm htd).2 hfr
      obtain rfl := same_file hn f1 g1 f2 g2 f3 (frameIn_mem hfr')
      exact hfr'
  have hasked : ∀ f ∈ d.data.files, Holds f source → t ∈ f.trainIds → ∀ k p v, FrameOf num c source key t k p v →
      (TakenSet ps (fun k p => ∃ v, FrameIn num f source key t k p v) k p ↔ TakenIter num c source key t arg k p) := by
    intro f f1 f2 f3 k p v hfr
    rw [takenSet_iff hps hfr (hmax _ hm)]
    exact TakenSet_congr (fun k p => exists_congr (fun v => hframe f f1 f2 f3 k p v)) k p
  unfold DetArr.cell
  rw [e2]
  constructor
  · intro hc
    split at hc
    · simp at hc
    · rename_i dd hdd
      have hdm := Dict.mem_of_get? hdd
      obtain ⟨⟨m', b⟩, hb, heq⟩ := List.mem_map.1 hdm
      obtain ⟨rfl, rfl⟩ := Prod.mk.inj heq
      obtain ⟨f, f1, f2, f3, spec⟩ := hspec b hb
      obtain ⟨rfl, k, hfr, hak⟩ := (spec.cells t' p v).1 (Dict.mem_of_get? hc)
      have hfo : FrameOf num c source key t' k p v := ⟨f, hfs f f1, f2, hfr⟩
      exact ⟨rfl, k, hfo, (hasked f f1 f2 f3 k p v hfo).1 hak⟩
  · rintro ⟨rfl, k, hfr, hak⟩
    obtain ⟨g, g1, g2, hfr'⟩ := (frameOf_data hd hp hm htd).2 hfr
    obtain ⟨b, hb⟩ := hex ⟨g, g1, g2, frameIn_mem hfr'⟩
    obtain ⟨f, f1, f2, f3, spec⟩ := hspec b hb
    rw [cells_get hnd hb]
    simp only
    obtain rfl := same_file hn f1 g1 f2 g2 f3 (frameIn_mem hfr')
    exact (Dict.get?_eq_some_iff spec.nodup).2 ((spec.cells t' p v).2 ⟨rfl, k, hfr', (hasked _ f1 f2 f3 k p v hfr).2 hak⟩)

/-- C55, C56. When iterating over the trains of a detector, module `m` has for train `t` and pulse ID `p` the entry `v`
exactly when, in the files, `v` is a frame of this source in this train, with this pulse ID, and asked for; nothing is
labelled with another train. The files may have any index which lies
inside the data; for a range of pulse IDs, the pulse IDs must increase within the train. Missing: for other pulse IDs see `iterate_exact` and `iterate_unsorted_wrong`. -/
theorem iterate_exact_partial {kind : Option Str} {c : DC V} {name : Option Str} {modules : Option (List Nat)} {minModules : Int}
    {d : Det V} {libs : Libs} {num : V → Nat} {key : Str} {arg : PulseArg} {items : List (Nat × Dict Str (IterVal V))}
    (hd : Det.init kind c name modules minModules = .ok d) (h : d.trains libs num arg = .ok items)
    (hp : PlainSources d) (hv : ∀ x ∈ d.sourceToModno, FramesIndexed c x.1 key)
    (hmax : ∀ x ∈ d.sourceToModno, PulsesBelowMax num c x.1 key)
    (hinc : ∀ start stop, IdRange arg start stop → ∀ x ∈ d.sourceToModno, PulsesIncrease num c x.1 key)
    {t : Nat} {x : Dict Str (IterVal V)} {a : DetArr V} (ht : (t, x) ∈ items) (hg : x.get? key = some (.pulses a))
    {source : Str} {m : Nat} (hm : (source, m) ∈ d.sourceToModno) {ks : List Str}
    (hks : d.data.keysForSource source = .ok ks) (hk : key ∈ ks) (t' p : Nat) (v : V) :
    a.cell m t' p = some v ↔ t' = t ∧ ∃ k, FrameOf num c source key t k p v ∧ Asked arg k p := by
  rw [iterate_exact hd h hp hv hmax ht hg hm hks hk]
  refine and_congr_right (fun _ => exists_congr (fun k => and_congr_right (fun hfr => ?_)))
  by_cases hr : ∃ start stop, IdRange arg start stop
  · obtain ⟨start, stop, hr⟩ := hr
    have hinc := hinc start stop hr _ hm t
    have hle : ∀ k' p' v', k' ≤ k → FrameOf num c source key t k' p' v' → k' < k ∧ p' < p ∨ k' = k := by
      intro k' p' v' hk' hfr'
      rcases Nat.lt_or_eq_of_le hk' with hlt | he
      · exact Or.inl ⟨hlt, hinc k' k p' p v' v hfr' hfr hlt⟩
      · exact Or.inr he
    have hsame : ∀ p' v', FrameOf num c source key t k p' v' → p' = p := by
      rintro p' v' ⟨f', g1, g2, g3⟩
      obtain ⟨hn, hsort, -, -, hfs, -⟩ := init_data hd hp
      obtain ⟨ps, hps, hsub, hass, hin⟩ := detTrains_ok hn h
      have htd : t ∈ d.data.trainIds := ((hin t).1 (List.mem_map.2 ⟨_, ht, rfl⟩)).1
      obtain ⟨f, f1, f2, f3⟩ := (frameOf_data hd hp hm htd).2 hfr
      obtain ⟨f', g1, g2, g3⟩ := (frameOf_data hd hp hm htd).2 ⟨f', g1, g2, g3⟩
      obtain rfl := same_file hn f1 g1 f2 g2 (frameIn_mem f3) (frameIn_mem g3)
      exact frameIn_pulse_unique ((framesIndexed_data hd hp (hv _ hm)).1 f f1 f2).trains g3 f3
    have hval : ∀ k' p' v', k' ≤ k → FrameOf num c source key t k' p' v' → p' ≤ p := by
      intro k' p' v' hk' hfr'
      rcases hle k' p' v' hk' hfr' with h | rfl
      · omega
      · exact Nat.le_of_eq (hsame p' v' hfr')
    have hr0 := hr
    obtain ⟨step, rfl, hstep⟩ := hr
    simp only [Asked, InSlice, if_true, hstep, Int.emod_one, and_true]
    constructor
    · rintro ⟨h1, -⟩
      obtain ⟨⟨k', p', v', e1, e2, e3⟩, h2⟩ := h1 start stop hr0
      have := hval k' p' v' e1 e2
      exact ⟨by omega, fun b hb => h2 k p v b (Nat.le_refl _) hfr hb⟩
    · rintro ⟨h1, h2⟩
      refine ⟨?_, fun hno => absurd hr0 (hno start stop)⟩
      rintro start' stop' ⟨step', he, -⟩
      simp only [PulseArg.by_.injEq, PulseVal.slice.injEq, true_and] at he
      obtain ⟨rfl, rfl, rfl⟩ := he
      refine ⟨⟨k, p, v, Nat.le_refl _, hfr, h1⟩, fun k' p' v' b e1 e2 e3 => ?_⟩
      have := hval k' p' v' e1 e2
      have := h2 b e3
      omega
  · have hno : ∀ start stop, ¬ IdRange arg start stop := fun a b h => hr ⟨a, b, h⟩
    exact ⟨fun h => h.2 hno, fun h => ⟨fun a b hab => absurd hab (hno a b), fun _ => h⟩⟩

/-- C57. For each train given when iterating, and each module having the key, the array of `get_array` has exactly the
entries which iterating gives, with the same train and pulse labels. -/
theorem iterate_agrees_partial {kind : Option Str} {c : DC V} {name : Option Str} {modules : Option (List Nat)} {minModules : Int}
    {d : Det V} {libs libs' : Libs} {num : V → Nat} {key : Str} {arg : PulseArg} {items : List (Nat × Dict Str (IterVal V))}
    {whole : DetArr V}
    (hd : Det.init kind c name modules minModules = .ok d) (h : d.trains libs num arg = .ok items)
    (hw : d.getArray libs' num key arg = .ok (.pulses whole))
    (hp : PlainSources d) (hv : ∀ x ∈ d.sourceToModno, FramesValid c x.1 key)
    (hmax : ∀ x ∈ d.sourceToModno, PulsesBelowMax num c x.1 key)
    (hinc : ∀ start stop, IdRange arg start stop → ∀ x ∈ d.sourceToModno, PulsesIncrease num c x.1 key)
    {t : Nat} {x : Dict Str (IterVal V)} {a : DetArr V} (ht : (t, x) ∈ items) (hg : x.get? key = some (.pulses a))
    {source : Str} {m : Nat} (hm : (source, m) ∈ d.sourceToModno) {ks : List Str}
    (hks : d.data.keysForSource source = .ok ks) (hk : key ∈ ks) (p : Nat) :
    a.cell m t p = whole.cell m t p := by
  obtain ⟨hn, -, -, -, -, -⟩ := init_data hd hp
  obtain ⟨ps, hps, hsub, hass, hin⟩ := detTrains_ok hn h
  have htd : t ∈ d.data.trainIds := ((hin t).1 (List.mem_map.2 ⟨_, ht, rfl⟩)).1
  apply Option.ext
  intro v
  rw [iterate_exact_partial hd h hp (fun x hx => framesIndexed_of_valid (hv x hx)) hmax hinc ht hg hm hks hk, get_array_exact_partial hd hw hp hv hmax hm]
  simp [htd]

/-- C57. Iterating gives, in increasing order, those trains of the detector which have all data. -/
theorem iterate_trains {kind : Option Str} {c : DC V} {name : Option Str} {modules : Option (List Nat)} {minModules : Int}
    {d : Det V} {libs : Libs} {num : V → Nat} {arg : PulseArg} {items : List (Nat × Dict Str (IterVal V))}
    (hd : Det.init kind c name modules minModules = .ok d) (h : d.trains libs num arg = .ok items) (hp : PlainSources d)
    (hgood : GoodData d.data) :
    (items.map Prod.fst).Pairwise (· < ·) ∧ ∀ t, t ∈ items.map Prod.fst ↔ t ∈ d.data.trainIds ∧ Complete d.data t := by
  obtain ⟨hn, hsort, -, -, -, -⟩ := init_data hd hp
  obtain ⟨ps, hps, hsub, hass, hin⟩ := detTrains_ok hn h
  refine ⟨hsort.sublist hsub, fun t => ?_⟩
  rw [hin, checkDataMissing_good hn hgood]
  simp

end KD

namespace KD
open Spec

/-- The data of train 10 in the example. -/
def exIterData : DetArr Nat :=
  ⟨[0, 3], [10], [5, 7], [2, 2], [(0, [((10, 5), 200), ((10, 7), 201)]), (3, [((10, 5), 100), ((10, 7), 101)])]⟩

set_option maxRecDepth 20000 in
/-- Iterating over the example: train 12 is left out, as module 3 has no data. -/
theorem exDet_iterate :
    (exDet.trains ⟨true, true⟩ id (.by_ true (.slice (.int 5) .none .none))).map (List.map Prod.fst) = .ok [10, 11] ∧
    (exDet.trains ⟨true, true⟩ id (.by_ true (.slice (.int 5) .none .none))).map
      (fun l => l.head?.bind (fun x => x.2.get? (ch! "image.data"))) = .ok (some (.pulses exIterData)) := by decide

/-- The pulse IDs of the example increase, as `iterate_exact_partial` needs for `by_id`. -/
theorem exDet_increase : ∀ x ∈ exDet.sourceToModno, PulsesIncrease id exDetData x.1 (ch! "image.data") := by
  have hp : pulseIdKey (ch! "image.data") = ch! "image.pulseId" := by decide
  have hg : (partition '.' (ch! "image.data")).1 = ch! "image" := by decide
  have hno : ¬ Holds (exModule '0' [10, 11, 12] [0, 2, 4] [2, 2, 2] [5, 7, 5, 7, 5, 7] [200, 201, 210, 211, 220, 221]) (exSource '3') ∧
      ¬ Holds (exModule '3' [10, 11, 12] [0, 2, 4] [2, 2, 0] [5, 7, 5, 7] [100, 101, 110, 111]) (exSource '0') := by
    constructor <;> (rintro (h | h) <;> revert h <;> decide)
  have one : ∀ (n : Char) (tids firsts counts ids rows : List Nat) (t k p v : Nat), (n = '0' ∨ n = '3') → firsts.length = tids.length →
      counts.length = tids.length → (∀ n ∈ firsts, n < 2 ^ 64) → (∀ n ∈ counts, n < 2 ^ 64) →
      FrameIn id (exModule n tids firsts counts ids rows) (exSource n) (ch! "image.data") t k p v →
      ∃ (i : Nat) (a c : Nat), tids[i]? = some t ∧ firsts[i]? = some a ∧ counts[i]? = some c ∧ k < c ∧ ids[a + k]? = some p := by
    rintro n tids firsts counts ids rows t k p v hn h1 h2 h3 h4 ⟨i, fs, cs, a, c, w1, w2, w3, w4, w5, ⟨pds, w6, z, w7, rfl⟩, _⟩
    rw [hg, exModule_index hn h1 h2 h3 h4] at w2
    rw [hp, (exModule_data hn).2.1] at w6
    obtain ⟨rfl, rfl⟩ := Prod.mk.inj (Except.ok.inj w2)
    obtain rfl := Except.ok.inj w6
    exact ⟨i, a, c, w1, w3, w4, w5, w7⟩
  have small : ∀ (ids firsts counts tids : List Nat) (t k k' p p' : Nat), tids.Nodup → counts.all (fun c => c ≤ 2) = true →
      (firsts.all (fun a => ids[a]? = some 5 && ids[a + 1]? = some 7 || ids[a]? = none)) = true →
      (∃ (i : Nat) (a c : Nat), tids[i]? = some t ∧ firsts[i]? = some a ∧ counts[i]? = some c ∧ k < c ∧ ids[a + k]? = some p) →
      (∃ (i : Nat) (a c : Nat), tids[i]? = some t ∧ firsts[i]? = some a ∧ counts[i]? = some c ∧ k' < c ∧ ids[a + k']? = some p') →
      k < k' → p < p' := by
    rintro ids firsts counts tids t k k' p p' hn hc hf ⟨i, a, c, h1, h2, h3, h4, h5⟩ ⟨i', a', c', h1', h2', h3', h4', h5'⟩ hlt
    have hii : i = i' := by
      obtain ⟨e1, e1'⟩ := List.getElem?_eq_some_iff.1 h1
      obtain ⟨e2, e2'⟩ := List.getElem?_eq_some_iff.1 h1'
      exact hn.getElem_inj_iff.1 (e1'.trans e2'.symm)
    subst hii
    rw [h2] at h2'; rw [h3] at h3'
    obtain rfl := Option.some.inj h2'
    obtain rfl := Option.some.inj h3'
    have hc' := List.all_eq_true.1 hc c (List.mem_of_getElem? h3)
    simp only [decide_eq_true_eq] at hc'
    obtain ⟨rfl, rfl⟩ : k = 0 ∧ k' = 1 := by omega
    have hf' := List.all_eq_true.1 hf a (List.mem_of_getElem? h2)
    simp only [Bool.or_eq_true, Bool.and_eq_true, decide_eq_true_eq] at hf'
    rw [Nat.add_zero] at h5
    rcases hf' with ⟨f1, f2⟩ | f1
    · rw [h5] at f1; rw [h5'] at f2
      have := Option.some.inj f1; have := Option.some.inj f2
      omega
    · rw [h5] at f1
      simp at f1
  intro x hx t k k' p p' v v' hfr hfr' hlt
  obtain ⟨f, hf, hh, hfr⟩ := hfr
  obtain ⟨f', hf', hh', hfr'⟩ := hfr'
  simp only [exDetData, List.mem_cons, List.not_mem_nil, or_false] at hf hf'
  simp only [exDet, List.mem_cons, List.not_mem_nil, or_false] at hx
  rcases hx with rfl | rfl
  · rcases hf with rfl | rfl
    · rcases hf' with rfl | rfl
      · exact small [5, 7, 5, 7] [0, 2, 4] [2, 2, 0] [10, 11, 12] t k k' p p' (by decide) (by decide) (by decide)
          (one '3' [10, 11, 12] [0, 2, 4] [2, 2, 0] [5, 7, 5, 7] _ t k p v (Or.inr rfl) rfl rfl (by decide) (by decide) hfr)
          (one '3' [10, 11, 12] [0, 2, 4] [2, 2, 0] [5, 7, 5, 7] _ t k' p' v' (Or.inr rfl) rfl rfl (by decide) (by decide) hfr') hlt
      · exact absurd hh' hno.1
    · exact absurd hh hno.1
  · rcases hf with rfl | rfl
    · exact absurd hh hno.2
    · rcases hf' with rfl | rfl
      · exact absurd hh' hno.2
      · exact small [5, 7, 5, 7, 5, 7] [0, 2, 4] [2, 2, 2] [10, 11, 12] t k k' p p' (by decide) (by decide) (by decide)
          (one '0' [10, 11, 12] [0, 2, 4] [2, 2, 2] [5, 7, 5, 7, 5, 7] _ t k p v (Or.inl rfl) rfl rfl (by decide) (by decide) hfr)
          (one '0' [10, 11, 12] [0, 2, 4] [2, 2, 2] [5, 7, 5, 7, 5, 7] _ t k' p' v' (Or.inl rfl) rfl rfl (by decide) (by decide) hfr') hlt

/-- The selection of the example is a range of pulse IDs; a list of them is none. -/
example : IdRange (.by_ true (.slice (.int 5) .none .none)) (.int 5) .none ∧
    ∀ start stop, ¬ IdRange (.by_ true (.list [7, 5])) start stop :=
  ⟨⟨.none, rfl, rfl⟩, by rintro a b ⟨s, h, -⟩; cases h⟩

/-- A module whose pulse IDs do not increase in train 10. -/
def exUnsorted : DC Nat where
  files := [exModule '0' [10, 11] [0, 2] [2, 2] [7, 5, 5, 7] [200, 201, 210, 211]]
  selection := [(exSource '0', none)]
  trainIds := [10, 11]
  ctxCloses := true

set_option maxRecDepth 20000 in
/-- C56, C57 are wrong for pulse IDs which do not increase: `by_id[6:]` gives pulse 5 too when iterating, and `get_array`
does not. -/
theorem iterate_unsorted_wrong :
    ∃ d whole a, Det.init none exUnsorted none none 1 = .ok d ∧
      d.getArray ⟨true, true⟩ id (ch! "image.data") (.by_ true (.slice (.int 6) .none .none)) = .ok (.pulses whole) ∧
      (d.trains ⟨true, true⟩ id (.by_ true (.slice (.int 6) .none .none))).map
        (fun l => l.head?.bind (fun x => x.2.get? (ch! "image.data"))) = .ok (some (.pulses a)) ∧
      a.cell 0 10 5 = some 201 ∧ whole.cell 0 10 5 = none ∧ a.cell 0 10 7 = some 200 ∧ whole.cell 0 10 7 = some 200 :=
  ⟨⟨ch! "X_AGIPD1M-1", [(exSource '0', 0)], 2, { exUnsorted with ctxCloses := false }⟩,
    ⟨[0], [10, 11], [7], [2, 2], [(0, [((10, 7), 200), ((11, 7), 211)])]⟩,
    ⟨[0], [10], [5, 7], [2, 2], [(0, [((10, 7), 200), ((10, 5), 201)])]⟩, by decide, by decide, by decide, by decide, by decide,
    by decide, by decide⟩

set_option maxRecDepth 20000 in
/-- C57 is wrong when no pulse of a train is asked for: with h5py versions which refuse an empty list, iterating raises
TypeError and `get_array` gives an array without entries. -/
theorem iterate_empty_wrong :
    exDet.trains ⟨true, false⟩ id (.by_ true (.int 6)) = .error .type ∧
    (exDet.getArray ⟨true, false⟩ id (ch! "image.data") (.by_ true (.int 6))) = .ok (.pulses ⟨[0, 3], [], [], [2, 2], [(0, []), (3, [])]⟩) := by
  decide

end KD
