/- Property C146: a loop over trains, as far as it gets. -/
import Verif.Model.Yields
import Verif.Props.DetIterKeys

set_option linter.unusedSimpArgs false

namespace KD
open Spec

variable {V A : Type}

/-- The items before the first exception, and this exception. -/
def untilError (f : Nat → R (Option A)) : List Nat → List A × Option PyErr
  | [] => ([], none)
  | t :: ts =>
    match f t with
    | .error e => ([], some e)
    | .ok none => untilError f ts
    | .ok (some x) => (x :: (untilError f ts).1, (untilError f ts).2)

theorem untilError_spec (f : Nat → R (Option A)) (ts : List Nat) :
    ∃ pre post, ts = pre ++ post ∧ (mapE f pre).map (List.filterMap id) = .ok (untilError f ts).1 ∧
      ((untilError f ts).2 = none → post = []) ∧
      ∀ e, (untilError f ts).2 = some e → ∃ t rest, post = t :: rest ∧ f t = .error e := by
  induction ts with
  | nil => exact ⟨[], [], rfl, rfl, fun _ => rfl, fun e h => by simp [untilError] at h⟩
  | cons t ts ih =>
    obtain ⟨pre, post, h1, h2, h3, h4⟩ := ih
    have hpre : ∀ o, f t = .ok o → (mapE f (t :: pre)).map (List.filterMap id) = .ok (o.toList ++ (untilError f ts).1) := by
      intro o ho
      cases hm : mapE f pre with
      | error e => rw [hm] at h2; simp [Except.map] at h2
      | ok l =>
        rw [hm] at h2
        have h2 : l.filterMap id = (untilError f ts).1 := Except.ok.inj h2
        unfold mapE
        rw [ho, hm]
        cases o <;> simp [Except.map] <;> exact h2
    cases hf : f t with
    | error e =>
      refine ⟨[], t :: ts, rfl, ?_, ?_, ?_⟩
      · simp [untilError, hf, mapE, Except.map]
      · simp [untilError, hf]
      · intro e' he
        simp [untilError, hf] at he
        exact ⟨t, ts, rfl, by rw [hf, he]⟩
    | ok o =>
      refine ⟨t :: pre, post, by rw [h1]; rfl, ?_, ?_, ?_⟩
      · rw [hpre o hf]
        cases o <;> simp [untilError, hf]
      · cases o <;> simpa [untilError, hf] using h3
      · cases o <;> simpa [untilError, hf] using h4

theorem yields_pure {c : DC V} (hc : NoConflict c.files) (req : Bool) (ts : List Nat) : ∀ cache, CacheOk c cache →
    c.yields req cache ts = untilError (pureStep c req) ts := by
  induction ts with
  | nil => intro cache _; rfl
  | cons t ts ih =>
    intro cache hok
    unfold DC.yields untilError
    rw [pureStep.eq_1 c req t]
    cases hmiss : (if req then c.checkDataMissing t else (.ok false : R Bool)) with
    | error e => rfl
    | ok b =>
      cases b with
      | true => simp only; exact ih cache hok
      | false =>
        simp only
        obtain ⟨h1, h2⟩ := assemble_pure hc hok t
        generalize hr : c.assemble cache t = r at h1 h2
        obtain ⟨r1, cache'⟩ := r
        simp only at h1 h2 ⊢
        subst h1
        cases pureAssemble c t with
        | error e => rfl
        | ok d => simp only; rw [ih cache' h2]

theorem detYields_pure {d : Det V} (hc : NoConflict d.data.files) (libs : Libs) (num : V → Nat) (pulses : Pulses) (ts : List Nat) :
    ∀ cache, DetCacheOk d cache → d.yields libs num pulses cache ts = untilError (d.pureStep libs num pulses) ts := by
  induction ts with
  | nil => intro cache _; rfl
  | cons t ts ih =>
    intro cache hok
    unfold Det.yields untilError
    rw [Det.pureStep.eq_1 d libs num pulses t]
    cases hmiss : d.data.checkDataMissing t with
    | error e => rfl
    | ok b =>
      cases b with
      | true => simp only; exact ih cache hok
      | false =>
        simp only
        obtain ⟨h1, h2⟩ := detAssemble_pure hc libs num pulses t hok
        generalize hr : d.assemble libs num pulses t cache = r at h1 h2
        obtain ⟨r1, cache'⟩ := r
        simp only at h1 h2 ⊢
        subst h1
        cases d.pureAssemble libs num pulses t with
        | error e => rfl
        | ok d => simp only; rw [ih cache' h2]

/-- The step does not depend on which trains are to be read. -/
theorem pureStep_trains (c : DC V) (req : Bool) (ts : List Nat) : pureStep { c with trainIds := ts } req = pureStep c req := by
  rfl

theorem detPureStep_trains (d : Det V) (libs : Libs) (num : V → Nat) (ps : Pulses) (ts : List Nat) :
    Det.pureStep { d with data := { d.data with trainIds := ts } } libs num ps = d.pureStep libs num ps := by
  rfl

theorem mapE_step {f : Nat → R (Option A)} {ts : List Nat} {l : List A} (h : (mapE f ts).map (List.filterMap id) = .ok l) {x : A}
    (hx : x ∈ l) : ∃ t ∈ ts, f t = .ok (some x) := by
  cases hm : mapE f ts with
  | error e => rw [hm] at h; simp [Except.map] at h
  | ok r =>
    rw [hm] at h
    have h : r.filterMap id = l := Except.ok.inj h
    rw [← h, List.mem_filterMap] at hx
    obtain ⟨o, ho, he⟩ := hx
    obtain rfl : o = some x := he
    exact (mapE_mem hm).1 ho

theorem pureStep_fst {c : DC V} {req : Bool} {t : Nat} {x : Nat × Dict Str (SourceData V)} (h : pureStep c req t = .ok (some x)) :
    x.1 = t := by
  unfold pureStep at h
  split at h
  · simp at h
  · simp at h
  · split at h
    · simp at h
    · obtain rfl := Option.some.inj (Except.ok.inj h)
      rfl

theorem detPureStep_fst {d : Det V} {libs : Libs} {num : V → Nat} {ps : Pulses} {t : Nat} {x : Nat × Dict Str (IterVal V)}
    (h : d.pureStep libs num ps t = .ok (some x)) : x.1 = t := by
  unfold Det.pureStep at h
  split at h
  · simp at h
  · simp at h
  · split at h
    · simp at h
    · obtain rfl := Option.some.inj (Except.ok.inj h)
      rfl

/-- C146. A loop over `trains()` gets the items of some first trains of the collection, exactly those which iterating over these trains
alone gives. If it ends without exception, these are all the trains. If it ends with an exception, then the train after them is the one
which cannot be read, and iterating over this train alone raises the same exception. -/
theorem loop_prefix {c : DC V} (hc : NoConflict c.files) {req : Bool} {l : List (Nat × Dict Str (SourceData V))} {err : Option PyErr}
    (h : c.trainsLoop none none req = (l, err)) :
    ∃ pre post, c.trainIds = pre ++ post ∧ DC.trains { c with trainIds := pre } none none req = .ok l ∧ (err = none → post = []) ∧
      ∀ e, err = some e → ∃ t rest, post = t :: rest ∧ DC.trains { c with trainIds := [t] } none none req = .error e := by
  unfold DC.trainsLoop at h
  simp only at h
  rw [yields_pure hc req _ _ (fun s k f ds h => by simp at h)] at h
  obtain ⟨pre, post, h1, h2, h3, h4⟩ := untilError_spec (pureStep c req) c.trainIds
  rw [h] at h2 h3 h4
  refine ⟨pre, post, h1, ?_, h3, fun e he => ?_⟩
  · rw [trains_pure (c := { c with trainIds := pre }) hc, pureStep_trains]
    exact h2
  · obtain ⟨t, rest, h5, h6⟩ := h4 e he
    refine ⟨t, rest, h5, ?_⟩
    rw [trains_pure (c := { c with trainIds := [t] }) hc, pureStep_trains]
    simp [mapE, h6, Except.map]

/-- C146. Each item which a loop over `trains()` gets is what iterating over this train alone gives: what was read before does not
matter. It is about a train of the collection, and shows what `train_from_id` gives for it (apart from empty arrays, as in C29). -/
theorem loop_items {c : DC V} (hc : NoConflict c.files) {req : Bool} {l : List (Nat × Dict Str (SourceData V))} {err : Option PyErr}
    (h : c.trainsLoop none none req = (l, err)) {t : Nat} {x : Dict Str (SourceData V)} (hx : (t, x) ∈ l) :
    t ∈ c.trainIds ∧ DC.trains { c with trainIds := [t] } none none req = .ok [(t, x)] ∧
    ((∀ s ∈ c.instrumentSources, s ∉ c.controlSources) →
      ∃ x', c.trainFromId t = .ok (t, x') ∧ x.keys = x'.keys ∧
        ∀ s sd, x.get? s = some sd → ∃ sd', x'.get? s = some sd' ∧ sd.mdSource = sd'.mdSource ∧ sd.mdTid = sd'.mdTid ∧
          SameExceptEmpty sd.data sd'.data) := by
  unfold DC.trainsLoop at h
  simp only at h
  rw [yields_pure hc req _ _ (fun s k f ds h => by simp at h)] at h
  obtain ⟨pre, post, h1, h2, -⟩ := untilError_spec (pureStep c req) c.trainIds
  rw [h] at h2
  obtain ⟨t', ht', hst⟩ := mapE_step h2 hx
  obtain rfl : t = t' := pureStep_fst hst
  have htc : t ∈ c.trainIds := by rw [h1]; exact List.mem_append_left _ ht'
  refine ⟨htc, ?_, fun hcat => ?_⟩
  · rw [trains_pure (c := { c with trainIds := [t] }) hc, pureStep_trains]
    simp [mapE, hst, Except.map]
  · unfold pureStep at hst
    split at hst
    · simp at hst
    · simp at hst
    · split at hst
      · simp at hst
      · next d0 hd =>
        simp at hst
        obtain rfl := hst
        exact pureAssemble_agrees hcat htc hd

theorem yields_iff (c : DC V) (req : Bool) : ∀ (ts : List Nat) (cache : DsCache V),
    (∀ l, c.iterTrains req cache ts = .ok l ↔ c.yields req cache ts = (l, none)) ∧
    ∀ e, c.iterTrains req cache ts = .error e ↔ (c.yields req cache ts).2 = some e := by
  intro ts
  induction ts with
  | nil => intro cache; simp [DC.iterTrains, DC.yields]
  | cons t ts ih =>
    intro cache
    unfold DC.iterTrains DC.yields
    cases hmiss : (if req then c.checkDataMissing t else (.ok false : R Bool)) with
    | error e => simp
    | ok b =>
      cases b with
      | true => simp only; exact ih cache
      | false =>
        simp only
        generalize c.assemble cache t = r
        obtain ⟨r1, cache'⟩ := r
        cases r1 with
        | error e => simp
        | ok d =>
          simp only
          obtain ⟨i1, i2⟩ := ih cache'
          cases hr : c.iterTrains req cache' ts with
          | error e =>
            have := (i2 e).1 hr
            simp [this]
          | ok l =>
            have := (i1 l).1 hr
            simp [this]

/-- C146. A loop ends without exception exactly when `list(trains())` gives a list, with the same items, and otherwise with the exception
of the latter. -/
theorem loop_complete (c : DC V) (devices : Option SelArg) (tr : Option TrainRange) (req : Bool) :
    (∀ l, c.trains devices tr req = .ok l ↔ c.trainsLoop devices tr req = (l, none)) ∧
    ∀ e, c.trains devices tr req = .error e ↔ (c.trainsLoop devices tr req).2 = some e := by
  have key : ∀ c1 : DC V, (∀ l, c1.trains none tr req = .ok l ↔ c1.trainsLoop none tr req = (l, none)) ∧
      ∀ e, c1.trains none tr req = .error e ↔ (c1.trainsLoop none tr req).2 = some e := by
    intro c1
    unfold DC.trains DC.trainsLoop
    cases tr with
    | none => exact yields_iff c1 req c1.trainIds []
    | some tr =>
      simp only
      cases c1.selectTrains tr with
      | error e => simp
      | ok c2 => exact yields_iff c2 req c2.trainIds []
  cases devices with
  | none => exact key c
  | some sel =>
    cases hs : c.select sel with
    | error e => simp [DC.trains, DC.trainsLoop, hs]
    | ok c1 =>
      have h1 : c.trains (some sel) tr req = c1.trains none tr req := by simp [DC.trains, hs]
      have h2 : c.trainsLoop (some sel) tr req = c1.trainsLoop none tr req := by simp [DC.trainsLoop, hs]
      rw [h1, h2]
      exact key c1

/-- C146. A loop with selected sources or trains is a loop over the selection; if selecting fails, there are no items. -/
theorem loop_selection (c : DC V) (tr : Option TrainRange) (req : Bool) :
    (∀ sel c', c.select sel = .ok c' → c.trainsLoop (some sel) tr req = c'.trainsLoop none tr req) ∧
    (∀ r c', c.selectTrains r = .ok c' → c.trainsLoop none (some r) req = c'.trainsLoop none none req) ∧
    (∀ sel e, c.select sel = .error e → c.trainsLoop (some sel) tr req = ([], some e)) ∧
    ∀ r e, c.selectTrains r = .error e → c.trainsLoop none (some r) req = ([], some e) := by
  refine ⟨?_, ?_, ?_, ?_⟩
  · intro sel c' h; simp [DC.trainsLoop, h]
  · intro sel c' h; simp [DC.trainsLoop, h]
  · intro sel c' h; simp [DC.trainsLoop, h]
  · intro sel c' h; simp [DC.trainsLoop, h]

/-! ### Detectors -/

/-- C146. The same for a loop over the trains of a detector. -/
theorem det_loop_prefix {d : Det V} (hc : NoConflict d.data.files) {libs : Libs} {num : V → Nat} {arg : PulseArg}
    {l : List (Nat × Dict Str (IterVal V))} {err : Option PyErr} (h : d.trainsLoop libs num arg = (l, err))
    (harg : ∃ ps, checkPulses libs arg = .ok ps) :
    ∃ pre post, d.data.trainIds = pre ++ post ∧
      Det.trains { d with data := { d.data with trainIds := pre } } libs num arg = .ok l ∧ (err = none → post = []) ∧
      ∀ e, err = some e → ∃ t rest, post = t :: rest ∧
        Det.trains { d with data := { d.data with trainIds := [t] } } libs num arg = .error e := by
  obtain ⟨ps, hps⟩ := harg
  unfold Det.trainsLoop at h
  rw [hps] at h
  simp only at h
  rw [detYields_pure hc libs num ps _ _ (fun s k f ds h => by simp at h)] at h
  obtain ⟨pre, post, h1, h2, h3, h4⟩ := untilError_spec (d.pureStep libs num ps) d.data.trainIds
  rw [h] at h2 h3 h4
  have htr : ∀ ts, Det.trains { d with data := { d.data with trainIds := ts } } libs num arg =
      (mapE (d.pureStep libs num ps) ts).map (List.filterMap id) := by
    intro ts
    unfold Det.trains
    rw [hps]
    simp only
    rw [detIterate_pure (d := { d with data := { d.data with trainIds := ts } }) hc libs num ps _ _ (fun s k f ds h => by simp at h),
      detPureStep_trains]
  refine ⟨pre, post, h1, ?_, h3, fun e he => ?_⟩
  · rw [htr]; exact h2
  · obtain ⟨t, rest, h5, h6⟩ := h4 e he
    refine ⟨t, rest, h5, ?_⟩
    rw [htr]
    simp [mapE, h6, Except.map]

/-- C146. Each item of a loop over the trains of a detector is what iterating over this train alone gives. -/
theorem det_loop_items {d : Det V} (hc : NoConflict d.data.files) {libs : Libs} {num : V → Nat} {arg : PulseArg}
    {l : List (Nat × Dict Str (IterVal V))} {err : Option PyErr} (h : d.trainsLoop libs num arg = (l, err))
    {t : Nat} {x : Dict Str (IterVal V)} (hx : (t, x) ∈ l) :
    t ∈ d.data.trainIds ∧ Det.trains { d with data := { d.data with trainIds := [t] } } libs num arg = .ok [(t, x)] := by
  unfold Det.trainsLoop at h
  split at h
  · obtain ⟨rfl, -⟩ := Prod.mk.inj h
    simp at hx
  · rename_i ps hps
    rw [detYields_pure hc libs num ps _ _ (fun s k f ds h => by simp at h)] at h
    obtain ⟨pre, post, h1, h2, -⟩ := untilError_spec (d.pureStep libs num ps) d.data.trainIds
    rw [h] at h2
    obtain ⟨t', ht', hst⟩ := mapE_step h2 hx
    obtain rfl : t = t' := detPureStep_fst hst
    refine ⟨by rw [h1]; exact List.mem_append_left _ ht', ?_⟩
    unfold Det.trains
    rw [hps]
    simp only
    rw [detIterate_pure (d := { d with data := { d.data with trainIds := [t] } }) hc libs num ps _ _ (fun s k f ds h => by simp at h),
      detPureStep_trains]
    simp [mapE, hst, Except.map]

theorem detYields_iff (d : Det V) (libs : Libs) (num : V → Nat) (ps : Pulses) : ∀ (ts : List Nat) (cache : DsCache V),
    (∀ l, d.iterate libs num ps cache ts = .ok l ↔ d.yields libs num ps cache ts = (l, none)) ∧
    ∀ e, d.iterate libs num ps cache ts = .error e ↔ (d.yields libs num ps cache ts).2 = some e := by
  intro ts
  induction ts with
  | nil => intro cache; simp [Det.iterate, Det.yields]
  | cons t ts ih =>
    intro cache
    unfold Det.iterate Det.yields
    cases hmiss : d.data.checkDataMissing t with
    | error e => simp
    | ok b =>
      cases b with
      | true => simp only; exact ih cache
      | false =>
        simp only
        generalize d.assemble libs num ps t cache = r
        obtain ⟨r1, cache'⟩ := r
        cases r1 with
        | error e => simp
        | ok x =>
          simp only
          obtain ⟨i1, i2⟩ := ih cache'
          cases hr : d.iterate libs num ps cache' ts with
          | error e =>
            have := (i2 e).1 hr
            simp [this]
          | ok l =>
            have := (i1 l).1 hr
            simp [this]

/-- C146. A loop over the trains of a detector ends without exception exactly when `list(trains())` gives a list, with the same items. If the
argument for the pulses is refused, there are no items. -/
theorem det_loop_complete (d : Det V) (libs : Libs) (num : V → Nat) (arg : PulseArg) :
    (∀ l, d.trains libs num arg = .ok l ↔ d.trainsLoop libs num arg = (l, none)) ∧
    (∀ e, d.trains libs num arg = .error e ↔ (d.trainsLoop libs num arg).2 = some e) ∧
    ∀ e, checkPulses libs arg = .error e → d.trainsLoop libs num arg = ([], some e) := by
  refine and_assoc.1 ⟨?_, fun e he => by simp [Det.trainsLoop, he]⟩
  unfold Det.trains Det.trainsLoop
  cases checkPulses libs arg with
  | error e => simp
  | ok ps => exact detYields_iff d libs num ps d.data.trainIds []

/-! ### Examples -/

/-- The collection of `exTrains`, with a file for the control data which has lost its last entry. -/
def exTruncated : DC Nat :=
  { exTrains with files := [exInst (ch! "a") [1, 3] [0, 2] [2, 1] [10, 11, 12], exInst (ch! "b") [2, 4] [0, 1] [1, 0] [20],
    exCtrl (ch! "c") [1, 2, 3] [0, 1, 2] [1, 1, 1] [31, 32]] }

/-- The loop gets the data of trains 1 and 2, and stops at train 3 with an exception. -/
example : exTruncated.trainsLoop none none false = ([(1, [(ch! "C", ⟨ch! "C", 1, [(ch! "x.value", .one 31)]⟩),
      (ch! "D:o", ⟨ch! "D:o", 1, [(ch! "data.y", .many [10, 11])]⟩)]),
    (2, [(ch! "C", ⟨ch! "C", 2, [(ch! "x.value", .one 32)]⟩), (ch! "D:o", ⟨ch! "D:o", 2, [(ch! "data.y", .one 20)]⟩)])],
    some .index) := by decide

/-- The examples meet the hypothesis of the theorems. -/
example : NoConflict exTruncated.files ∧ (∀ s ∈ exTruncated.instrumentSources, s ∉ exTruncated.controlSources) :=
  ⟨hasConflicts_false.1 (by decide), by decide⟩

/-- Two modules whose data have different shapes in train 11: two entries of three numbers, and one. -/
def exLate : DC Nat where
  files := [exSlow '3' [5, 7, 5, 7, 5, 7] [100, 101, 110, 111, 120, 121] [0, 1, 3] [1, 2, 1] [1000, 1100, 1101, 1200] [2, 2, 2],
    exSlow '0' [5, 7, 5, 7, 5, 7] [200, 201, 210, 211, 220, 221] [0, 1, 2] [1, 1, 1] [2000, 2100, 2200] [2, 2, 2]]
  selection := [(exSource '3', none), (exSource '0', none)]
  trainIds := [10, 11, 12]
  ctxCloses := true

set_option maxRecDepth 20000 in
/-- The loop over the detector gets train 10, and stops at train 11 with an exception; train 12 alone can be read. -/
example : (match Det.init none exLate none none 1 with
    | .ok d =>
      let r := d.trainsLoop ⟨true, true⟩ id (.by_ false (.slice .none .none .none))
      let r' := Det.trains { d with data := { d.data with trainIds := [12] } } ⟨true, true⟩ id (.by_ false (.slice .none .none .none))
      some (r.1.map Prod.fst, r.2, r'.map (List.map Prod.fst))
    | .error _ => none) = some ([10], some .value, .ok [12]) := by decide

example : NoConflict exLate.files := hasConflicts_false.1 (by decide)

end KD
