/- Properties C29, C30: iterating over trains. -/
import Verif.Props.OneTrain

set_option linter.unusedSimpArgs false

namespace KD
open Spec

variable {V W : Type}

/-! ### The cache of the iterator does not matter -/

/-- The section of the file which the iterator reads for a source. -/
def iterSection (c : DC V) (source : Str) : Str := if source ∈ c.controlSources then ch! "CONTROL" else ch! "INSTRUMENT"

/-- What the cache may hold: files having the source, with the dataset in them. -/
def CacheOk (c : DC V) (cache : DsCache V) : Prop :=
  ∀ s k f ds, cache.get? (s, k) = some (f, ds) → f ∈ c.sourceIndex s ∧ f.dataset (iterSection c s) s k = .ok ds

/-- The iterator's lookup without a cache. -/
def pureFind (c : DC V) (source key : Str) (t : Nat) : R (Option (FileAccess V × Nat × Dataset V)) :=
  match c.findData source t with
  | none => .ok none
  | some (f, pos) =>
    match f.dataset (iterSection c source) source key with
    | .error e => .error e
    | .ok ds => .ok (some (f, pos, ds))

theorem iterFind_pure {c : DC V} (hc : NoConflict c.files) {cache : DsCache V} (hok : CacheOk c cache) (s k : Str) (t : Nat) :
    (c.iterFind cache s k t).1 = pureFind c s k t ∧ CacheOk c (c.iterFind cache s k t).2 := by
  unfold DC.iterFind
  cases hcf : cachedFind cache s k t with
  | some r =>
    simp only
    refine ⟨?_, hok⟩
    unfold cachedFind at hcf
    cases hg : cache.get? (s, k) with
    | none => simp [hg] at hcf
    | some fd =>
      obtain ⟨f, ds⟩ := fd
      obtain ⟨h1, h2⟩ := hok s k f ds hg
      simp only [hg] at hcf
      split at hcf
      · next i l hn =>
        simp at hcf; subst hcf
        have hm := mem_sourceIndex.1 h1
        have ht : t ∈ f.trainIds := List.mem_of_getElem? (nonzero_cons hn)
        obtain ⟨pos, hfd⟩ := findData_of_mem hc hm.1 hm.2 ht
        obtain ⟨-, -, -, hp⟩ := findData_some hfd
        rw [hn] at hp
        simp at hp; subst hp
        unfold pureFind
        rw [hfd]
        simp only [h2]
      · simp at hcf
  | none =>
    simp only
    unfold pureFind
    cases hfd : c.findData s t with
    | none => exact ⟨rfl, hok⟩
    | some fp =>
      obtain ⟨f, pos⟩ := fp
      simp only
      show (match f.dataset (iterSection c s) s k with
        | .error e => ((.error e : R (Option (FileAccess V × Nat × Dataset V))), cache)
        | .ok ds => (.ok (some (f, pos, ds)), cache.set (s, k) (f, ds))).1 = _ ∧
        CacheOk c (match f.dataset (iterSection c s) s k with
        | .error e => ((.error e : R (Option (FileAccess V × Nat × Dataset V))), cache)
        | .ok ds => (.ok (some (f, pos, ds)), cache.set (s, k) (f, ds))).2
      cases hds : f.dataset (iterSection c s) s k with
      | error e => exact ⟨rfl, hok⟩
      | ok ds =>
        refine ⟨rfl, ?_⟩
        intro s' k' f' ds' hg
        rw [Dict.get?_set] at hg
        split at hg
        · next he =>
          simp only [Prod.mk.injEq] at he
          obtain ⟨rfl, rfl⟩ := he
          simp at hg
          obtain ⟨rfl, rfl⟩ := hg
          obtain ⟨h1, h2, -, -⟩ := findData_some hfd
          exact ⟨mem_sourceIndex.2 ⟨h1, h2⟩, hds⟩
        · exact hok s' k' f' ds' hg

/-- One key without a cache. -/
def pureKey (c : DC V) (entry : FileAccess V × Nat × Dataset V → Str → R (Entry V)) (source : Str) (t : Nat) (key : Str) :
    R (Option (Str × Entry V)) :=
  match pureFind c source key t with
  | .error e => .error e
  | .ok none => .ok none
  | .ok (some r) =>
    match entry r key with
    | .error e => .error e
    | .ok v => .ok (some (key, v))

theorem iterKeys_pure {c : DC V} (hc : NoConflict c.files) (entry : FileAccess V × Nat × Dataset V → Str → R (Entry V))
    (s : Str) (t : Nat) (ks : List Str) : ∀ cache, CacheOk c cache →
    (c.iterKeys entry s t cache ks).1 = (mapE (pureKey c entry s t) ks).map (List.filterMap id) ∧
    CacheOk c (c.iterKeys entry s t cache ks).2 := by
  induction ks with
  | nil => intro cache h; exact ⟨rfl, h⟩
  | cons k ks ih =>
    intro cache hok
    obtain ⟨h1, h2⟩ := iterFind_pure hc hok s k t
    unfold DC.iterKeys mapE
    rw [pureKey.eq_1 c entry s t k, ← h1]
    generalize hr : c.iterFind cache s k t = r at h1 h2
    obtain ⟨r1, cache'⟩ := r
    simp only at h1 h2 ⊢
    cases r1 with
    | error e => exact ⟨rfl, h2⟩
    | ok o =>
      obtain ⟨i1, i2⟩ := ih cache' h2
      cases o with
      | none =>
        simp only
        rw [i1]
        refine ⟨?_, i2⟩
        cases mapE (pureKey c entry s t) ks <;> rfl
      | some r =>
        simp only
        cases entry r k with
        | error e => exact ⟨rfl, h2⟩
        | ok v =>
          simp only
          generalize hrr : c.iterKeys entry s t cache' ks = rr at i1 i2
          obtain ⟨rr1, cache''⟩ := rr
          simp only at i1 i2 ⊢
          subst i1
          cases mapE (pureKey c entry s t) ks with
          | error e => exact ⟨rfl, i2⟩
          | ok l => exact ⟨rfl, i2⟩

/-- One source without a cache. -/
def pureSource (c : DC V) (entry : Str → FileAccess V × Nat × Dataset V → Str → R (Entry V)) (t : Nat) (source : Str) :
    R (Str × SourceData V) :=
  match c.keysForSource source with
  | .error e => .error e
  | .ok ks =>
    match mapE (pureKey c (entry source) source t) ks with
    | .error e => .error e
    | .ok items => .ok (source, ⟨source, t, items.filterMap id⟩)

theorem iterSources_pure {c : DC V} (hc : NoConflict c.files)
    (entry : Str → FileAccess V × Nat × Dataset V → Str → R (Entry V)) (t : Nat) (ss : List Str) :
    ∀ cache, CacheOk c cache →
    (c.iterSources entry t cache ss).1 = mapE (pureSource c entry t) ss ∧
    CacheOk c (c.iterSources entry t cache ss).2 := by
  induction ss with
  | nil => intro cache h; exact ⟨rfl, h⟩
  | cons s ss ih =>
    intro cache hok
    unfold DC.iterSources mapE
    rw [pureSource.eq_1 c entry t s]
    cases hks : c.keysForSource s with
    | error e => exact ⟨rfl, hok⟩
    | ok ks =>
      simp only
      obtain ⟨h1, h2⟩ := iterKeys_pure hc (entry s) s t ks cache hok
      generalize hr : c.iterKeys (entry s) s t cache ks = r at h1 h2
      obtain ⟨r1, cache'⟩ := r
      simp only at h1 h2 ⊢
      subst h1
      cases hm : mapE (pureKey c (entry s) s t) ks with
      | error e => exact ⟨rfl, h2⟩
      | ok items =>
        simp only [Except.map]
        obtain ⟨i1, i2⟩ := ih cache' h2
        generalize hrr : c.iterSources entry t cache' ss = rr at i1 i2
        obtain ⟨rr1, cache''⟩ := rr
        simp only at i1 i2 ⊢
        subst i1
        cases mapE (pureSource c entry t) ss with
        | error e => exact ⟨rfl, i2⟩
        | ok l => exact ⟨rfl, i2⟩

/-- The data of one train without a cache. -/
def pureAssemble (c : DC V) (t : Nat) : R (Dict Str (SourceData V)) :=
  match mapE (pureSource c (fun _ => iterControlEntry) t) c.controlSources with
  | .error e => .error e
  | .ok ctrl =>
    match mapE (pureSource c iterInstrumentEntry t) c.instrumentSources with
    | .error e => .error e
    | .ok inst => .ok (Dict.update (Dict.update [] ctrl) inst)

theorem assemble_pure {c : DC V} (hc : NoConflict c.files) {cache : DsCache V} (hok : CacheOk c cache) (t : Nat) :
    (c.assemble cache t).1 = pureAssemble c t ∧ CacheOk c (c.assemble cache t).2 := by
  unfold DC.assemble pureAssemble
  obtain ⟨h1, h2⟩ := iterSources_pure hc (fun _ => iterControlEntry) t c.controlSources cache hok
  generalize hr : c.iterSources (fun _ => iterControlEntry) t cache c.controlSources = r at h1 h2
  obtain ⟨r1, cache'⟩ := r
  simp only at h1 h2 ⊢
  subst h1
  cases mapE (pureSource c (fun _ => iterControlEntry) t) c.controlSources with
  | error e => exact ⟨rfl, h2⟩
  | ok ctrl =>
    simp only
    obtain ⟨i1, i2⟩ := iterSources_pure hc iterInstrumentEntry t c.instrumentSources cache' h2
    generalize hrr : c.iterSources iterInstrumentEntry t cache' c.instrumentSources = rr at i1 i2
    obtain ⟨rr1, cache''⟩ := rr
    simp only at i1 i2 ⊢
    subst i1
    cases mapE (pureSource c iterInstrumentEntry t) c.instrumentSources with
    | error e => exact ⟨rfl, i2⟩
    | ok l => exact ⟨rfl, i2⟩

/-- One step of the iteration without a cache: skipped, or the data. -/
def pureStep (c : DC V) (requireAll : Bool) (t : Nat) : R (Option (Nat × Dict Str (SourceData V))) :=
  match (if requireAll then c.checkDataMissing t else .ok false) with
  | .error e => .error e
  | .ok true => .ok none
  | .ok false =>
    match pureAssemble c t with
    | .error e => .error e
    | .ok d => .ok (some (t, d))

theorem iterTrains_pure {c : DC V} (hc : NoConflict c.files) (req : Bool) (ts : List Nat) : ∀ cache, CacheOk c cache →
    c.iterTrains req cache ts = (mapE (pureStep c req) ts).map (List.filterMap id) := by
  induction ts with
  | nil => intro cache _; rfl
  | cons t ts ih =>
    intro cache hok
    unfold DC.iterTrains mapE
    rw [pureStep.eq_1 c req t]
    cases hmiss : (if req then c.checkDataMissing t else (.ok false : R Bool)) with
    | error e => rfl
    | ok b =>
      cases b with
      | true =>
        simp only
        rw [ih cache hok]
        cases mapE (pureStep c req) ts <;> rfl
      | false =>
        simp only
        obtain ⟨h1, h2⟩ := assemble_pure hc hok t
        generalize hr : c.assemble cache t = r at h1 h2
        obtain ⟨r1, cache'⟩ := r
        simp only at h1 h2 ⊢
        subst h1
        cases pureAssemble c t with
        | error e => rfl
        | ok d =>
          simp only
          rw [ih cache' h2]
          cases mapE (pureStep c req) ts <;> rfl

theorem trains_pure {c : DC V} (hc : NoConflict c.files) (req : Bool) :
    c.trains none none req = (mapE (pureStep c req) c.trainIds).map (List.filterMap id) := by
  unfold DC.trains
  simp only
  exact iterTrains_pure hc req _ _ (fun s k f ds h => by simp at h)

/-! ### C29 -/

/-- The same data, except that the first may show an empty array for a key which is not in the second. -/
def SameExceptEmpty (a b : Dict Str (Entry V)) : Prop :=
  ∀ k, a.get? k = b.get? k ∨ (a.get? k = some (.many []) ∧ b.get? k = none)

theorem keysForSource_nodup {c : DC V} {s : Str} {ks : List Str} (h : c.keysForSource s = .ok ks) : ks.Nodup := by
  unfold DC.keysForSource at h
  split at h
  · simp at h
  · simp at h; subst h; exact List.nodup_dedup _
  · split at h
    · unfold FileAccess.getKeys FileAccess.readKeys at h
      split at h
      · split at h
        · simp at h
        · simp at h; subst h; exact List.nodup_dedup _
      · split at h
        · split at h
          · simp at h
          · simp at h; subst h; exact List.nodup_dedup _
        · simp at h
    · simp at h

theorem pureSource_control {c : DC V} {t : Nat} {s : Str} (hs : s ∈ c.controlSources) {v : Str × SourceData V}
    (h : pureSource c (fun _ => iterControlEntry) t s = .ok v) : c.trainControl t s = .ok v := by
  unfold pureSource at h
  split at h
  · simp at h
  · next ks hks =>
    split at h
    · simp at h
    · next items hit =>
      obtain rfl := Except.ok.inj h
      unfold DC.trainControl
      cases hfd : c.findData s t with
      | none =>
        have : items.filterMap id = [] := by
          rw [List.filterMap_eq_nil_iff]
          intro x hx
          obtain ⟨k, -, hk⟩ := (mapE_mem hit).1 hx
          simp [pureKey, pureFind, hfd] at hk
          simp [← hk]
        simp only [this]
      | some fp =>
        obtain ⟨f, pos⟩ := fp
        simp only [hks]
        have key : ∀ ks items, mapE (pureKey c iterControlEntry s t) ks = .ok items →
            mapE (controlEntry f pos s) ks = .ok (items.filterMap id) := by
          intro ks
          induction ks with
          | nil => intro items h; simp [mapE] at h; subst h; rfl
          | cons k ks ih =>
            intro items h
            obtain ⟨b, bs, h1, h2, rfl⟩ := mapE_cons_ok.1 h
            simp only [pureKey, pureFind, hfd, iterSection, hs, if_true] at h1
            have hb : ∃ e, controlEntry f pos s k = .ok (k, e) ∧ b = some (k, e) := by
              cases hds : f.dataset (ch! "CONTROL") s k with
              | error e => simp [hds] at h1
              | ok ds =>
                simp only [hds, iterControlEntry] at h1
                unfold controlEntry
                simp only [hds]
                cases hrow : ds.row pos with
                | error e => simp [hrow] at h1
                | ok v => simp [hrow] at h1; exact ⟨.one v, rfl, h1.symm⟩
            obtain ⟨e, he, rfl⟩ := hb
            rw [mapE, he, ih bs h2]
            rfl
        rw [key ks items hit]

theorem pureSource_instrument {c : DC V} {t : Nat} {s : Str} (hs : s ∉ c.controlSources) {s' : Str} {sd : SourceData V}
    (h : pureSource c iterInstrumentEntry t s = .ok (s', sd)) :
    s' = s ∧ ∃ sd', c.trainInstrument t s = .ok (s, sd') ∧ sd.mdSource = s ∧ sd.mdTid = t ∧
      SameExceptEmpty sd.data sd'.data := by
  unfold pureSource at h
  split at h
  · simp at h
  · next ks hks =>
    split at h
    · simp at h
    · next items hit =>
      rw [Except.ok.injEq, Prod.mk.injEq] at h
      obtain ⟨rfl, rfl⟩ := h
      refine ⟨rfl, ?_⟩
      unfold DC.trainInstrument
      cases hfd : c.findData s t with
      | none =>
        have : items.filterMap id = [] := by
          rw [List.filterMap_eq_nil_iff]
          intro x hx
          obtain ⟨k, -, hk⟩ := (mapE_mem hit).1 hx
          simp [pureKey, pureFind, hfd] at hk
          simp [← hk]
        refine ⟨_, rfl, rfl, rfl, fun k => Or.inl ?_⟩
        simp only [this]
      | some fp =>
        obtain ⟨f, pos⟩ := fp
        simp only [hks]
        have key : ∀ ks items, mapE (pureKey c (iterInstrumentEntry s) s t) ks = .ok items → ks.Nodup →
            ∃ items', mapE (instrumentEntry f pos s) ks = .ok items' ∧
              (∀ k e, (k, e) ∈ items'.filterMap id → k ∈ ks) ∧
              SameExceptEmpty (items.filterMap id) (items'.filterMap id) := by
          intro ks
          induction ks with
          | nil =>
            intro items h _
            simp [mapE] at h; subst h
            exact ⟨[], rfl, by simp, fun k => Or.inl rfl⟩
          | cons k ks ih =>
            intro items h hn
            rw [List.nodup_cons] at hn
            obtain ⟨b, bs, h1, h2, rfl⟩ := mapE_cons_ok.1 h
            obtain ⟨bs', i1, i2, i3⟩ := ih bs h2 hn.2
            simp only [pureKey, pureFind, hfd, iterSection, if_neg hs] at h1
            have hb : ∃ e b', instrumentEntry f pos s k = .ok b' ∧ b = some (k, e) ∧
                (b' = some (k, e) ∨ (b' = none ∧ e = .many [])) := by
              cases hds : f.dataset (ch! "INSTRUMENT") s k with
              | error e => simp [hds] at h1
              | ok ds =>
                simp only [hds, iterInstrumentEntry] at h1
                unfold instrumentEntry
                cases hix : f.getIndex s (partition '.' k).1 with
                | error e => simp [hix] at h1
                | ok fc =>
                  obtain ⟨firsts, counts⟩ := fc
                  simp only [hix] at h1 ⊢
                  cases hf1 : nth firsts pos with
                  | error e => simp [hf1] at h1
                  | ok first =>
                    cases hc1 : nth counts pos with
                    | error e => simp [hf1, hc1] at h1
                    | ok count =>
                      simp only [hf1, hc1] at h1 ⊢
                      by_cases h0 : count = 0
                      · subst h0
                        simp [sl] at h1
                        exact ⟨.many [], none, by simp, h1.symm, Or.inr ⟨rfl, rfl⟩⟩
                      · rw [if_neg h0]
                        simp only [hds]
                        by_cases h1' : count = 1
                        · simp only [if_pos h1'] at h1 ⊢
                          cases hrow : ds.row first with
                          | error e => simp [hrow] at h1
                          | ok v =>
                            simp [hrow] at h1
                            exact ⟨.one v, _, rfl, h1.symm, Or.inl rfl⟩
                        · simp only [if_neg h1', Except.ok.injEq] at h1 ⊢
                          exact ⟨_, _, rfl, h1.symm, Or.inl rfl⟩
            obtain ⟨e, b', g1, rfl, g3⟩ := hb
            refine ⟨b' :: bs', by rw [mapE, g1, i1], ?_, ?_⟩
            · intro k' e' hm
              rcases g3 with rfl | ⟨rfl, -⟩
              · rw [show List.filterMap id (some (k, e) :: bs') = (k, e) :: List.filterMap id bs' from rfl] at hm
                rcases List.mem_cons.1 hm with he | hm
                · simp at he; simp [he.1]
                · simp [i2 k' e' hm]
              · simp [i2 k' e' hm]
            · intro k'
              rw [show List.filterMap id (some (k, e) :: bs) = (k, e) :: List.filterMap id bs from rfl, Dict.get?_cons]
              rcases g3 with rfl | ⟨rfl, rfl⟩
              · rw [show List.filterMap id (some (k, e) :: bs') = (k, e) :: List.filterMap id bs' from rfl, Dict.get?_cons]
                split
                · exact Or.inl rfl
                · exact i3 k'
              · rw [show List.filterMap id (none :: bs') = List.filterMap id bs' from rfl]
                split
                · next hk =>
                  subst hk
                  refine Or.inr ⟨rfl, get?_of_none (fun w hw => hn.1 (i2 _ _ hw))⟩
                · exact i3 k'
        obtain ⟨items', j1, -, j2⟩ := key ks items hit (keysForSource_nodup hks)
        rw [j1]
        exact ⟨_, rfl, trivial, trivial, j2⟩

theorem keys_update_congr {K : Type _} [DecidableEq K] {A B : Type _} {l : List (K × A)} : ∀ {l' : List (K × B)}
    {d : Dict K A} {d' : Dict K B}, d.keys = d'.keys → l.map Prod.fst = l'.map Prod.fst →
    (d.update l).keys = (d'.update l').keys := by
  induction l with
  | nil =>
    intro l' d d' h1 h2
    cases l' with
    | nil => exact h1
    | cons x l' => simp at h2
  | cons x l ih =>
    intro l' d d' h1 h2
    cases l' with
    | nil => simp at h2
    | cons y l' =>
      simp only [List.map_cons, List.cons.injEq] at h2
      rw [Dict.update_cons, Dict.update_cons]
      apply ih _ h2.2
      rw [Dict.keys_set, Dict.keys_set, h1, h2.1]

theorem mapE_exists_map {α β γ : Type _} {f : α → R β} {g : α → R γ} {l : List α} {r : List β} (h : mapE f l = .ok r)
    (hfg : ∀ a ∈ l, ∀ b, f a = .ok b → ∃ c, g a = .ok c) : ∃ r', mapE g l = .ok r' := by
  apply mapE_exists_ok
  intro a ha
  obtain ⟨b, -, hb⟩ := mapE_ok_all h ha
  exact hfg a ha b hb

/-- The data assembled by the iterator, compared with `train_from_id`. -/
theorem pureAssemble_agrees {c : DC V} (hcat : ∀ s ∈ c.instrumentSources, s ∉ c.controlSources) {t : Nat}
    (ht : t ∈ c.trainIds) {d : Dict Str (SourceData V)} (h : pureAssemble c t = .ok d) :
    ∃ d', c.trainFromId t = .ok (t, d') ∧ d.keys = d'.keys ∧
      ∀ s sd, d.get? s = some sd → ∃ sd', d'.get? s = some sd' ∧ sd.mdSource = sd'.mdSource ∧ sd.mdTid = sd'.mdTid ∧
        SameExceptEmpty sd.data sd'.data := by
  unfold pureAssemble at h
  split at h
  · simp at h
  · next ctrl hctrl =>
    split at h
    · simp at h
    · next inst hinst =>
      simp at h; subst h
      have hctrl' : mapE (c.trainControl t) c.controlSources = .ok ctrl := by
        rw [← hctrl]
        apply mapE_congr
        intro s hs
        obtain ⟨b, -, hb⟩ := mapE_ok_all hctrl hs
        rw [hb, pureSource_control hs hb]
      obtain ⟨inst', hinst'⟩ : ∃ inst', mapE (c.trainInstrument t) c.instrumentSources = .ok inst' := by
        refine mapE_exists_map hinst (fun s hs b hb => ?_)
        obtain ⟨s', sd⟩ := b
        obtain ⟨-, sd', h1, -⟩ := pureSource_instrument (hcat s hs) hb
        exact ⟨_, h1⟩
      have hfst : ∀ a v, pureSource c iterInstrumentEntry t a = .ok v → v.1 = a := by
        intro a v hv
        unfold pureSource at hv
        split at hv
        · simp at hv
        · split at hv
          · simp at hv
          · simp at hv; subst hv; rfl
      obtain ⟨k1, k2⟩ := mapE_keyed hfst hinst
      obtain ⟨k3, k4⟩ := mapE_keyed (fun a v h => (trainInstrument_fst h).1) hinst'
      obtain ⟨k5, k6⟩ := mapE_keyed (fun a v h => (trainControl_fst h).1) hctrl'
      have nd1 : (ctrl.map Prod.fst).Nodup := by rw [k5]; exact List.nodup_dedup _
      have nd2 : (inst.map Prod.fst).Nodup := by rw [k1]; exact List.nodup_dedup _
      have nd3 : (inst'.map Prod.fst).Nodup := by rw [k3]; exact List.nodup_dedup _
      refine ⟨Dict.update (Dict.update [] ctrl) inst', ?_, keys_update_congr rfl (by rw [k1, k3]), fun s sd hsd => ?_⟩
      · unfold DC.trainFromId
        rw [if_neg (not_not.2 ht), hctrl', hinst']
      · by_cases hs : s ∈ c.instrumentSources
        · obtain ⟨w, hw, hm⟩ := k2 s hs
          rw [Dict.get?_update_mem nd2 hm] at hsd
          obtain rfl := Option.some.inj hsd
          obtain ⟨w', hw', hm'⟩ := k4 s hs
          obtain ⟨-, sd', e1, e2, e3, e4⟩ := pureSource_instrument (hcat s hs) hw
          rw [hw'] at e1
          simp at e1; subst e1
          have := trainInstrument_fst hw'
          exact ⟨w', Dict.get?_update_mem nd3 hm', by rw [e2, this.2.1], by rw [e3, this.2.2], e4⟩
        · rw [Dict.get?_update_notMem (by rw [k1]; exact hs)] at hsd
          exact ⟨sd, by rw [Dict.get?_update_notMem (by rw [k3]; exact hs)]; exact hsd, rfl, rfl, fun k => Or.inl rfl⟩

/-- C29. Each pair yielded by `trains()` is a train of the collection with the data that `train_from_id` gives for it,
except that an empty array is shown where `train_from_id` leaves a key out. -/
theorem trains_agree {c : DC V} (hc : NoConflict c.files) (hcat : ∀ s ∈ c.instrumentSources, s ∉ c.controlSources)
    {req : Bool} {l : List (Nat × Dict Str (SourceData V))} (h : c.trains none none req = .ok l) :
    (req = false → l.map Prod.fst = c.trainIds) ∧
    ∀ t d, (t, d) ∈ l → t ∈ c.trainIds ∧ ∃ d', c.trainFromId t = .ok (t, d') ∧ d.keys = d'.keys ∧
      ∀ s sd, d.get? s = some sd → ∃ sd', d'.get? s = some sd' ∧ sd.mdSource = sd'.mdSource ∧ sd.mdTid = sd'.mdTid ∧
        SameExceptEmpty sd.data sd'.data := by
  rw [trains_pure hc] at h
  cases hm : mapE (pureStep c req) c.trainIds with
  | error e => simp [hm, Except.map] at h
  | ok items =>
    simp [hm, Except.map] at h; subst h
    constructor
    · rintro rfl
      have : ∀ ts items, mapE (pureStep c false) ts = .ok items → (items.filterMap id).map Prod.fst = ts := by
        intro ts
        induction ts with
        | nil => intro items h; simp [mapE] at h; subst h; rfl
        | cons t ts ih =>
          intro items h
          obtain ⟨b, bs, h1, h2, rfl⟩ := mapE_cons_ok.1 h
          simp only [pureStep, Bool.false_eq_true, if_false] at h1
          cases hp : pureAssemble c t with
          | error e => simp [hp] at h1
          | ok d =>
            simp [hp] at h1; subst h1
            rw [show List.filterMap id (some (t, d) :: bs) = (t, d) :: List.filterMap id bs from rfl, List.map_cons, ih bs h2]
      exact this _ _ hm
    · intro t d htd
      rw [List.mem_filterMap] at htd
      obtain ⟨x, hx, hxe⟩ := htd
      obtain rfl : x = some (t, d) := hxe
      obtain ⟨t', ht', hst⟩ := (mapE_mem hm).1 hx
      unfold pureStep at hst
      split at hst
      · simp at hst
      · simp at hst
      · split at hst
        · simp at hst
        · next d0 hd =>
          simp at hst
          obtain ⟨rfl, rfl⟩ := hst
          exact ⟨ht', pureAssemble_agrees hcat ht' hd⟩

/-- C29. Selecting devices and a range of trains for the iteration is the same as selecting first. -/
theorem trains_selection (c : DC V) (devices : Option SelArg) (tr : Option TrainRange) (req : Bool) :
    (∀ sel, devices = some sel → ∀ d, c.select sel = .ok d → c.trains devices tr req = d.trains none tr req) ∧
    (∀ sel, devices = some sel → ∀ e, c.select sel = .error e → c.trains devices tr req = .error e) ∧
    (∀ r, devices = none → tr = some r → ∀ d, c.selectTrains r = .ok d → c.trains devices tr req = d.trains none none req) ∧
    (∀ r, devices = none → tr = some r → ∀ e, c.selectTrains r = .error e → c.trains devices tr req = .error e) := by
  refine ⟨?_, ?_, ?_, ?_⟩
  · rintro sel rfl d hd; unfold DC.trains; simp only [hd]
  · rintro sel rfl e he; unfold DC.trains; simp only [he]
  · rintro r rfl rfl d hd; unfold DC.trains; simp only [hd]
  · rintro r rfl rfl e he; unfold DC.trains; simp only [he]

/-! ### C30 -/

/-- The train has data for everything selected: every source is in a file with that train, and every instrument key
has entries (control data has an entry for each train of its file). -/
def Complete (c : DC V) (t : Nat) : Prop :=
  (∀ s ∈ c.allSources, Covered c s t) ∧
  ∀ s ∈ c.instrumentSources, ∀ k, Available c s k → ∀ f ∈ c.files, Holds f s → t ∈ f.trainIds →
    fileEntries f true s k t ≠ []

theorem anyE_ok {α : Type _} {f : α → R Bool} {g : α → Bool} {l : List α} (h : ∀ a ∈ l, f a = .ok (g a)) :
    anyE f l = .ok (l.any g) := by
  induction l with
  | nil => rfl
  | cons a l ih =>
    unfold anyE
    rw [h a (by simp)]
    cases hg : g a with
    | true => simp [hg]
    | false => simp only [List.any_cons, hg, Bool.false_or]; exact ih (fun b hb => h b (by simp [hb]))

open Classical in
theorem checkDataMissing_good {c : DC V} (hc : NoConflict c.files) (hg : GoodData c) (t : Nat) :
    c.checkDataMissing t = .ok (decide (¬ Complete c t)) := by
  unfold DC.checkDataMissing
  by_cases hctrl : c.controlSources.any (fun s => (c.findData s t).isNone) = true
  · rw [if_pos hctrl]
    obtain ⟨s, hs, hn⟩ := List.any_eq_true.1 hctrl
    have hn := findData_none.1 (Option.isNone_iff_eq_none.1 hn)
    have : ¬ Complete c t := fun h => hn (h.1 s (by simp [DC.allSources, hs]))
    simp [this]
  · rw [if_neg hctrl]
    have hcc : ∀ s ∈ c.controlSources, Covered c s t := by
      intro s hs
      by_contra hn
      exact hctrl (List.any_eq_true.2 ⟨s, hs, by rw [findData_none.2 hn]; rfl⟩)
    let P : Str → Prop := fun s => ¬ Covered c s t ∨ ∃ k, Available c s k ∧ ∃ f ∈ c.files, Holds f s ∧ t ∈ f.trainIds ∧
      fileEntries f true s k t = []
    have hone : ∀ s ∈ c.instrumentSources, c.instrumentMissing t s = .ok (decide (P s)) := by
      intro s hs
      have hsa : s ∈ c.allSources := by simp [DC.allSources, hs]
      unfold DC.instrumentMissing
      cases hfd : c.findData s t with
      | none => simp [P, findData_none.1 hfd]
      | some fp =>
        obtain ⟨f, pos⟩ := fp
        obtain ⟨hf, hh, hp, -⟩ := findData_some hfd
        have ht : t ∈ f.trainIds := List.mem_of_getElem? hp
        obtain ⟨ks, hks⟩ := hg.keys s hsa
        simp only [hks]
        have hval : ∀ grp ∈ (ks.map (fun k => (partition '.' k).1)).dedup, groupMissing f pos s grp =
            .ok (decide (∃ k ∈ ks, (partition '.' k).1 = grp ∧ fileEntries f true s k t = [])) := by
          intro grp hgrp
          rw [List.mem_dedup, List.mem_map] at hgrp
          obtain ⟨k0, hk0, rfl⟩ := hgrp
          have hat : ∀ k ∈ ks, (partition '.' k).1 = (partition '.' k0).1 → ∃ counts n firsts,
              f.getIndex s (partition '.' k0).1 = .ok (firsts, counts) ∧ counts[pos]? = some n ∧
              (fileEntries f true s k t = [] ↔ n = 0) := by
            intro k hk he
            obtain ⟨firsts, counts, ds, a, n, g1, g2, g3, g4, g5, g6⟩ :=
              fileEntries_at (hg.instr s hs k ((available_keys hsa hks).1 hk) f hf hh) hp
            refine ⟨counts, n, firsts, ?_, g4, ?_⟩
            · rw [← he]; exact g1
            · rw [g6]
              have := slice_length g5
              constructor
              · intro h; rw [h] at this; simpa using this.symm
              · rintro rfl; simp [slice]
          obtain ⟨counts, n, firsts, g1, g2, g3⟩ := hat k0 hk0 rfl
          unfold groupMissing
          rw [g1]
          simp only [nth_ok_iff.2 g2, Except.ok.injEq]
          by_cases hn : n = 0
          · subst hn
            simp only [beq_self_eq_true]
            symm; rw [decide_eq_true_eq]
            exact ⟨k0, hk0, rfl, g3.2 rfl⟩
          · rw [show (n == 0) = false by simpa using hn]
            symm; rw [decide_eq_false_iff_not]
            rintro ⟨k, hk, he, hnil⟩
            obtain ⟨counts', n', firsts', g1', g2', g3'⟩ := hat k hk he
            rw [g1] at g1'
            simp at g1'
            obtain ⟨rfl, rfl⟩ := g1'
            rw [g2] at g2'
            obtain rfl := Option.some.inj g2'
            exact hn (g3'.1 hnil)
        rw [anyE_ok hval]
        congr 1
        rw [Bool.eq_iff_iff, List.any_eq_true, decide_eq_true_eq]
        constructor
        · rintro ⟨grp, -, hgr⟩
          rw [decide_eq_true_eq] at hgr
          obtain ⟨k, hk, -, hnil⟩ := hgr
          exact Or.inr ⟨k, (available_keys hsa hks).1 hk, f, hf, hh, ht, hnil⟩
        · rintro (hncov | ⟨k, hav, g, hgf, hgh, htg, hnil⟩)
          · exact absurd ⟨f, hf, hh, ht⟩ hncov
          · have hk := (available_keys hsa hks).2 hav
            obtain ⟨pos', hfd'⟩ := findData_of_mem hc hgf hgh htg
            rw [hfd] at hfd'
            simp at hfd'
            obtain ⟨rfl, rfl⟩ := hfd'
            exact ⟨(partition '.' k).1, by rw [List.mem_dedup, List.mem_map]; exact ⟨k, hk, rfl⟩,
              decide_eq_true ⟨k, hk, rfl, hnil⟩⟩
    rw [anyE_ok hone]
    congr 1
    rw [Bool.eq_iff_iff, List.any_eq_true, decide_eq_true_eq]
    constructor
    · rintro ⟨s, hs, hP⟩ hcomp
      rw [decide_eq_true_eq] at hP
      rcases hP with hn | ⟨k, hav, f, hf, hh, ht, hnil⟩
      · exact hn (hcomp.1 s (by simp [DC.allSources, hs]))
      · exact hcomp.2 s hs k hav f hf hh ht hnil
    · intro hcomp
      by_contra hno
      push Not at hno
      have hno : ∀ s ∈ c.instrumentSources, ¬ P s := fun s hs hP => hno s hs (decide_eq_true hP)
      apply hcomp
      refine ⟨fun s hs => ?_, fun s hs k hav f hf hh ht hnil => hno s hs (Or.inr ⟨k, hav, f, hf, hh, ht, hnil⟩)⟩
      have : s ∈ c.controlSources ∨ s ∈ c.instrumentSources := by simpa [DC.allSources] using hs
      rcases this with h | h
      · exact hcc s h
      · by_contra hn; exact hno s h (Or.inl hn)

theorem goodData_cat {c : DC V} (hg : GoodData c) : ∀ s ∈ c.instrumentSources, s ∉ c.controlSources :=
  fun s hs hc => (hg.ctrl s hc).1 hs

/-- With data in good order, assembling a train succeeds. -/
theorem pureAssemble_good {c : DC V} (hg : GoodData c) (t : Nat) : ∃ d, pureAssemble c t = .ok d := by
  have h1 : ∃ ctrl, mapE (pureSource c (fun _ => iterControlEntry) t) c.controlSources = .ok ctrl := by
    apply mapE_exists_ok
    intro s hs
    have hsa : s ∈ c.allSources := by simp [DC.allSources, hs]
    obtain ⟨hni, hgc⟩ := hg.ctrl s hs
    obtain ⟨ks, hks⟩ := hg.keys s hsa
    have : ∃ items, mapE (pureKey c iterControlEntry s t) ks = .ok items := by
      apply mapE_exists_ok
      intro k hk
      unfold pureKey pureFind
      cases hfd : c.findData s t with
      | none => exact ⟨_, rfl⟩
      | some fp =>
        obtain ⟨f, pos⟩ := fp
        obtain ⟨hf, hh, hp, -⟩ := findData_some hfd
        obtain ⟨i1, i2⟩ := hgc k ((available_keys hsa hks).1 hk)
        obtain ⟨v, hv, -⟩ := controlEntry_valid (i1 f hf hh) (i2 f hf hh) hp
        simp only [iterSection, hs, if_true]
        unfold controlEntry at hv
        cases hds : f.dataset (ch! "CONTROL") s k with
        | error e => simp [hds] at hv
        | ok ds =>
          simp only [hds] at hv ⊢
          cases hrow : ds.row pos with
          | error e => simp [hrow] at hv
          | ok v => exact ⟨some (k, .one v), by simp [iterControlEntry, hrow]⟩
    obtain ⟨items, hi⟩ := this
    exact ⟨(s, ⟨s, t, items.filterMap id⟩), by simp [pureSource, hks, hi]⟩
  have h2 : ∃ inst, mapE (pureSource c iterInstrumentEntry t) c.instrumentSources = .ok inst := by
    apply mapE_exists_ok
    intro s hs
    have hsa : s ∈ c.allSources := by simp [DC.allSources, hs]
    obtain ⟨ks, hks⟩ := hg.keys s hsa
    have : ∃ items, mapE (pureKey c (iterInstrumentEntry s) s t) ks = .ok items := by
      apply mapE_exists_ok
      intro k hk
      unfold pureKey pureFind
      cases hfd : c.findData s t with
      | none => exact ⟨_, rfl⟩
      | some fp =>
        obtain ⟨f, pos⟩ := fp
        obtain ⟨hf, hh, hp, -⟩ := findData_some hfd
        obtain ⟨firsts, counts, ds, a, n, g1, g2, g3, g4, g5, g6⟩ :=
          fileEntries_at (hg.instr s hs k ((available_keys hsa hks).1 hk) f hf hh) hp
        simp only [iterSection, goodData_cat hg s hs, if_false]
        rw [show f.dataset (ch! "INSTRUMENT") s k = .ok ds from g2]
        simp only [iterInstrumentEntry]
        rw [show f.getIndex s (partition '.' k).1 = .ok (firsts, counts) from g1]
        simp only [nth_ok_iff.2 g3, nth_ok_iff.2 g4]
        by_cases h1 : n = 1
        · subst h1
          have : a < ds.rows.length := by omega
          simp only [if_true, Dataset.row, nth_ok_of_lt this]
          exact ⟨_, rfl⟩
        · simp only [if_neg h1]; exact ⟨_, rfl⟩
    obtain ⟨items, hi⟩ := this
    exact ⟨(s, ⟨s, t, items.filterMap id⟩), by simp [pureSource, hks, hi]⟩
  obtain ⟨ctrl, h1⟩ := h1
  obtain ⟨inst, h2⟩ := h2
  exact ⟨_, by unfold pureAssemble; rw [h1, h2]⟩

/-- C29. With data in good order, iterating over all trains succeeds. -/
theorem trains_succeeds {c : DC V} (hc : NoConflict c.files) (hg : GoodData c) (req : Bool) :
    ∃ l, c.trains none none req = .ok l := by
  rw [trains_pure hc]
  have : ∃ items, mapE (pureStep c req) c.trainIds = .ok items := by
    apply mapE_exists_ok
    intro t _
    obtain ⟨d, hd⟩ := pureAssemble_good hg t
    unfold pureStep
    rw [checkDataMissing_good hc hg]
    cases req with
    | false => simp [hd]
    | true =>
      simp only [if_true]
      split
      · next he => simp at he
      · exact ⟨_, rfl⟩
      · rw [hd]; exact ⟨_, rfl⟩
  obtain ⟨items, hi⟩ := this
  exact ⟨items.filterMap id, by rw [hi]; rfl⟩

open Classical in
/-- C30. `trains(require_all=True)` yields exactly the complete trains, in order. `P` is any test of completeness. -/
theorem trains_require_all {c : DC V} (hc : NoConflict c.files) (hg : GoodData c) {P : Nat → Bool}
    (hP : ∀ t, P t = true ↔ Complete c t) {l : List (Nat × Dict Str (SourceData V))}
    (h : c.trains none none true = .ok l) : l.map Prod.fst = c.trainIds.filter P := by
  rw [trains_pure hc] at h
  cases hm : mapE (pureStep c true) c.trainIds with
  | error e => simp [hm, Except.map] at h
  | ok items =>
    simp [hm, Except.map] at h; subst h
    have : ∀ ts items, mapE (pureStep c true) ts = .ok items → (items.filterMap id).map Prod.fst = ts.filter P := by
      intro ts
      induction ts with
      | nil => intro items h; simp [mapE] at h; subst h; rfl
      | cons t ts ih =>
        intro items h
        obtain ⟨b, bs, h1, h2, rfl⟩ := mapE_cons_ok.1 h
        simp only [pureStep, if_true, checkDataMissing_good hc hg] at h1
        by_cases hcomp : Complete c t
        · rw [show decide (¬ Complete c t) = false from decide_eq_false (not_not.2 hcomp)] at h1
          simp only at h1
          cases hp : pureAssemble c t with
          | error e => simp [hp] at h1
          | ok d =>
            simp [hp] at h1; subst h1
            rw [show List.filterMap id (some (t, d) :: bs) = (t, d) :: List.filterMap id bs from rfl]
            rw [List.map_cons, ih bs h2, List.filter_cons_of_pos ((hP t).2 hcomp)]
        · rw [show decide (¬ Complete c t) = true from decide_eq_true hcomp] at h1
          simp at h1; subst h1
          rw [show List.filterMap id (none :: bs) = List.filterMap id bs from rfl]
          have : P t = false := by
            rw [← Bool.not_eq_true, hP]; exact hcomp
          rw [ih bs h2, List.filter_cons_of_neg (by simp [this])]
    exact this _ _ hm

/-- Train 4 has neither control data nor instrument entries, and is skipped. -/
example : (exTrains.trains none none true).map (List.map Prod.fst) = .ok [1, 2, 3] ∧
    (exTrains.trains none none false).map (List.map Prod.fst) = .ok [1, 2, 3, 4] ∧
    ((exTrains.trains none none false).map List.getLast?) = .ok (some (4, [(ch! "C", ⟨ch! "C", 4, []⟩),
      (ch! "D:o", ⟨ch! "D:o", 4, [(ch! "data.y", .many [])]⟩)])) := ⟨by decide, by decide, by decide⟩

/-- The hypotheses of C29 and C30 hold for this collection, so the theorems above apply to it. -/
example : (∃ l, exTrains.trains none none true = .ok l) ∧
    (∀ s ∈ exTrains.instrumentSources, s ∉ exTrains.controlSources) ∧ ¬ Complete exTrains 4 := by
  refine ⟨trains_succeeds exTrains_good.1 exTrains_good.2 true, goodData_cat exTrains_good.2, fun h => ?_⟩
  obtain ⟨f, hf, hh, ht⟩ := h.1 (ch! "C") (by decide)
  have : exTrains.files.all (fun f => ! (decide (ch! "C" ∈ f.controlSources ++ f.instrumentSources) &&
    decide (4 ∈ f.trainIds))) = true := by decide
  have := List.all_eq_true.1 this f hf
  simp only [Bool.not_eq_true', Bool.and_eq_false_iff, decide_eq_false_iff_not, List.mem_append] at this
  exact this.elim (fun h => h hh) (fun h => h ht)

end KD
