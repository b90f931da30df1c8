/- Helper lemmas for iterating over the trains of a detector. -/
import Verif.Lemmas.DetArray
import Verif.Props.Iterate

set_option linter.unusedSimpArgs false

namespace KD
open Spec

variable {V : Type}

/-! ### The cache does not matter -/

/-- What the cache may hold. -/
def DetCacheOk (d : Det V) (cache : DsCache V) : Prop :=
  ∀ s k f ds, cache.get? (s, k) = some (f, ds) → f ∈ d.data.sourceIndex s ∧ f.dataset (ch! "INSTRUMENT") s k = .ok ds

/-- The lookup without a cache. -/
def Det.pureFind (d : Det V) (source key : Str) (t : Nat) : R (Option (FileAccess V × Nat × Dataset V)) :=
  match d.data.findData source t with
  | none => .ok none
  | some (f, pos) =>
    match f.dataset (ch! "INSTRUMENT") source key with
    | .error e => .error e
    | .ok ds => .ok (some (f, pos, ds))

theorem detFind_pure {d : Det V} (hc : NoConflict d.data.files) {cache : DsCache V} (hok : DetCacheOk d cache) (s k : Str) (t : Nat) :
    (d.find cache s k t).1 = d.pureFind s k t ∧ DetCacheOk d (d.find cache s k t).2 := by
  unfold Det.find
  cases hcf : cachedFind cache s k t with
  | some r =>
    simp only
    refine ⟨?_, hok⟩
    unfold cachedFind at hcf
    cases hg : cache.get? (s, k) with
    | none => simp [hg] at hcf
    | some fd =>
      obtain ⟨f, ds⟩ := fd
      obtain ⟨h1, h2⟩ := hok s k f ds hg
      simp only [hg] at hcf
      split at hcf
      · next i l hn =>
        simp at hcf; subst hcf
        have hm := mem_sourceIndex.1 h1
        have ht : t ∈ f.trainIds := List.mem_of_getElem? (nonzero_cons hn)
        obtain ⟨pos, hfd⟩ := findData_of_mem hc hm.1 hm.2 ht
        obtain ⟨-, -, -, hp⟩ := findData_some hfd
        rw [hn] at hp
        simp at hp; subst hp
        unfold Det.pureFind
        rw [hfd]
        simp only [h2]
      · simp at hcf
  | none =>
    simp only
    unfold Det.pureFind
    cases hfd : d.data.findData s t with
    | none => exact ⟨rfl, hok⟩
    | some fp =>
      obtain ⟨f, pos⟩ := fp
      simp only
      cases hds : f.dataset (ch! "INSTRUMENT") s k with
      | error e => exact ⟨rfl, hok⟩
      | ok ds =>
        refine ⟨rfl, ?_⟩
        intro s' k' f' ds' hg
        rw [Dict.get?_set] at hg
        split at hg
        · next he =>
          simp only [Prod.mk.injEq] at he
          obtain ⟨rfl, rfl⟩ := he
          simp at hg
          obtain ⟨rfl, rfl⟩ := hg
          obtain ⟨h1, h2, -, -⟩ := findData_some hfd
          exact ⟨mem_sourceIndex.2 ⟨h1, h2⟩, hds⟩
        · exact hok s' k' f' ds' hg

/-- One key of one module without a cache. -/
def Det.pureKey (d : Det V) (libs : Libs) (num : V → Nat) (pulses : Pulses) (t : Nat) (w : Nat × Str × Str) :
    R (Option (Str × Nat × ModData V)) :=
  match d.pureFind w.2.1 w.2.2 t with
  | .error e => .error e
  | .ok none => .ok none
  | .ok (some r) =>
    if startsWith w.2.2 (ch! "image.") then
      match iterPulseData libs num w.2.1 w.2.2 pulses t r with
      | .error e => .error e
      | .ok a => .ok (some (w.2.2, w.1, .pulse a))
    else
      match iterInstrumentEntry w.2.1 r w.2.2 with
      | .error e => .error e
      | .ok e => .ok (some (w.2.2, w.1, .slow (entryDims r.2.2.rowShape e) e))

theorem collect_pure {d : Det V} (hc : NoConflict d.data.files) (libs : Libs) (num : V → Nat) (pulses : Pulses) (t : Nat)
    (ws : List (Nat × Str × Str)) : ∀ cache, DetCacheOk d cache →
    (d.collect libs num pulses t cache ws).1 = (mapE (d.pureKey libs num pulses t) ws).map (List.filterMap id) ∧
    DetCacheOk d (d.collect libs num pulses t cache ws).2 := by
  induction ws with
  | nil => intro cache h; exact ⟨rfl, h⟩
  | cons w ws ih =>
    intro cache hok
    obtain ⟨m, s, k⟩ := w
    obtain ⟨h1, h2⟩ := detFind_pure hc hok s k t
    unfold Det.collect mapE Det.keyData
    rw [Det.pureKey.eq_1 d libs num pulses t (m, s, k)]
    simp only
    rw [← h1]
    generalize hr : d.find cache s k t = r at h1 h2
    obtain ⟨r1, cache'⟩ := r
    simp only at h1 h2 ⊢
    obtain ⟨i1, i2⟩ := ih cache' h2
    cases r1 with
    | error e => exact ⟨rfl, h2⟩
    | ok o =>
      cases o with
      | none =>
        simp only
        generalize d.collect libs num pulses t cache' ws = rr at i1 i2 ⊢
        obtain ⟨rr1, cache''⟩ := rr
        simp only at i1 i2 ⊢
        subst i1
        cases mapE (d.pureKey libs num pulses t) ws <;> exact ⟨rfl, i2⟩
      | some r =>
        simp only
        by_cases hk : startsWith k (ch! "image.") = true
        · rw [if_pos hk, if_pos hk]
          cases iterPulseData libs num s k pulses t r with
          | error e => exact ⟨rfl, h2⟩
          | ok v =>
            simp only
            generalize d.collect libs num pulses t cache' ws = rr at i1 i2 ⊢
            obtain ⟨rr1, cache''⟩ := rr
            simp only at i1 i2 ⊢
            subst i1
            cases mapE (d.pureKey libs num pulses t) ws <;> exact ⟨rfl, i2⟩
        · rw [if_neg hk, if_neg hk]
          cases iterInstrumentEntry s r k with
          | error e => exact ⟨rfl, h2⟩
          | ok v =>
            simp only
            generalize d.collect libs num pulses t cache' ws = rr at i1 i2 ⊢
            obtain ⟨rr1, cache''⟩ := rr
            simp only at i1 i2 ⊢
            subst i1
            cases mapE (d.pureKey libs num pulses t) ws <;> exact ⟨rfl, i2⟩

/-- The data of one train without a cache. -/
def Det.pureAssemble (d : Det V) (libs : Libs) (num : V → Nat) (pulses : Pulses) (t : Nat) : R (Dict Str (IterVal V)) :=
  match mapE d.workOf d.modules with
  | .error e => .error e
  | .ok work =>
    match mapE (d.pureKey libs num pulses t) work.flatten with
    | .error e => .error e
    | .ok l => mapE (joinKey (l.filterMap id)) ((l.filterMap id).map Prod.fst).dedup

theorem detAssemble_pure {d : Det V} (hc : NoConflict d.data.files) (libs : Libs) (num : V → Nat) (pulses : Pulses) (t : Nat)
    {cache : DsCache V} (hok : DetCacheOk d cache) :
    (d.assemble libs num pulses t cache).1 = d.pureAssemble libs num pulses t ∧
    DetCacheOk d (d.assemble libs num pulses t cache).2 := by
  unfold Det.assemble Det.pureAssemble
  cases mapE d.workOf d.modules with
  | error e => exact ⟨rfl, hok⟩
  | ok work =>
    simp only
    obtain ⟨h1, h2⟩ := collect_pure hc libs num pulses t work.flatten cache hok
    generalize hr : d.collect libs num pulses t cache work.flatten = r at h1 h2
    obtain ⟨r1, cache'⟩ := r
    simp only at h1 h2 ⊢
    subst h1
    cases mapE (d.pureKey libs num pulses t) work.flatten with
    | error e => exact ⟨rfl, h2⟩
    | ok l => exact ⟨rfl, h2⟩

/-- One step of the iteration without a cache. -/
def Det.pureStep (d : Det V) (libs : Libs) (num : V → Nat) (pulses : Pulses) (t : Nat) :
    R (Option (Nat × Dict Str (IterVal V))) :=
  match d.data.checkDataMissing t with
  | .error e => .error e
  | .ok true => .ok none
  | .ok false =>
    match d.pureAssemble libs num pulses t with
    | .error e => .error e
    | .ok x => .ok (some (t, x))

theorem detIterate_pure {d : Det V} (hc : NoConflict d.data.files) (libs : Libs) (num : V → Nat) (pulses : Pulses) (ts : List Nat) :
    ∀ cache, DetCacheOk d cache →
    d.iterate libs num pulses cache ts = (mapE (d.pureStep libs num pulses) ts).map (List.filterMap id) := by
  induction ts with
  | nil => intro cache _; rfl
  | cons t ts ih =>
    intro cache hok
    unfold Det.iterate mapE
    rw [Det.pureStep.eq_1 d libs num pulses t]
    cases hmiss : d.data.checkDataMissing t with
    | error e => rfl
    | ok b =>
      cases b with
      | true =>
        simp only
        rw [ih cache hok]
        cases mapE (d.pureStep libs num pulses) ts <;> rfl
      | false =>
        simp only
        obtain ⟨h1, h2⟩ := detAssemble_pure hc libs num pulses t hok
        generalize hr : d.assemble libs num pulses t cache = r at h1 h2
        obtain ⟨r1, cache'⟩ := r
        simp only at h1 h2 ⊢
        subst h1
        cases d.pureAssemble libs num pulses t with
        | error e => rfl
        | ok x =>
          simp only
          rw [ih cache' h2]
          cases mapE (d.pureStep libs num pulses) ts <;> rfl

/-! ### The pulses of one train -/

/-- The selection asks for frame number `k` with pulse ID `p`, when iterating. -/
def AskedIter (ps : Pulses) (k p : Nat) : Prop := (if ps.byId then p else k) ∈ ps.set.desired

/-- What iterating takes of a train whose frame numbers and pulse IDs are related by `has`: for a slice of pulse IDs with
step 1 the frames from the first one at or above the begin to before the first one at or above the end. -/
def TakenSet (ps : Pulses) (has : Nat → Nat → Prop) (k p : Nat) : Prop :=
  match ps.byId, ps.set with
  | true, .slice a b 1 => (∃ k' p', k' ≤ k ∧ has k' p' ∧ a ≤ p') ∧ ∀ k' p', k' ≤ k → has k' p' → p' < b
  | _, _ => AskedIter ps k p

theorem TakenSet_congr {ps : Pulses} {has has' : Nat → Nat → Prop} (h : ∀ k p, has k p ↔ has' k p) (k p : Nat) :
    TakenSet ps has k p ↔ TakenSet ps has' k p := by
  have : has = has' := funext fun k => funext fun p => propext (h k p)
  rw [this]

/-- A slice has a positive step. -/
def GoodStep (ps : Pulses) : Prop := ∀ a b s, ps.set = .slice a b s → 0 < s

theorem slStep_reads {α : Type _} (l : List α) (a b : Nat) {s : Nat} (hs : 0 < s) :
    mapE (nth l) (arange a (min b l.length) s) = .ok (slStep l a b s) := by
  unfold slStep
  have : ∀ qs : List Nat, (∀ q ∈ qs, q < l.length) → mapE (nth l) qs = .ok (qs.filterMap (fun i => l[i]?)) := by
    intro qs
    induction qs with
    | nil => intro _; rfl
    | cons q qs ih =>
      intro h
      have hq := h q (by simp)
      unfold mapE
      rw [ih (fun x hx => h x (by simp [hx]))]
      simp [nth, hq]
  exact this _ (fun q hq => by have := (mem_arange hs).1 hq; omega)

theorem arange_add (n a b s : Nat) : arange (n + a) (n + b) s = (arange a b s).map (fun q => n + q) := by
  unfold arange
  rw [show n + b - (n + a) = b - a by omega]
  rw [List.map_add_range']

theorem h5Slice_reads {rows : List V} {n a b count s : Nat} (hs : 0 < s) (hb : b ≤ count) (hn : n + count ≤ rows.length) :
    mapE (fun q => nth rows (n + q)) (arange a b s) = .ok (slStep rows (n + a) (n + b) s) := by
  have := slStep_reads rows (n + a) (n + b) hs
  rw [show min (n + b) rows.length = n + b by omega, arange_add, mapE_map] at this
  exact this

theorem headD_nonzero {l : List Bool} {q : Nat} (hq : q < l.length) :
    (nonzero l).headD l.length ≤ q ↔ ∃ k, k ≤ q ∧ l[k]? = some true := by
  cases hn : nonzero l with
  | nil =>
    simp only [List.headD_nil]
    constructor
    · omega
    · rintro ⟨k, -, h⟩
      have := mem_nonzero.2 h
      rw [hn] at this
      simp at this
  | cons i is =>
    simp only [List.headD_cons]
    have hi : l[i]? = some true := mem_nonzero.1 (by rw [hn]; simp)
    have hp := nonzero_pairwise l
    rw [hn, List.pairwise_cons] at hp
    constructor
    · intro h
      exact ⟨i, h, hi⟩
    · rintro ⟨k, hk, h⟩
      have := mem_nonzero.2 h
      rw [hn, List.mem_cons] at this
      rcases this with rfl | this
      · exact hk
      · exact Nat.le_trans (Nat.le_of_lt (hp.1 k this)) hk

theorem headD_nonzero_le (l : List Bool) : (nonzero l).headD l.length ≤ l.length := by
  cases hn : nonzero l with
  | nil => simp
  | cons i is =>
    have hi : l[i]? = some true := mem_nonzero.1 (by rw [hn]; simp)
    have := (List.getElem?_eq_some_iff.1 hi).1
    simp only [List.headD_cons]
    omega

/-- First position with an ID of at least `x`. -/
theorem firstAtLeast {ids : List Nat} {q x : Nat} (hq : q < ids.length) :
    (nonzero (ids.map (fun p => decide (p ≥ x)))).headD ids.length ≤ q ↔ ∃ k p, k ≤ q ∧ ids[k]? = some p ∧ x ≤ p := by
  have := headD_nonzero (l := ids.map (fun p => decide (p ≥ x))) (q := q) (by simpa using hq)
  rw [List.length_map] at this
  rw [this]
  constructor
  · rintro ⟨k, hk, h⟩
    rw [List.getElem?_map, Option.map_eq_some_iff] at h
    obtain ⟨p, hp, hd⟩ := h
    exact ⟨k, p, hk, hp, by simpa using hd⟩
  · rintro ⟨k, p, hk, hp, hx⟩
    refine ⟨k, hk, ?_⟩
    rw [List.getElem?_map, hp]
    simpa using hx

theorem arange_one_mem {a b q : Nat} : q ∈ arange a b 1 ↔ a ≤ q ∧ q < b := by
  rw [mem_arange (by decide)]
  have : (q - a) % 1 = 0 := Nat.mod_one _
  tauto

theorem listReads {ids : List Nat} {rows : List V} {first : Nat} {qs : List Nat} {e : Bool} {ps' : List Nat} {r : List V}
    (hn : first + ids.length ≤ rows.length) (h1 : npTake ids (.list qs) = .ok ps') (h2 : h5Take e rows first (.list qs) = .ok r) :
    mapE (nth ids) qs = .ok ps' ∧ mapE (fun q => nth rows (first + q)) qs = .ok r :=
  ⟨h1, h5Take_reads hn (Or.inr rfl) h2⟩

theorem iterPos_reads {pulses : Pulses} {ids : List Nat} {rows : List V} {first count : Nat} {e : Bool} {ps' : List Nat}
    {r : List V} (hs : GoodStep pulses) (hlen : ids.length = count) (hn : first + count ≤ rows.length)
    (h1 : npTake ids (if pulses.byId then iterPulseIds pulses.set ids else iterPulseIndices pulses.set count) = .ok ps')
    (h2 : h5Take e rows first (if pulses.byId then iterPulseIds pulses.set ids else iterPulseIndices pulses.set count) = .ok r) :
    ∃ qs, mapE (nth ids) qs = .ok ps' ∧ mapE (fun q => nth rows (first + q)) qs = .ok r ∧
      ∀ q p, ids[q]? = some p → (q ∈ qs ↔ TakenSet pulses (fun k p => ids[k]? = some p) q p) := by
  subst hlen
  obtain ⟨byId, set⟩ := pulses
  simp only at h1 h2
  cases byId with
  | true =>
    simp only [if_true] at h1 h2 ⊢
    unfold iterPulseIds at h1 h2
    split at h1
    · rename_i a b
      simp only [npTake, h5Take] at h1 h2
      obtain rfl := Except.ok.inj h1
      obtain rfl := Except.ok.inj h2
      have hB := headD_nonzero_le (ids.map (fun p => decide (p ≥ b)))
      rw [List.length_map] at hB
      refine ⟨_, slStep_reads ids _ _ (by decide), ?_, ?_⟩
      · rw [Nat.min_eq_left hB]
        exact h5Slice_reads (by decide) hB hn
      · intro q p hq
        have hlt := (List.getElem?_eq_some_iff.1 hq).1
        rw [arange_one_mem, firstAtLeast hlt, Nat.min_eq_left hB, ← Nat.not_le, firstAtLeast hlt]
        simp only [TakenSet]
        refine and_congr_right (fun _ => ?_)
        constructor
        · intro h k' p' hk hp
          exact Nat.lt_of_not_le (fun hb => h ⟨k', p', hk, hp, hb⟩)
        · rintro h ⟨k', p', hk, hp, hb⟩
          have := h k' p' hk hp
          omega
    · rename_i hne
      split at h2
      · exact absurd rfl (hne _ _)
      · refine ⟨_, (listReads hn h1 h2).1, (listReads hn h1 h2).2, ?_⟩
        intro q p hq
        have e : TakenSet ⟨true, set⟩ (fun k p => ids[k]? = some p) q p = AskedIter ⟨true, set⟩ q p := by
          unfold TakenSet
          split
          · rename_i h
            exact absurd h (hne _ _)
          · rfl
        rw [mem_isin, e]
        simp [hq, AskedIter]
  | false =>
    simp only [Bool.false_eq_true, if_false, TakenSet, AskedIter] at h1 h2 ⊢
    unfold iterPulseIndices at h1 h2
    cases set with
    | slice a b s =>
      have hs := hs a b s rfl
      simp only [npTake, h5Take] at h1 h2
      obtain rfl := Except.ok.inj h1
      obtain rfl := Except.ok.inj h2
      refine ⟨_, slStep_reads ids _ _ hs, ?_, ?_⟩
      · rw [show min (min b ids.length) ids.length = min b ids.length by omega]
        exact h5Slice_reads hs (by omega) hn
      · intro q p hq
        have := (List.getElem?_eq_some_iff.1 hq).1
        rw [mem_arange hs, PulseSet.desired, mem_arange hs]
        omega
    | list l =>
      simp only at h1 h2
      refine ⟨_, (listReads hn h1 h2).1, (listReads hn h1 h2).2, ?_⟩
      intro q p hq
      have := (List.getElem?_eq_some_iff.1 hq).1
      simp [PulseSet.desired, this]

theorem zip2_mem {α β γ : Type _} {f : α → R β} {g : α → R γ} : ∀ {qs : List α} {ts : List β} {ps : List γ},
    mapE f qs = .ok ts → mapE g qs = .ok ps → ∀ {t p}, (t, p) ∈ ts.zip ps ↔ ∃ q ∈ qs, f q = .ok t ∧ g q = .ok p := by
  intro qs
  induction qs with
  | nil =>
    intro ts ps h1 h2 t p
    obtain rfl := Except.ok.inj h1
    simp
  | cons q qs ih =>
    intro ts ps h1 h2 t p
    obtain ⟨t0, ts, a1, a2, rfl⟩ := mapE_cons_ok.1 h1
    obtain ⟨p0, ps, b1, b2, rfl⟩ := mapE_cons_ok.1 h2
    simp only [List.zip_cons_cons, List.mem_cons, ih a2 b2, exists_eq_or_imp, a1, b1, Prod.mk.injEq, Except.ok.injEq]
    constructor
    · rintro (⟨rfl, rfl⟩ | h)
      · exact Or.inl ⟨rfl, rfl⟩
      · exact Or.inr h
    · rintro (⟨rfl, rfl⟩ | h)
      · exact Or.inl ⟨rfl, rfl⟩
      · exact Or.inr h

/-- What iterating has for one module and one train. -/
structure TrainSpec (num : V → Nat) (f : FileAccess V) (source key : Str) (ps : Pulses) (t : Nat) (a : PArr V) : Prop where
  nodup : (a.cells.map Prod.fst).Nodup
  cells : ∀ t' p v, ((t', p), v) ∈ a.cells ↔ t' = t ∧ ∃ k, FrameIn num f source key t k p v ∧
    TakenSet ps (fun k p => ∃ v, FrameIn num f source key t k p v) k p
  trains : a.trains = sortedSet (a.cells.map (fun x => x.1.1))
  pulses : a.pulses = sortedSet (a.cells.map (fun x => x.1.2))

theorem iterPulseData_spec {libs : Libs} {num : V → Nat} {source key : Str} {ps : Pulses} {t pos : Nat} {f : FileAccess V}
    {ds : Dataset V} {a : PArr V} (h : iterPulseData libs num source key ps t (f, pos, ds) = .ok a)
    (hpos : f.trainIds[pos]? = some t) (hds : f.dataset (ch! "INSTRUMENT") source key = .ok ds)
    (hv : IndexedField f true source key) (hv' : IndexedField f true source (pulseIdKey key)) (hs : GoodStep ps) :
    TrainSpec num f source key ps t a := by
  have hnd := hv.trains
  obtain ⟨fi1, co1, ds1, ix1, d1, l1, l1', b1⟩ := hv.data
  obtain ⟨fi2, co2, ds2, ix2, d2, l2, l2', b2⟩ := hv'.data
  have g1 : groupName true key = (partition '.' key).1 := rfl
  rw [g1] at ix1
  rw [pulseIdKey_group, g1, ix1] at ix2
  obtain ⟨rfl, rfl⟩ := Prod.mk.inj (Except.ok.inj ix2)
  have s1 : sectionName true = ch! "INSTRUMENT" := rfl
  rw [s1] at d1 d2
  rw [hds] at d1
  obtain rfl := Except.ok.inj d1
  unfold iterPulseData at h
  simp only [ix1] at h
  split at h
  · rename_i first count hfirst hcount
    rw [nth_ok_iff] at hfirst hcount
    have hk : (partition '.' key).1 ++ ch! ".pulseId" = pulseIdKey key := rfl
    rw [hk, d2] at h
    simp only at h
    have bd1 := b1 pos first count hfirst hcount
    have bd2 := b2 pos first count hfirst hcount
    have hids : ∀ q p, ((sl ds2.rows first (first + count)).map num)[q]? = some p ↔
        q < count ∧ ∃ x, ds2.rows[first + q]? = some x ∧ num x = p := by
      intro q p
      rw [List.getElem?_map, Option.map_eq_some_iff]
      constructor
      · rintro ⟨x, hx, rfl⟩
        rw [sl_getElem?] at hx
        split at hx
        · exact ⟨by omega, x, hx, rfl⟩
        · simp at hx
      · rintro ⟨hq, x, hx, rfl⟩
        refine ⟨x, ?_, rfl⟩
        rw [sl_getElem?, if_pos (by omega)]
        exact hx
    have hframe : ∀ k p v, FrameIn num f source key t k p v ↔
        k < count ∧ (∃ x, ds2.rows[first + k]? = some x ∧ num x = p) ∧ ds.rows[first + k]? = some v := by
      intro k p v
      constructor
      · rintro ⟨i, fs, cs, fst, cnt, w1, w2, w3, w4, w5, ⟨pds, w6, x, w7, w8⟩, ds', w9, w10⟩
        rw [ix1] at w2
        obtain ⟨rfl, rfl⟩ := Prod.mk.inj (Except.ok.inj w2)
        have hi : i = pos := by
          have e1 := (List.getElem?_eq_some_iff.1 w1)
          have e2 := (List.getElem?_eq_some_iff.1 hpos)
          obtain ⟨e1, e1'⟩ := e1
          obtain ⟨e2, e2'⟩ := e2
          exact (List.Nodup.getElem_inj_iff hnd).1 (e1'.trans e2'.symm)
        subst hi
        rw [hfirst] at w3; rw [hcount] at w4
        obtain rfl := Option.some.inj w3
        obtain rfl := Option.some.inj w4
        rw [d2] at w6; rw [hds] at w9
        obtain rfl := Except.ok.inj w6
        obtain rfl := Except.ok.inj w9
        exact ⟨w5, ⟨x, w7, w8⟩, w10⟩
      · rintro ⟨w5, w6, w7⟩
        exact ⟨pos, fi1, co1, first, count, hpos, ix1, hfirst, hcount, w5, ⟨ds2, d2, w6⟩, ds, hds, w7⟩
    split at h
    · simp at h
    · rename_i pids hpids
      split at h
      · simp at h
      · rename_i rws hrws
        obtain ⟨qs, m1, m2, hask⟩ := iterPos_reads hs (by rw [List.length_map, sl_length _ _ _ bd2]; omega) bd1 hpids hrws
        have hhas : ∀ k p, ((sl ds2.rows first (first + count)).map num)[k]? = some p ↔ ∃ v, FrameIn num f source key t k p v := by
          intro k p
          rw [hids]
          constructor
          · rintro ⟨hk, hx⟩
            have hk' : first + k < ds.rows.length := by omega
            exact ⟨_, (hframe k p _).2 ⟨hk, hx, List.getElem?_eq_getElem hk'⟩⟩
          · rintro ⟨v, hfr⟩
            exact ⟨((hframe k p v).1 hfr).1, ((hframe k p v).1 hfr).2.1⟩
        have hask := fun q p hq => (hask q p hq).trans (TakenSet_congr hhas q p)
        obtain ⟨hcells, hndl, hrl, htr, hpl, -, -⟩ := guessAxes_ok h
        have hkeys : a.cells.map Prod.fst = pids.map (fun p => (t, p)) := by rw [hcells]; exact zip_map_fst_eq hrl
        refine ⟨by rw [hkeys]; exact hndl, ?_, ?_, ?_⟩
        · intro t' p v
          rw [hcells, List.zip_map_left, List.mem_map]
          have hz : ∀ p v, (p, v) ∈ pids.zip rws ↔ ∃ q ∈ qs, nth ((sl ds2.rows first (first + count)).map num) q = .ok p ∧
              nth ds.rows (first + q) = .ok v := by
            intro p v
            exact zip2_mem m1 m2
          constructor
          · rintro ⟨⟨p', v'⟩, hx, heq⟩
            simp only [Prod.map, Prod.mk.injEq, id] at heq
            obtain ⟨⟨rfl, rfl⟩, rfl⟩ := heq
            obtain ⟨q, hq, e1, e2⟩ := (hz _ _).1 hx
            rw [nth_ok_iff] at e1 e2
            obtain ⟨e3, e4⟩ := (hids q p').1 e1
            exact ⟨rfl, q, (hframe q _ _).2 ⟨e3, e4, e2⟩, (hask q p' e1).1 hq⟩
          · rintro ⟨rfl, k, hfr, hak⟩
            obtain ⟨w1, w2, w3⟩ := (hframe k p v).1 hfr
            have hik := (hids k p).2 ⟨w1, w2⟩
            exact ⟨(p, v), (hz p v).2 ⟨k, (hask k p hik).2 hak, nth_ok_iff.2 hik, nth_ok_iff.2 w3⟩, rfl⟩
        · rw [htr, ← hkeys, List.map_map]; rfl
        · rw [hpl, ← hkeys, List.map_map]; rfl
  · simp at h

end KD
