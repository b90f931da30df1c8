/- Properties C01-C06: opening files, reading their index and keys, caches, closing. -/
import Verif.Lemmas.Open
import Verif.Model.Collection

set_option linter.unusedSimpArgs false

namespace KD
open Spec

variable {V : Type}

/-! ### C01 -/

/-- C01. Opening a file gives the non-zero entries of INDEX/trainId, in file order. -/
theorem open_train_ids {name : Str} {h : H5File V} {f : FileAccess V} {raw : List Nat}
    (hf : FileAccess.init name h none = .ok f) (hraw : h.trainId = some raw) :
    f.filename = name ∧ f.file = h ∧ f.trainIds = raw.filter (· ≠ 0) := by
  obtain ⟨raw', c, i, h1, -, rfl⟩ := init_none_ok hf
  rw [hraw] at h1
  obtain rfl := Option.some.inj h1
  refine ⟨rfl, rfl, ?_⟩
  simp only []
  apply List.filter_congr
  intro t _
  by_cases ht : t = 0 <;> simp [ht]

/-- C01. If zeros only pad the end of INDEX/trainId, the n-th train ID of the opened file is the n-th in the file,
and the n-th row of each index read for it is the n-th in the file. -/
theorem open_index_rows {name : Str} {h : H5File V} {f : FileAccess V} {ts : List Nat} {k : Nat}
    {source group : Str} {ix : IndexGroup} {first count : List (BitVec 64)}
    (hf : FileAccess.init name h none = .ok f)
    (hraw : h.trainId = some (ts ++ List.replicate k 0)) (hts : 0 ∉ ts)
    (hix : h.index.get? (ch! "INDEX" :: (comps source ++ comps group)) = some ix)
    (hfirst : ix.first = some first) (hcount : ix.count = some count) :
    f.trainIds = ts ∧ ∃ firsts counts, f.getIndex source group = .ok (firsts, counts) ∧
      ∀ n < ts.length, firsts[n]? = (first[n]?).map BitVec.toNat ∧ counts[n]? = (count[n]?).map BitVec.toNat := by
  obtain ⟨raw, c, i, h1, -, rfl⟩ := init_none_ok hf
  rw [hraw] at h1
  obtain rfl := Option.some.inj h1
  have e : (ts ++ List.replicate k 0).filter (fun t => t != 0) = ts := by
    rw [List.filter_append]
    have h1 : ts.filter (fun t => t != 0) = ts := by
      apply List.filter_eq_self.2
      intro t ht
      have : t ≠ 0 := fun e => hts (e ▸ ht)
      simp [this]
    have h2 : (List.replicate k 0).filter (fun t => t != 0) = [] := by
      apply List.filter_eq_nil_iff.2
      intro t ht
      have := List.eq_of_mem_replicate ht
      simp [this]
    rw [h1, h2, List.append_nil]
  refine ⟨e, _, _, getIndex_count hix hfirst hcount, ?_⟩
  intro n hn
  simp [e, List.getElem?_take, hn]

/-- A file with padding: two trains and two padding zeros. -/
def exFile : H5File Nat where
  trainId := some [1000, 1001, 0, 0]
  version := some (ch! "1.0")
  sources05 := none
  sources10 := some [ch! "CONTROL/S", ch! "INSTRUMENT/D:o/data", []]
  index := [([ch! "INDEX", ch! "S"], ⟨some [0, 1], some [1, 1], none, none⟩),
    ([ch! "INDEX", ch! "D:o", ch! "data"], ⟨some [0, 2, 0, 0], some [2, 1, 0, 0], none, none⟩)]
  groups := []
  datasets := [([ch! "CONTROL", ch! "S", ch! "x", ch! "value"], ⟨[7, 8], [], 0⟩),
    ([ch! "INSTRUMENT", ch! "D:o", ch! "data", ch! "y"], ⟨[10, 11, 12], [], 0⟩)]

/-- The opened file. -/
def exAccess : FileAccess Nat := ⟨ch! "f.h5", [1000, 1001], [ch! "S"], [ch! "D:o"], exFile⟩

example : FileAccess.init (ch! "f.h5") exFile none = .ok exAccess ∧
    exAccess.getIndex (ch! "D:o") (ch! "data") = .ok ([0, 2], [2, 1]) ∧
    exAccess.getKeys (ch! "S") = .ok [ch! "x.value"] ∧ exAccess.getKeys (ch! "D:o") = .ok [ch! "data.y"] := by decide

/-- C01, the last sentence: with a zero before a train ID the rows shift. Train 1001 is described by row 1
of the index (entries 5-6), but the file says it starts at entry 0. -/
theorem open_zero_shifts_index :
    let h := { exFile with
      trainId := some [0, 1001],
      index := [([ch! "INDEX", ch! "D:o", ch! "data"], ⟨some [0, 5], some [5, 2], none, none⟩)] }
    let f : FileAccess Nat := ⟨ch! "f.h5", [1001], [ch! "S"], [ch! "D:o"], h⟩
    FileAccess.init (ch! "f.h5") h none = .ok f ∧
      f.getIndex (ch! "D:o") (ch! "data") = .ok ([0], [5]) := by decide

/-! ### C02 -/

/-- C02. In the oldest format (no count; first, last and status), with every status 0 or 1 and the last entry of each
train satisfying last + 1 = first + n in 64-bit arithmetic, the count of a train is n for status 1 and 0 for status 0.
In particular an empty train with first = 0 has last = 2^64 - 1. -/
theorem open_old_index {f : FileAccess V} {source group : Str} {ix : IndexGroup}
    {first last status : List (BitVec 64)} {ns : List Nat}
    (hix : f.file.index.get? (ch! "INDEX" :: (comps source ++ comps group)) = some ix)
    (hfirst : ix.first = some first) (hcount : ix.count = none) (hlast : ix.last = some last)
    (hstatus : ix.status = some status)
    (hl1 : f.trainIds.length ≤ first.length) (hl2 : f.trainIds.length ≤ last.length)
    (hl3 : f.trainIds.length ≤ status.length)
    (hrow : ∀ i < f.trainIds.length, ∃ a b s n, first[i]? = some a ∧ last[i]? = some b ∧ status[i]? = some s ∧
      ns[i]? = some n ∧ n < 2 ^ 64 ∧ (b.toNat + 1) % 2 ^ 64 = (a.toNat + n) % 2 ^ 64 ∧ (s = 0#64 ∨ s = 1#64)) :
    ∃ firsts counts, f.getIndex source group = .ok (firsts, counts) ∧
      ∀ i < f.trainIds.length, firsts[i]? = (first[i]?).map BitVec.toNat ∧
        (status[i]? = some 1#64 → counts[i]? = ns[i]?) ∧ (status[i]? = some 0#64 → counts[i]? = some 0) := by
  refine ⟨_, _, getIndex_old hix hfirst hcount hlast hstatus hl1 hl2 hl3, ?_⟩
  · intro i hi
    obtain ⟨a, b, s, n, ha, hb, hs, hn, hlt, heq, hs01⟩ := hrow i hi
    refine ⟨by simp [List.getElem?_take, hi], ?_, ?_⟩
    · intro h1
      rw [hs] at h1
      obtain rfl := Option.some.inj h1
      simp only [List.getElem?_map, List.getElem?_zipWith, List.getElem?_take, hi, if_true, ha, hb, hs, hn]
      simp only [Option.map_some, Option.some.injEq]
      have ha' := a.isLt
      have hb' := b.isLt
      simp only [BitVec.mul_one, BitVec.toNat_add, BitVec.toNat_sub]
      simp only [BitVec.toNat_ofNat]
      omega
    · intro h0
      rw [hs] at h0
      obtain rfl := Option.some.inj h0
      simp [List.getElem?_map, List.getElem?_zipWith, List.getElem?_take, hi, ha, hb, hs]

/-- Three trains: 2 entries, none (last wraps around to 2^64 - 1 from first = 0), and one with status 0. -/
example : (FileAccess.mk (ch! "f") [1, 2, 3] [] [ch! "D:o"]
    ({ exFile with index := [([ch! "INDEX", ch! "D:o", ch! "data"],
      ⟨some [0, 0, 0], none, some [1, 0xffffffffffffffff#64, 0], some [1, 1, 0]⟩)] })).getIndex
      (ch! "D:o") (ch! "data") = .ok ([0, 0, 0], [2, 0, 0]) := by decide

/-! ### C03 -/

/-- C03. When all data source IDs are padding, CONTROL/name or INSTRUMENT/device:channel/group, the file opens, and its
control and instrument sources are exactly those named. -/
theorem open_sources {name : Str} {h : H5File V} {raw : List Nat} {ids : List Str}
    (hraw : h.trainId = some raw) (hids : sourceIds h = some ids) (hgood : ∀ id ∈ ids, GoodId id) :
    ∃ f, FileAccess.init name h none = .ok f ∧
      (∀ s, s ∈ f.controlSources ↔ controlId s ∈ ids) ∧
      (∀ s, s ∈ f.instrumentSources ↔
        ∃ device channel group, PlainParts device channel ∧ s = device ++ ch! ":" ++ channel ∧
          instrumentId device channel group ∈ ids) ∧
      f.controlSources.Nodup ∧ f.instrumentSources.Nodup := by
  obtain ⟨r, h1, h2, h3⟩ := foldE_readSource hgood ([], [])
  refine ⟨⟨name, raw.filter (fun t => t != 0), r.1.dedup, r.2.dedup, h⟩, ?_, ?_, ?_, ?_, ?_⟩
  · simp only [FileAccess.init, hraw, need, readDataSources, sourceIds_eq, hids, h1]
  · intro s; simp [h2]
  · intro s; simp [h3]
  · exact List.nodup_dedup _
  · exact List.nodup_dedup _

example : sourceIds exFile = some [controlId (ch! "S"), instrumentId (ch! "D") (ch! "o") (ch! "data"), []] ∧
    PlainParts (ch! "D") (ch! "o") := by
  refine ⟨by decide, ?_⟩
  unfold PlainParts; decide

/-- C03. A data source ID of any other category makes opening fail with ValueError. -/
theorem open_bad_category {name : Str} {h : H5File V} {raw : List Nat} {ids : List Str} {id : Str}
    (hraw : h.trainId = some raw) (hids : sourceIds h = some ids) (hid : id ∈ ids) (hne : id ≠ [])
    (h1 : ¬ HasCategory (ch! "INSTRUMENT") id) (h2 : ¬ HasCategory (ch! "CONTROL") id) :
    FileAccess.init name h none = .error .value := by
  simp only [FileAccess.init, hraw, need, readDataSources, sourceIds_eq, hids,
    foldE_readSource_bad hid hne h1 h2]

example : FileAccess.init (ch! "f.h5") ({ exFile with sources10 := some [ch! "CONTROL/S", ch! "RUN/S"] }) none
    = .error .value := by decide

/-- C03. A file without train IDs or without the metadata is not opened. -/
theorem open_missing_metadata {name : Str} {h : H5File V} (hm : h.trainId = none ∨ sourceIds h = none) :
    FileAccess.init name h none = .error .key := by
  rcases hm with hm | hm
  · simp only [FileAccess.init, hm, need]
  · simp only [FileAccess.init, need, readDataSources, sourceIds_eq, hm]
    cases h.trainId <;> rfl

/-- What opening takes from the run files map is used as it is (see C45 for why that is right). -/
theorem open_cached (name : Str) (h : H5File V) (ci : CacheInfo) :
    FileAccess.init name h (some ci) = .ok ⟨name, ci.trainIds, ci.controlSources, ci.instrumentSources, h⟩ := rfl

/-! ### C04 -/

/-- The section of the file holding a source: CONTROL for control sources, else INSTRUMENT. -/
def FileAccess.sectionOf (f : FileAccess V) (source : Str) : Str :=
  if source ∈ f.controlSources then ch! "CONTROL" else ch! "INSTRUMENT"

/-- C04. The keys of a source are exactly the datasets below its group, with dots for path separators; KeyError
only if the group does not exist. -/
theorem keys_exact {f : FileAccess V} {source : Str} (hs : source ∈ f.controlSources ∨ source ∈ f.instrumentSources) :
    (∀ ks, f.getKeys source = .ok ks → ks.Nodup ∧ ∀ k, k ∈ ks ↔
      ∃ path : Path, path ≠ [] ∧ f.sectionOf source :: (comps source ++ path) ∈ f.file.datasets.keys ∧
        k = replaceCh '/' '.' (joinCh '/' path)) ∧
    (∀ e, f.getKeys source = .error e → e = .key ∧ f.sectionOf source :: comps source ∉ f.file.groups ∧
      ∀ path : Path, path ≠ [] → f.sectionOf source :: (comps source ++ path) ∉ f.file.datasets.keys) := by
  have main : ∀ sec : Str, PlainComponent sec →
      (∀ ks, (match visitDatasets f.file (h5path (ch! "/" ++ sec ++ ch! "/" ++ source)) with
          | .error e => (.error e : R (List Str))
          | .ok names => .ok (names.map (replaceCh '/' '.')).dedup) = .ok ks → ks.Nodup ∧ ∀ k, k ∈ ks ↔
        ∃ path : Path, path ≠ [] ∧ sec :: (comps source ++ path) ∈ f.file.datasets.keys ∧
          k = replaceCh '/' '.' (joinCh '/' path)) ∧
      (∀ e, (match visitDatasets f.file (h5path (ch! "/" ++ sec ++ ch! "/" ++ source)) with
          | .error e => (.error e : R (List Str))
          | .ok names => .ok (names.map (replaceCh '/' '.')).dedup) = .error e →
        e = .key ∧ sec :: comps source ∉ f.file.groups ∧
        ∀ path : Path, path ≠ [] → sec :: (comps source ++ path) ∉ f.file.datasets.keys) := by
    intro sec hsec
    rw [section_path sec source hsec]
    simp only [comps, visitDatasets]
    have hb := mem_below f.file.datasets (sec :: h5path source)
    generalize f.file.datasets.filterMap _ = B at hb
    constructor
    · intro ks h
      split at h
      · simp at h
      · next names hn =>
        split at hn
        · simp at hn
        · simp at hn h
          subst hn; subst h
          refine ⟨List.nodup_dedup _, ?_⟩
          intro k
          simp only [List.mem_dedup, List.mem_map, hb]
          constructor
          · rintro ⟨n, ⟨r, h1, h2, rfl⟩, rfl⟩; exact ⟨r, h1, h2, rfl⟩
          · rintro ⟨r, h1, h2, rfl⟩; exact ⟨_, ⟨r, h1, h2, rfl⟩, rfl⟩
    · intro e h
      split at h
      · next hn =>
        split at hn
        · next hc =>
          simp only [Bool.and_eq_true, List.isEmpty_iff, Bool.not_eq_true', List.contains_eq_mem,
            decide_eq_false_iff_not] at hc
          simp at hn h
          refine ⟨by rw [← h, ← hn], hc.2, ?_⟩
          intro path hp hm
          have := (hb (joinCh '/' path)).2 ⟨path, hp, hm, rfl⟩
          rw [hc.1] at this
          simp at this
        · simp at hn
      · simp at h
  unfold FileAccess.getKeys FileAccess.readKeys FileAccess.sectionOf
  by_cases hc : source ∈ f.controlSources
  · simp only [if_pos hc]
    exact main (ch! "CONTROL") ⟨by decide, by decide⟩
  · have hi : source ∈ f.instrumentSources := by rcases hs with h | h; exact absurd h hc; exact h
    simp only [if_neg hc, if_pos hi]
    exact main (ch! "INSTRUMENT") ⟨by decide, by decide⟩

/-- C04. A source which the file does not have: SourceNameError. -/
theorem keys_unknown_source {f : FileAccess V} {source : Str} (h1 : source ∉ f.controlSources)
    (h2 : source ∉ f.instrumentSources) : f.getKeys source = .error .sourceName := by
  simp [FileAccess.getKeys, FileAccess.readKeys, h1, h2]

/-- C04. Looking up the key listed for a dataset finds that dataset, if no part of its path contains a dot. -/
theorem key_lookup_partial {f : FileAccess V} {sec source : Str} {path : Path} (hsec : PlainComponent sec)
    (hp : ∀ p ∈ path, p ≠ [] ∧ '/' ∉ p ∧ '.' ∉ p) :
    f.dataset sec source (replaceCh '/' '.' (joinCh '/' path)) =
      need (f.file.datasets.get? (sec :: (comps source ++ path))) := by
  unfold FileAccess.dataset
  rw [dataset_path]
  have h1 : replaceCh '.' '/' (replaceCh '/' '.' (joinCh '/' path)) = joinCh '/' path := by
    apply replaceCh_back
    intro h
    rcases mem_joinCh h with h | ⟨p, hp', h⟩
    · exact absurd h (by decide)
    · exact (hp p hp').2.2 h
  rw [h1, h5path_joinCh (fun p h => ⟨(hp p h).1, (hp p h).2.1⟩), h5path_single hsec.2 hsec.1]
  rfl

/-- C04 fails for names with dots: a dataset called `a.b` is listed as key `a.b`, which cannot be read. -/
theorem key_lookup_dot_fails :
    let f : FileAccess Nat := ⟨ch! "f", [1], [ch! "S"], [],
      { exFile with datasets := [([ch! "CONTROL", ch! "S", ch! "a.b"], ⟨[7], [], 0⟩)] }⟩
    f.getKeys (ch! "S") = .ok [ch! "a.b"] ∧
      f.dataset (ch! "CONTROL") (ch! "S") (ch! "a.b") = .error .key := by decide

/-! ### C05, C06 -/

/-- What can happen to one `FileAccess` object: requests, and closing the file. -/
inductive FileOp where
  | index (source group : Str)
  | keys (source : Str)
  | read (sec source key : Str)
  | close

/-- The answer to a request. -/
inductive FileAnswer (V : Type) where
  | index (r : R (List Nat × List Nat))
  | keys (r : R (List Str))
  | read (r : R (Dataset V))
  | closed

/-- One operation, with the caches. -/
def FileOp.run (f : FileAccess V) (s : FileState) : FileOp → FileAnswer V × FileState
  | .index source group => (.index (getIndexCached f s source group).1, (getIndexCached f s source group).2)
  | .keys source => (.keys (getKeysCached f s source).1, (getKeysCached f s source).2)
  | .read sec source key => (.read (datasetCached f s sec source key).1, (datasetCached f s sec source key).2)
  | .close => (.closed, s.close)

/-- The answer a request gets when it is the first one. -/
def FileOp.fresh (f : FileAccess V) : FileOp → FileAnswer V
  | .index source group => .index (f.getIndex source group)
  | .keys source => .keys (f.getKeys source)
  | .read sec source key => .read (f.dataset sec source key)
  | .close => .closed

/-- A sequence of operations and its answers. -/
def runOps (f : FileAccess V) : FileState → List FileOp → List (FileAnswer V)
  | _, [] => []
  | s, op :: ops => (op.run f s).1 :: runOps f (op.run f s).2 ops

/-- The caches hold only what reading the file gives. -/
def FileState.Good (f : FileAccess V) (s : FileState) : Prop :=
  (∀ source group ix, s.indexCache.get? (source, group) = some ix → f.getIndex source group = .ok ix) ∧
  (∀ source ks, s.keysCache.get? source = some ks → f.getKeys source = .ok ks)

theorem run_good {f : FileAccess V} {s : FileState} (hs : s.Good f) (op : FileOp) :
    (op.run f s).1 = op.fresh f ∧ (op.run f s).2.Good f := by
  cases op with
  | close => exact ⟨rfl, hs⟩
  | read sec source key => exact ⟨rfl, hs⟩
  | index source group =>
    simp only [FileOp.run, FileOp.fresh, getIndexCached]
    cases hc : s.indexCache.get? (source, group) with
    | some ix => exact ⟨by rw [hs.1 _ _ _ hc], hs⟩
    | none =>
      cases hr : f.readIndex source group with
      | error e => exact ⟨by simp [FileAccess.getIndex, hr], hs⟩
      | ok ix =>
        refine ⟨by simp [FileAccess.getIndex, hr], ?_, hs.2⟩
        intro source' group' ix' h
        simp only [Dict.get?_set] at h
        split at h
        · next e => simp at e; obtain ⟨rfl, rfl⟩ := e; simp at h; subst h; exact hr
        · exact hs.1 _ _ _ h
  | keys source =>
    simp only [FileOp.run, FileOp.fresh, getKeysCached]
    cases hc : s.keysCache.get? source with
    | some ks => exact ⟨by rw [hs.2 _ _ hc], hs⟩
    | none =>
      by_cases hm : source ∈ f.controlSources ∨ source ∈ f.instrumentSources
      · simp only [if_pos hm]
        cases hr : f.readKeys source with
        | error e => exact ⟨by simp [FileAccess.getKeys, hr], hs⟩
        | ok ks =>
          refine ⟨by simp [FileAccess.getKeys, hr], hs.1, ?_⟩
          intro source' ks' h
          simp only [Dict.get?_set] at h
          split at h
          · next e => subst e; simp at h; subst h; exact hr
          · exact hs.2 _ _ h
      · simp only [if_neg hm]
        push Not at hm
        refine ⟨by rw [keys_unknown_source hm.1 hm.2], hs⟩

/-- C05, C06. Whatever requests were made before on a file, and however often it was closed in between, each request
is answered as if it were the first. -/
theorem requests_independent_of_history (f : FileAccess V) (ops : List FileOp) (isOpen : Bool) :
    runOps f ⟨isOpen, [], []⟩ ops = ops.map (FileOp.fresh f) := by
  have : ∀ s : FileState, s.Good f → runOps f s ops = ops.map (FileOp.fresh f) := by
    induction ops with
    | nil => intro s _; rfl
    | cons op ops ih =>
      intro s hs
      have := run_good hs op
      simp only [runOps, List.map_cons, this.1, ih _ this.2]
  exact this _ ⟨by simp, by simp⟩

/-- C05. A request that failed is not remembered: the caches are unchanged. -/
theorem failed_request_not_cached (f : FileAccess V) (s : FileState) (source group : Str) :
    (∀ e, (getIndexCached f s source group).1 = .error e →
      (getIndexCached f s source group).2.indexCache = s.indexCache) ∧
    (∀ e, (getKeysCached f s source).1 = .error e → (getKeysCached f s source).2.keysCache = s.keysCache) := by
  constructor
  · intro e h
    unfold getIndexCached at h ⊢
    split
    · rfl
    · next hn =>
      simp only [hn] at h
      split
      · rfl
      · next hr => simp [hr] at h
  · intro e h
    unfold getKeysCached at h ⊢
    split
    · rfl
    · next hn =>
      simp only [hn] at h
      split
      · next hm =>
        simp only [if_pos hm] at h
        split
        · rfl
        · next hr => simp [hr] at h
      · rfl

/-- C05. A request that succeeded is remembered, so asking again does not touch the file. -/
theorem request_cached (f : FileAccess V) (s : FileState) (source group : Str) (ix : List Nat × List Nat)
    (h : (getIndexCached f s source group).1 = .ok ix) :
    (getIndexCached f s source group).2.indexCache.get? (source, group) = some ix := by
  unfold getIndexCached at h ⊢
  split
  · next ix' hs => simp [hs] at h; subst h; exact hs
  · next hn =>
    simp only [hn] at h
    split
    · next hr => simp [hr] at h
    · next ix' hr => simp [hr] at h; subst h; simp [Dict.get?_set]

/-- The state after a sequence of operations. -/
def stateAfter (f : FileAccess V) (s : FileState) (ops : List FileOp) : FileState := ops.foldl (fun s op => (op.run f s).2) s

theorem index_kept {f : FileAccess V} (op : FileOp) {s : FileState} {source group : Str} {ix : List Nat × List Nat}
    (hs : s.Good f) (h : s.indexCache.get? (source, group) = some ix) : (op.run f s).2.indexCache.get? (source, group) = some ix := by
  cases op with
  | close => exact h
  | read sec source' key => exact h
  | keys source' =>
    simp only [FileOp.run, getKeysCached]
    repeat' split
    all_goals exact h
  | index source' group' =>
    simp only [FileOp.run, getIndexCached]
    split
    · exact h
    · split
      · exact h
      · rename_i ix' hr
        simp only [Dict.get?_set]
        split
        · rename_i e
          obtain ⟨rfl, rfl⟩ := Prod.mk.inj e
          have := hs.1 _ _ _ h
          unfold FileAccess.getIndex at this
          rw [hr] at this
          rw [Except.ok.inj this]
        · exact h

theorem keys_kept {f : FileAccess V} (op : FileOp) {s : FileState} {source : Str} {ks : List Str}
    (hs : s.Good f) (h : s.keysCache.get? source = some ks) : (op.run f s).2.keysCache.get? source = some ks := by
  cases op with
  | close => exact h
  | read sec source' key => exact h
  | index source' group' =>
    simp only [FileOp.run, getIndexCached]
    repeat' split
    all_goals exact h
  | keys source' =>
    simp only [FileOp.run, getKeysCached]
    split
    · exact h
    · split
      · split
        · exact h
        · rename_i ks' hr
          simp only [Dict.get?_set]
          split
          · rename_i e
            subst e
            have := hs.2 _ _ h
            unfold FileAccess.getKeys at this
            rw [hr] at this
            rw [Except.ok.inj this]
          · exact h
      · exact h

theorem index_remembered {f : FileAccess V} {source group : Str} {ix : List Nat × List Nat} (hix : f.getIndex source group = .ok ix) :
    ∀ (ops : List FileOp) {s : FileState}, FileState.Good f s →
      s.indexCache.get? (source, group) = some ix ∨ FileOp.index source group ∈ ops →
      (stateAfter f s ops).indexCache.get? (source, group) = some ix
  | [], _, _, h => by simpa [stateAfter] using h
  | op :: ops, s, hs, h => by
    refine index_remembered hix ops (run_good hs op).2 ?_
    rcases h with h | h
    · exact .inl (index_kept op hs h)
    · rcases List.mem_cons.1 h with rfl | h
      · left
        refine request_cached f s source group ix ?_
        have := (run_good hs (.index source group)).1
        simp only [FileOp.run, FileOp.fresh] at this
        rw [FileAnswer.index.inj this, hix]
      · exact .inr h

theorem keys_remembered {f : FileAccess V} {source : Str} {ks : List Str} (hks : f.getKeys source = .ok ks) :
    ∀ (ops : List FileOp) {s : FileState}, s.Good f →
      s.keysCache.get? source = some ks ∨ FileOp.keys source ∈ ops →
      (stateAfter f s ops).keysCache.get? source = some ks
  | [], _, _, h => by simpa [stateAfter] using h
  | op :: ops, s, hs, h => by
    refine keys_remembered hks ops (run_good hs op).2 ?_
    rcases h with h | h
    · exact .inl (keys_kept op hs h)
    · rcases List.mem_cons.1 h with rfl | h
      · left
        simp only [FileOp.run, getKeysCached]
        cases hc : s.keysCache.get? source with
        | some ks' =>
          have := hs.2 _ _ hc
          rw [hks] at this
          rw [Except.ok.inj this]
          exact hc
        | none =>
          have hm : source ∈ f.controlSources ∨ source ∈ f.instrumentSources := by
            by_contra hm
            push Not at hm
            rw [keys_unknown_source hm.1 hm.2] at hks
            simp at hks
          unfold FileAccess.getKeys at hks
          simp only [if_pos hm, hks, Dict.get?_set, if_true]
      · exact .inr h

theorem index_asked {f : FileAccess V} {source group : Str} : ∀ (ops : List FileOp) {s : FileState},
    FileOp.index source group ∉ ops → (stateAfter f s ops).indexCache.get? (source, group) = s.indexCache.get? (source, group)
  | [], _, _ => rfl
  | op :: ops, s, h => by
    simp only [List.mem_cons, not_or] at h
    refine (index_asked ops (s := (op.run f s).2) h.2).trans ?_
    cases op with
    | close => rfl
    | read sec source' key => rfl
    | keys source' =>
      simp only [FileOp.run, getKeysCached]
      repeat' split
      all_goals rfl
    | index source' group' =>
      simp only [FileOp.run, getIndexCached]
      repeat' split
      · rfl
      · rfl
      · simp only [Dict.get?_set]
        rw [if_neg]
        intro e
        obtain ⟨rfl, rfl⟩ := Prod.mk.inj e
        exact h.1 rfl

theorem keys_asked {f : FileAccess V} {source : Str} : ∀ (ops : List FileOp) {s : FileState},
    FileOp.keys source ∉ ops → (stateAfter f s ops).keysCache.get? source = s.keysCache.get? source
  | [], _, _ => rfl
  | op :: ops, s, h => by
    simp only [List.mem_cons, not_or] at h
    refine (keys_asked ops (s := (op.run f s).2) h.2).trans ?_
    cases op with
    | close => rfl
    | read sec source' key => rfl
    | index source' group' =>
      simp only [FileOp.run, getIndexCached]
      repeat' split
      all_goals rfl
    | keys source' =>
      simp only [FileOp.run, getKeysCached]
      repeat' split
      · rfl
      · rfl
      · simp only [Dict.get?_set]
        rw [if_neg]
        rintro rfl
        exact h.1 rfl
      · rfl

/-- C05, C06. The file on disk is used only when needed. After `close` it is not open. Reading data opens it. A request for an index or for
keys which succeeded at any time before is answered without opening the file again; the first such request opens it. -/
theorem file_open_after (f : FileAccess V) (ops : List FileOp) (isOpen : Bool) :
    (stateAfter f ⟨isOpen, [], []⟩ (ops ++ [.close])).isOpen = false ∧
    (∀ sec source key, (stateAfter f ⟨isOpen, [], []⟩ (ops ++ [.read sec source key])).isOpen = true) ∧
    (∀ source group ix, f.getIndex source group = .ok ix →
      ((stateAfter f ⟨isOpen, [], []⟩ (ops ++ [.close, .index source group])).isOpen = true ↔ FileOp.index source group ∉ ops)) ∧
    ∀ source ks, f.getKeys source = .ok ks →
      ((stateAfter f ⟨isOpen, [], []⟩ (ops ++ [.close, .keys source])).isOpen = true ↔ FileOp.keys source ∉ ops) := by
  have hg : (⟨isOpen, [], []⟩ : FileState).Good f := ⟨by simp, by simp⟩
  have happ : ∀ more, stateAfter f ⟨isOpen, [], []⟩ (ops ++ more) = stateAfter f (stateAfter f ⟨isOpen, [], []⟩ ops) more := by
    intro more; unfold stateAfter; rw [List.foldl_append]
  have hi : ∀ source group ix, f.getIndex source group = .ok ix → FileOp.index source group ∈ ops →
      (stateAfter f ⟨isOpen, [], []⟩ ops).indexCache.get? (source, group) = some ix := fun _ _ _ h hm => index_remembered h ops hg (.inr hm)
  have hi' : ∀ source group, FileOp.index source group ∉ ops →
      (stateAfter f ⟨isOpen, [], []⟩ ops).indexCache.get? (source, group) = none := fun _ _ hm => index_asked ops hm
  have hk : ∀ source ks, f.getKeys source = .ok ks → FileOp.keys source ∈ ops →
      (stateAfter f ⟨isOpen, [], []⟩ ops).keysCache.get? source = some ks := fun _ _ h hm => keys_remembered h ops hg (.inr hm)
  have hk' : ∀ source, FileOp.keys source ∉ ops →
      (stateAfter f ⟨isOpen, [], []⟩ ops).keysCache.get? source = none := fun _ hm => keys_asked ops hm
  simp only [happ]
  generalize stateAfter f ⟨isOpen, [], []⟩ ops = s at hi hi' hk hk'
  simp only [stateAfter, List.foldl_cons, List.foldl_nil]
  refine ⟨rfl, fun _ _ _ => rfl, fun source group ix h => ?_, fun source ks h => ?_⟩
  · by_cases hm : FileOp.index source group ∈ ops
    · simp [FileOp.run, FileState.close, getIndexCached, hi _ _ _ h hm, hm]
    · have hr := hi' source group hm
      unfold FileAccess.getIndex at h
      simp [FileOp.run, FileState.close, getIndexCached, hr, h, hm, FileState.touch]
  · by_cases hm : FileOp.keys source ∈ ops
    · simp [FileOp.run, FileState.close, getKeysCached, hk _ _ h hm, hm]
    · have hr := hk' source hm
      have hs : source ∈ f.controlSources ∨ source ∈ f.instrumentSources := by
        by_contra hs
        push Not at hs
        rw [keys_unknown_source hs.1 hs.2] at h
        simp at h
      unfold FileAccess.getKeys at h
      simp only [FileOp.run, FileState.close, getKeysCached, hr, h, if_pos hs, FileState.touch]
      simp [hm]

/-- A case: keys of the example are read, then the file is closed and they are asked for again. -/
example : exAccess.getKeys (ch! "S") = .ok [ch! "x.value"] ∧
    (stateAfter exAccess ⟨false, [], []⟩ [.keys (ch! "S"), .close, .keys (ch! "S")]).isOpen = false ∧
    (stateAfter exAccess ⟨false, [], []⟩ [.close, .keys (ch! "S")]).isOpen = true := by decide

/-- C06. Collections opened from paths can be used in a with statement; collections made by selecting sources,
selecting trains or merging cannot. -/
theorem with_block_allowed (opened : List (R (FileAccess V))) (c d : DC V) (sel : SelArg) (tr : TrainRange)
    (order : List (FileAccess V) → List (FileAccess V)) (others : List (DC V)) :
    (DC.fromPaths opened = .ok c → c.enter = .ok c) ∧
    (c.select sel = .ok d → d.enter = .error .generic) ∧
    (c.deselect sel = .ok d → d.enter = .error .generic) ∧
    (c.selectTrains tr = .ok d → d.enter = .error .generic) ∧
    (c.union order others = .ok d → d.enter = .error .generic) := by
  have mk : ∀ {fs : List (FileAccess V)} {s ts b} {x : DC V}, DC.make fs s ts b = .ok x → x.ctxCloses = b := by
    intro fs s ts b x h
    unfold DC.make at h
    dsimp only at h
    split at h
    · simp at h
    · simp at h; rw [← h]
  refine ⟨?_, ?_, ?_, ?_, ?_⟩
  · intro h
    unfold DC.fromPaths at h
    dsimp only at h
    split at h
    · simp at h
    · simp [DC.enter, mk h]
  · intro h
    unfold DC.select at h
    split at h
    · simp at h
    · simp [DC.enter, mk h]
  · intro h
    unfold DC.deselect at h
    split at h
    · simp at h
    · split at h
      · simp at h
      · simp [DC.enter, mk h]
  · intro h
    unfold DC.selectTrains at h
    split at h
    · simp at h
    · simp [DC.enter, mk h]
  · intro h
    unfold DC.union at h
    simp [DC.enter, mk h]

end KD
