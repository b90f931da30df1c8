/- Helper lemmas for opening files. -/
import Verif.Lemmas.Strings
import Verif.Spec.File

namespace KD
open Spec

theorem readSource_nil (acc : List Str × List Str) : readSource acc [] = .ok acc := rfl

theorem readSource_control (acc : List Str × List Str) (n : Str) :
    readSource acc (controlId n) = .ok (acc.1 ++ [n], acc.2) := by
  have : partition '/' (controlId n) = (ch! "CONTROL", n) := by
    have := partition_append (sep := '/') (a := ch! "CONTROL") (b := n) (by decide)
    simpa [controlId] using this
  have hne : (controlId n).isEmpty = false := by simp [controlId]
  simp only [readSource, this, hne]
  simp

theorem readSource_instrument (acc : List Str × List Str) {d c : Str} (g : Str) (h : PlainParts d c) :
    readSource acc (instrumentId d c g) = .ok (acc.1, acc.2 ++ [d ++ ':' :: c]) := by
  have h1 : partition '/' (instrumentId d c g) = (ch! "INSTRUMENT", d ++ ':' :: (c ++ '/' :: g)) := by
    have := partition_append (sep := '/') (a := ch! "INSTRUMENT") (b := d ++ ':' :: (c ++ '/' :: g)) (by decide)
    simpa [instrumentId] using this
  have h2 : partition ':' (d ++ ':' :: (c ++ '/' :: g)) = (d, c ++ '/' :: g) := partition_append h.1
  have h3 : partition '/' (c ++ '/' :: g) = (c, g) := partition_append h.2
  have hne : (instrumentId d c g).isEmpty = false := by simp [instrumentId]
  simp only [readSource, h1, h2, h3, hne]
  simp

theorem readSource_bad (acc : List Str × List Str) {id : Str} (hne : id ≠ [])
    (h1 : ¬ HasCategory ch! "INSTRUMENT" id) (h2 : ¬ HasCategory ch! "CONTROL" id) :
    readSource acc id = .error .value := by
  have key : ∀ cat : Str, ¬ HasCategory cat id → (partition '/' id).1 ≠ cat := by
    intro cat hc e
    apply hc
    rcases partition_eq '/' id with h | ⟨h, -⟩
    · right; exact ⟨(partition '/' id).2, by rw [e] at h; exact h⟩
    · left; rw [e] at h; exact h
  have hne' : id.isEmpty = false := by simp [hne]
  simp only [readSource, hne', if_neg (key _ h1), if_neg (key _ h2)]
  simp

theorem readSource_error {acc : List Str × List Str} {id : Str} {e : PyErr} (h : readSource acc id = .error e) :
    e = .value := by
  unfold readSource at h
  split at h
  · simp at h
  · dsimp only at h
    split at h
    · simp at h
    · split at h
      · simp at h
      · simp at h; exact h.symm

theorem controlId_inj {a b : Str} (h : controlId a = controlId b) : a = b := by
  simpa [controlId] using h

theorem controlId_ne_instrumentId (a d c g : Str) : controlId a ≠ instrumentId d c g := by
  simp [controlId, instrumentId]

theorem controlId_ne_nil (a : Str) : controlId a ≠ [] := by simp [controlId]

theorem instrumentId_ne_nil (d c g : Str) : instrumentId d c g ≠ [] := by simp [instrumentId]

theorem instrumentId_inj {d c g d' c' g' : Str} (h : PlainParts d c) (h' : PlainParts d' c')
    (e : instrumentId d c g = instrumentId d' c' g') : d = d' ∧ c = c' ∧ g = g' := by
  have e1 := readSource_instrument ([], []) g h
  simp [instrumentId] at e
  have h2 : partition ':' (d ++ ':' :: (c ++ '/' :: g)) = (d, c ++ '/' :: g) := partition_append h.1
  have h2' : partition ':' (d' ++ ':' :: (c' ++ '/' :: g')) = (d', c' ++ '/' :: g') := partition_append h'.1
  rw [e, h2'] at h2
  simp at h2
  obtain ⟨rfl, h2⟩ := h2
  have h3 : partition '/' (c ++ '/' :: g) = (c, g) := partition_append h.2
  have h3' : partition '/' (c' ++ '/' :: g') = (c', g') := partition_append h'.2
  rw [← h2, h3'] at h3
  simp at h3
  exact ⟨rfl, h3.1.symm, h3.2.symm⟩

theorem foldE_readSource {l : List Str} (hl : ∀ id ∈ l, GoodId id) : ∀ acc : List Str × List Str,
    ∃ r, foldE readSource acc l = .ok r ∧
      (∀ n, n ∈ r.1 ↔ n ∈ acc.1 ∨ controlId n ∈ l) ∧
      (∀ s, s ∈ r.2 ↔ s ∈ acc.2 ∨ ∃ d c g, PlainParts d c ∧ s = d ++ ':' :: c ∧ instrumentId d c g ∈ l) := by
  induction l with
  | nil => intro acc; exact ⟨acc, rfl, by simp, by simp⟩
  | cons id l ih =>
    intro acc
    have ih := ih (fun x hx => hl x (by simp [hx]))
    rcases hl id (by simp) with rfl | ⟨n, rfl⟩ | ⟨d, c, g, hp, rfl⟩
    · obtain ⟨r, h1, h2, h3⟩ := ih acc
      refine ⟨r, by simp [foldE, readSource_nil, h1], ?_, ?_⟩
      · intro n; rw [h2]; simp [controlId_ne_nil]
      · intro s; rw [h3]; simp [instrumentId_ne_nil]
    · obtain ⟨r, h1, h2, h3⟩ := ih (acc.1 ++ [n], acc.2)
      refine ⟨r, by simp [foldE, readSource_control, h1], ?_, ?_⟩
      · intro m; rw [h2]
        simp only [List.mem_append, List.mem_cons, List.not_mem_nil, or_false, or_assoc]
        have : (m = n) ↔ (controlId m = controlId n) := ⟨fun h => by rw [h], controlId_inj⟩
        rw [this]
      · intro s; rw [h3]
        simp only [List.mem_cons, (controlId_ne_instrumentId _ _ _ _).symm, false_or]
    · obtain ⟨r, h1, h2, h3⟩ := ih (acc.1, acc.2 ++ [d ++ ':' :: c])
      refine ⟨r, by simp [foldE, readSource_instrument _ _ hp, h1], ?_, ?_⟩
      · intro m; rw [h2]
        simp [controlId_ne_instrumentId]
      · intro s; rw [h3]
        simp only [List.mem_append, List.mem_cons, List.not_mem_nil, or_false, or_assoc]
        constructor
        · rintro (h | rfl | ⟨d', c', g', h⟩)
          · left; exact h
          · right; exact ⟨d, c, g, hp, rfl, Or.inl rfl⟩
          · right; exact ⟨d', c', g', h.1, h.2.1, Or.inr h.2.2⟩
        · rintro (h | ⟨d', c', g', k1, k2, k3 | k3⟩)
          · left; exact h
          · obtain ⟨rfl, rfl, rfl⟩ := instrumentId_inj k1 hp k3
            right; left; exact k2
          · right; right; exact ⟨d', c', g', k1, k2, k3⟩

theorem foldE_readSource_bad {l : List Str} {id : Str} (hid : id ∈ l) (hne : id ≠ [])
    (h1 : ¬ HasCategory ch! "INSTRUMENT" id) (h2 : ¬ HasCategory ch! "CONTROL" id) :
    ∀ acc : List Str × List Str, foldE readSource acc l = .error .value := by
  induction l with
  | nil => simp at hid
  | cons x l ih =>
    intro acc
    simp only [foldE]
    cases hx : readSource acc x with
    | error e => simp [readSource_error hx]
    | ok acc' =>
      rcases List.mem_cons.1 hid with rfl | hid
      · rw [readSource_bad acc hne h1 h2] at hx; simp at hx
      · simpa using ih hid acc'

theorem sourceIds_eq {V : Type} (h : H5File V) :
    (if formatVersion h = ch! "0.5" then h.sources05 else h.sources10) = sourceIds h := by
  unfold formatVersion sourceIds
  cases h.version <;> simp

theorem init_none_ok {V : Type} {name : Str} {h : H5File V} {f : FileAccess V}
    (hf : FileAccess.init name h none = .ok f) :
    ∃ raw c i, h.trainId = some raw ∧ readDataSources h = .ok (c, i) ∧
      f = ⟨name, raw.filter (fun t => t != 0), c, i, h⟩ := by
  simp only [FileAccess.init] at hf
  cases ht : h.trainId with
  | none => simp [ht, need] at hf
  | some raw =>
    simp only [ht, need] at hf
    cases hr : readDataSources h with
    | error e => simp [hr] at hf
    | ok ci => simp [hr] at hf; exact ⟨raw, ci.1, ci.2, rfl, rfl, hf.symm⟩

/-! ### Keys -/

theorem isPrefixOf_drop {g p : Path} : g.isPrefixOf p = true ↔ ∃ r, p = g ++ r := by
  rw [List.isPrefixOf_iff_prefix]
  constructor
  · rintro ⟨r, rfl⟩; exact ⟨r, rfl⟩
  · rintro ⟨r, rfl⟩; exact ⟨r, rfl⟩

theorem mem_below {V : Type} (d : Dict Path (Dataset V)) (g : Path) (k : Str) :
    k ∈ d.filterMap (fun kv =>
      if g.isPrefixOf kv.1 && kv.1.length > g.length then some (joinCh '/' (kv.1.drop g.length)) else none) ↔
    ∃ r, r ≠ [] ∧ g ++ r ∈ d.keys ∧ k = joinCh '/' r := by
  simp only [List.mem_filterMap, Dict.keys, List.mem_map]
  constructor
  · rintro ⟨kv, hkv, h⟩
    split at h
    · next hc =>
      simp only [Bool.and_eq_true, decide_eq_true_eq] at hc
      obtain ⟨hc1, hc2⟩ := hc
      obtain ⟨r, hr⟩ := isPrefixOf_drop.1 hc1
      refine ⟨r, ?_, ⟨kv, hkv, hr⟩, ?_⟩
      · rintro rfl; simp [hr] at hc2
      · simp [hr] at h; exact h.symm
    · simp at h
  · rintro ⟨r, hr, ⟨kv, hkv, e⟩, rfl⟩
    refine ⟨kv, hkv, ?_⟩
    rw [if_pos]
    · simp [e]
    · simp only [Bool.and_eq_true, decide_eq_true_eq]
      refine ⟨isPrefixOf_drop.2 ⟨r, e⟩, ?_⟩
      rw [e]; simp; exact List.length_pos_of_ne_nil hr

theorem dataset_path (sec source key : Str) :
    h5path (ch! "/" ++ sec ++ ch! "/" ++ source ++ ch! "/" ++ key) =
      h5path sec ++ h5path source ++ h5path key := by
  have e : ch! "/" ++ sec ++ ch! "/" ++ source ++ ch! "/" ++ key =
      '/' :: (sec ++ '/' :: (source ++ '/' :: key)) := by simp
  rw [e, h5path_slash, h5path_append, h5path_append, List.append_assoc]

theorem index_path (source group : Str) :
    h5path (ch! "/INDEX/" ++ source ++ ch! "/" ++ group) =
      ch! "INDEX" :: (h5path source ++ h5path group) := by
  have e : ch! "/INDEX/" ++ source ++ ch! "/" ++ group =
      '/' :: (ch! "INDEX" ++ '/' :: (source ++ '/' :: group)) := by simp
  rw [e, h5path_slash, h5path_append, h5path_append]
  rw [h5path_single (by decide) (by decide)]
  rfl

theorem section_path (sec source : Str) (h : PlainComponent sec) :
    h5path (ch! "/" ++ sec ++ ch! "/" ++ source) = sec :: h5path source := by
  have e : ch! "/" ++ sec ++ ch! "/" ++ source = '/' :: (sec ++ '/' :: source) := by simp
  rw [e, h5path_slash, h5path_append, h5path_single h.2 h.1]
  rfl

theorem getIndex_count {V : Type} {f : FileAccess V} {source group : Str} {ix : IndexGroup}
    {first count : List (BitVec 64)}
    (hix : f.file.index.get? (ch! "INDEX" :: (comps source ++ comps group)) = some ix)
    (hfirst : ix.first = some first) (hcount : ix.count = some count) :
    f.getIndex source group = .ok ((first.take f.trainIds.length).map BitVec.toNat,
      (count.take f.trainIds.length).map BitVec.toNat) := by
  simp only [FileAccess.getIndex, FileAccess.readIndex]
  rw [index_path]
  simp only [comps] at hix
  rw [hix]
  simp only [need, hfirst, hcount]

/-- Elementwise results. -/
theorem zipBroad_eq {α β γ : Type _} {f : α → β → γ} {a : List α} {b : List β} (h : a.length = b.length) :
    zipBroad f a b = .ok (List.zipWith f a b) := by
  unfold zipBroad; rw [if_pos h]

theorem getIndex_old {V : Type} {f : FileAccess V} {source group : Str} {ix : IndexGroup}
    {first last status : List (BitVec 64)}
    (hix : f.file.index.get? (ch! "INDEX" :: (comps source ++ comps group)) = some ix)
    (hfirst : ix.first = some first) (hcount : ix.count = none) (hlast : ix.last = some last)
    (hstatus : ix.status = some status)
    (hl1 : f.trainIds.length ≤ first.length) (hl2 : f.trainIds.length ≤ last.length)
    (hl3 : f.trainIds.length ≤ status.length) :
    f.getIndex source group = .ok ((first.take f.trainIds.length).map BitVec.toNat,
      (List.zipWith (fun n s => n * s)
        (List.zipWith (fun l f => l - f + 1#64) (last.take f.trainIds.length) (first.take f.trainIds.length))
        (status.take f.trainIds.length)).map BitVec.toNat) := by
  simp only [FileAccess.getIndex, FileAccess.readIndex]
  rw [index_path]
  simp only [comps] at hix
  rw [hix]
  simp only [need, hfirst, hcount, hlast, hstatus]
  rw [zipBroad_eq (by simp [List.length_take]; omega)]
  simp only []
  rw [zipBroad_eq (by simp [List.length_take, List.length_zipWith]; omega)]

end KD
