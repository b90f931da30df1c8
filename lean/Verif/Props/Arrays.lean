/- Properties C22 (data part), C24-C27, C34: reading arrays. -/
import Verif.Lemmas.Arrays
import Verif.Props.Selection

set_option linter.unusedSimpArgs false

namespace KD
open Spec

variable {V W : Type}

/-! ### C24 -/

/-- C24. For every train, the entries labelled with it are the entries the file has for this train (with the region
of interest taken of each), in order; there are none for trains not selected, or not in any file. -/
theorem get_array_exact {c : DC V} {instr : Bool} {source key : Str} {roi : V → W} {a : LArr W}
    (hc : NoConflict c.files) (hv : ValidIn c instr source key) (h : c.getArray source key roi = .ok a) :
    AllLabelled a ∧
    (∀ t ∈ c.trainIds, ∀ f ∈ c.files, Holds f source → t ∈ f.trainIds →
      labelled a t = (fileEntries f instr source key t).map roi) ∧
    (∀ t, t ∉ c.trainIds ∨ (∀ f ∈ c.files, Holds f source → t ∉ f.trainIds) → labelled a t = []) := by
  obtain ⟨hcf, chunks, hch, hrows, hlab, -, -, -⟩ := getArray_ok h
  have hs : source ∈ c.allSources := (checkField_ok.1 hcf).1
  obtain ⟨chunks', hch', -, hds, -, -, -, hflt, -, -⟩ := sortedChunks_valid hc hv hs
  rw [hch] at hch'
  obtain rfl := Except.ok.inj hch'
  have hrows := hrows (fullChunks_valid hc hv hs hch)
  have hlen : ∀ ch ∈ chunks, (labelsOf ch).length = (rowsOf ch).length := by
    intro ch hm
    obtain ⟨f, -, -, -, ds, w, -, h1, h2⟩ := hds ch hm
    exact (chunkOf_lab h1 h2).2.1
  have hzip : ∀ l : List (Chunk V), (∀ ch ∈ l, (labelsOf ch).length = (rowsOf ch).length) →
      (l.flatMap labelsOf).length = (l.flatMap rowsOf).length ∧
      (l.flatMap labelsOf).zip ((l.flatMap rowsOf).map roi) = (l.flatMap lab).map (Prod.map id roi) := by
    intro l
    induction l with
    | nil => intro _; simp
    | cons ch l ih =>
      intro hl
      obtain ⟨i1, i2⟩ := ih (fun x hx => hl x (by simp [hx]))
      have h0 := hl ch (by simp)
      simp only [List.flatMap_cons, List.length_append, List.map_append]
      refine ⟨by omega, ?_⟩
      rw [List.zip_append (by simpa using h0), i2]
      congr 1
      unfold lab
      rw [List.zip_map_right]
  obtain ⟨z1, z2⟩ := hzip chunks hlen
  have hlt : ∀ t, labelled a t = (((chunks.flatMap lab).filter (fun x => x.1 = t)).map Prod.snd).map roi := by
    intro t
    unfold labelled
    rw [hrows, hlab, z2, List.filter_map, List.map_map, List.map_map]
    rfl
  refine ⟨?_, fun t ht f hf hh htf => ?_, fun t ht => ?_⟩
  · unfold AllLabelled; rw [hlab, hrows, List.length_map, z1]
  · rw [hlt, hflt, sourceIndex_flatMap hc hf hh htf]
    · simp [ht]
    · intro f' hf'; simp [fileEntries_notMem hf']
  · rw [hlt, hflt]
    rw [List.flatMap_eq_nil_iff.2]
    · rfl
    · intro f hf
      rcases ht with ht | ht
      · simp [ht]
      · rw [fileEntries_notMem (ht f (mem_sourceIndex.1 hf).1 (mem_sourceIndex.1 hf).2)]
        simp

/-! ### C27 -/

/-- Two files with the source disagree on the shape of the entries or on the data type. -/
def Mismatch (c : DC V) (instr : Bool) (source key : Str) : Prop :=
  ∃ f ∈ c.files, ∃ g ∈ c.files, Holds f source ∧ Holds g source ∧ ∃ d e,
    f.dataset (sectionName instr) source key = .ok d ∧ g.dataset (sectionName instr) source key = .ok e ∧
    (d.rowShape ≠ e.rowShape ∨ d.dtype ≠ e.dtype)

theorem dedup_length_le_one {α : Type _} [DecidableEq α] {l : List α} : l.dedup.length > 1 ↔ ∃ a ∈ l, ∃ b ∈ l, a ≠ b := by
  constructor
  · intro h
    match hd : l.dedup with
    | [] => rw [hd] at h; simp at h
    | [x] => rw [hd] at h; simp at h
    | x :: y :: r =>
      have hn : (x :: y :: r).Nodup := hd ▸ List.nodup_dedup l
      refine ⟨x, List.mem_dedup.1 (hd ▸ by simp), y, List.mem_dedup.1 (hd ▸ by simp), ?_⟩
      rw [List.nodup_cons] at hn
      rintro rfl
      exact hn.1 (by simp)
  · rintro ⟨a, ha, b, hb, hab⟩
    match hd : l.dedup with
    | [] => rw [← List.mem_dedup, hd] at ha; simp at ha
    | [x] =>
      rw [← List.mem_dedup, hd] at ha hb
      simp at ha hb
      exact absurd (ha.trans hb.symm) hab
    | x :: y :: r => simp

/-- When `get_array` raises an exception, from what is known of the chunks. -/
theorem get_array_mismatch_of {c : DC V} {instr : Bool} {source key : Str} (roi : V → W) (ha : Available c source key)
    {chunks : List (Chunk V)} (hch : c.sortedChunks source key = .ok chunks)
    (hds : ∀ ch ∈ chunks, ∃ f ∈ c.files, Holds f source ∧ ch.file = f ∧ ∃ ds w,
      f.dataset (sectionName instr) source key = .ok ds ∧ ch.dataset = .ok ds ∧ ChunkOf f source key ds ch w)
    (hfiles : ∀ f ∈ c.files, Holds f source → ∃ ch ∈ chunks, ch.file = f) :
    (Mismatch c instr source key → c.getArray source key roi = .error .generic) ∧
    (¬ Mismatch c instr source key → ∃ a, c.getArray source key roi = .ok a ∧
      ∀ f ∈ c.files, Holds f source → ∃ d, f.dataset (sectionName instr) source key = .ok d ∧
        a.rowShape = d.rowShape ∧ a.dtype = d.dtype) := by
  have hcf := checkField_ok.2 ha
  have hch2 : ∃ cs, c.findDataChunks source key = .ok cs ∧ sortBy Chunk.sortKey cs = chunks := by
    unfold DC.sortedChunks at hch
    cases hcs : c.findDataChunks source key with
    | error e => simp [hcs] at hch
    | ok cs => simp [hcs] at hch; exact ⟨cs, rfl, hch⟩
  obtain ⟨cs, hcs, hsort⟩ := hch2
  obtain ⟨dss, hdss⟩ := mapE_exists_ok (f := Chunk.dataset) (l := chunks) (fun ch hm => by
    obtain ⟨f, -, -, -, ds, w, -, h1, -⟩ := hds ch hm
    exact ⟨ds, h1⟩)
  have hmem : ∀ ds, ds ∈ dss ↔ ∃ f ∈ c.files, Holds f source ∧ f.dataset (sectionName instr) source key = .ok ds := by
    intro ds
    rw [mapE_mem hdss]
    constructor
    · rintro ⟨ch, hm, he⟩
      obtain ⟨f, h1, h2, -, ds', w, h3, h4, -⟩ := hds ch hm
      rw [he] at h4
      obtain rfl := Except.ok.inj h4
      exact ⟨f, h1, h2, h3⟩
    · rintro ⟨f, h1, h2, h3⟩
      obtain ⟨ch, hm, hf⟩ := hfiles f h1 h2
      obtain ⟨f', -, -, e, ds', w, h4, h5, -⟩ := hds ch hm
      rw [hf] at e; subst e
      rw [h3] at h4
      obtain rfl := Except.ok.inj h4
      exact ⟨ch, hm, h5⟩
  have hmis : Mismatch c instr source key ↔
      (dss.map Dataset.rowShape).dedup.length > 1 ∨ (dss.map Dataset.dtype).dedup.length > 1 := by
    rw [dedup_length_le_one, dedup_length_le_one]
    constructor
    · rintro ⟨f, hf, g, hg, h1, h2, d, e, h3, h4, h5 | h5⟩
      · exact Or.inl ⟨_, List.mem_map.2 ⟨d, (hmem d).2 ⟨f, hf, h1, h3⟩, rfl⟩, _,
          List.mem_map.2 ⟨e, (hmem e).2 ⟨g, hg, h2, h4⟩, rfl⟩, h5⟩
      · exact Or.inr ⟨_, List.mem_map.2 ⟨d, (hmem d).2 ⟨f, hf, h1, h3⟩, rfl⟩, _,
          List.mem_map.2 ⟨e, (hmem e).2 ⟨g, hg, h2, h4⟩, rfl⟩, h5⟩
    · rintro (⟨a, ha, b, hb, hab⟩ | ⟨a, ha, b, hb, hab⟩)
      · obtain ⟨d, hd, rfl⟩ := List.mem_map.1 ha
        obtain ⟨e, he, rfl⟩ := List.mem_map.1 hb
        obtain ⟨f, hf, h1, h3⟩ := (hmem d).1 hd
        obtain ⟨g, hg, h2, h4⟩ := (hmem e).1 he
        exact ⟨f, hf, g, hg, h1, h2, d, e, h3, h4, Or.inl hab⟩
      · obtain ⟨d, hd, rfl⟩ := List.mem_map.1 ha
        obtain ⟨e, he, rfl⟩ := List.mem_map.1 hb
        obtain ⟨f, hf, h1, h3⟩ := (hmem d).1 hd
        obtain ⟨g, hg, h2, h4⟩ := (hmem e).1 he
        exact ⟨f, hf, g, hg, h1, h2, d, e, h3, h4, Or.inr hab⟩
  constructor
  · intro hm
    unfold DC.getArray
    simp only [hcf, hcs, hsort, hdss]
    rcases hmis.1 hm with h | h
    · rw [if_pos h]
    · by_cases h' : (dss.map Dataset.rowShape).dedup.length > 1
      · rw [if_pos h']
      · rw [if_neg h', if_pos h]
  · intro hm
    have hno := not_or.1 (mt hmis.2 hm)
    obtain ⟨parts, hparts⟩ := mapE_exists_ok (f := readChunk roi) (l := chunks) (fun ch hm => by
      obtain ⟨f, -, -, -, ds, w, -, h1, h2⟩ := hds ch hm
      have hl := (chunkOf_lab h1 h2).2.2
      unfold readChunk
      simp only [rowsOf, h1] at hl
      simp only [h5Fill, h1, sl_eq_slice, List.length_map, hl, if_true]
      split
      · exact ⟨_, rfl⟩
      · exact ⟨_, rfl⟩)
    obtain ⟨hsk, f0, hf0, hh0⟩ := mem_allSources.1 ha.1
    obtain ⟨ch0, hm0, hcf0⟩ := hfiles f0 hf0 hh0
    obtain ⟨f0', -, -, e0, d0, w0, hd0, -, -⟩ := hds ch0 hm0
    rw [hcf0] at e0; subst e0
    have hd0m : d0 ∈ dss := (hmem d0).2 ⟨f0, hf0, hh0, hd0⟩
    have hd0s : d0.rowShape ∈ (dss.map Dataset.rowShape).dedup := List.mem_dedup.2 (List.mem_map.2 ⟨d0, hd0m, rfl⟩)
    have hd0t : d0.dtype ∈ (dss.map Dataset.dtype).dedup := List.mem_dedup.2 (List.mem_map.2 ⟨d0, hd0m, rfl⟩)
    have : ∃ a, c.getArray source key roi = .ok a := by
      unfold DC.getArray
      simp only [hcf, hcs, hsort, hdss, if_neg hno.1, if_neg hno.2, hparts]
      cases hs1 : (dss.map Dataset.rowShape).dedup with
      | nil => rw [hs1] at hd0s; simp at hd0s
      | cons shape shapes =>
        cases hs2 : (dss.map Dataset.dtype).dedup with
        | nil => rw [hs2] at hd0t; simp at hd0t
        | cons dtype dtypes => exact ⟨_, rfl⟩
    obtain ⟨a, ha⟩ := this
    refine ⟨a, ha, fun f hf hh => ?_⟩
    obtain ⟨-, chunks', h1, -, -, -, h2, -⟩ := getArray_ok ha
    rw [hch] at h1
    obtain rfl := Except.ok.inj h1
    obtain ⟨ch, hm, hcf⟩ := hfiles f hf hh
    obtain ⟨f', -, -, e, ds', w, h4, h5, -⟩ := hds ch hm
    rw [hcf] at e; subst e
    obtain ⟨ds, h6, h7, h8⟩ := h2 ch hm
    rw [h6] at h5
    obtain rfl := Except.ok.inj h5
    exact ⟨_, h4, h7.symm, h8.symm⟩

/-- C27. For an available and valid field, `get_array` raises an exception exactly when two files disagree on
the shape of entries or the data type, whether they have selected trains or not. Otherwise it gives an array, with
the shape and type of the files. -/
theorem get_array_refuses_mismatch {c : DC V} {instr : Bool} {source key : Str} (roi : V → W)
    (hc : NoConflict c.files) (hv : ValidIn c instr source key) (ha : Available c source key) :
    (Mismatch c instr source key → c.getArray source key roi = .error .generic) ∧
    (¬ Mismatch c instr source key → ∃ a, c.getArray source key roi = .ok a ∧
      ∀ f ∈ c.files, Holds f source → ∃ d, f.dataset (sectionName instr) source key = .ok d ∧
        a.rowShape = d.rowShape ∧ a.dtype = d.dtype) := by
  obtain ⟨chunks, hch, -, hds, hfiles, -, -, hflt, -, -⟩ := sortedChunks_valid hc hv ha.1
  exact get_array_mismatch_of roi ha hch hds hfiles

/-! ### C25 -/

theorem npRepeat_pairwise {l : List Nat} (h : l.Pairwise (· < ·)) : ∀ ns : List Nat, (npRepeat l ns).Pairwise (· ≤ ·) := by
  induction l with
  | nil => intro ns; simp [npRepeat]
  | cons a l ih =>
    intro ns
    rw [List.pairwise_cons] at h
    cases ns with
    | nil => simp [npRepeat]
    | cons n ns =>
      simp only [npRepeat]
      rw [List.pairwise_append]
      refine ⟨?_, ih h.2 ns, ?_⟩
      · exact List.pairwise_replicate.2 (Or.inr (Nat.le_refl a))
      · intro x hx y hy
        rw [List.mem_replicate] at hx
        rw [hx.2]
        exact Nat.le_of_lt (h.1 y (npRepeat_mem hy))

/-- C25, partial: the labels never decrease if the ranges of trains of the files do not interleave. Missing from the
full property: files with interleaved trains, for which it is false (`get_array_out_of_order`). -/
theorem get_array_in_order_partial {c : DC V} {instr : Bool} {source key : Str} {roi : V → W} {a : LArr W}
    (hc : NoConflict c.files) (hv : ValidIn c instr source key)
    (hsep : ∀ f ∈ c.files, ∀ g ∈ c.files, Holds f source → Holds g source → f ≠ g →
      (∀ t ∈ f.trainIds, ∀ u ∈ g.trainIds, t < u) ∨ (∀ t ∈ f.trainIds, ∀ u ∈ g.trainIds, u < t))
    (h : c.getArray source key roi = .ok a) : (a.coords.getD []).Pairwise (· ≤ ·) := by
  obtain ⟨hcf, chunks, hch, -, hlab, -, -, -⟩ := getArray_ok h
  have hs : source ∈ c.allSources := (checkField_ok.1 hcf).1
  obtain ⟨chunks', hch', hsort, hds, -, hdis, hsub, -, hinc, hsame⟩ := sortedChunks_valid hc hv hs
  rw [hch] at hch'
  obtain rfl := Except.ok.inj hch'
  rw [hlab, List.pairwise_flatMap]
  refine ⟨fun ch hm => npRepeat_pairwise (hinc ch hm) _, ?_⟩
  have hall := hsort.and hsame
  rw [List.pairwise_iff_forall_sublist] at hall ⊢
  intro a b hab t hta u hub
  obtain ⟨h1, h2⟩ := hall hab
  have ha : a ∈ chunks := hab.subset (by simp)
  have hb : b ∈ chunks := hab.subset (by simp)
  have hta := npRepeat_mem hta
  have hub := npRepeat_mem hub
  have hs : Separated a b := by
    by_cases e : a.file = b.file
    · exact h2 e
    · obtain ⟨f, hf1, hf2, hf3, -⟩ := hds a ha
      obtain ⟨g, hg1, hg2, hg3, -⟩ := hds b hb
      rw [hf3, hg3] at e
      have ha2 := fun t ht => (hsub a ha t ht).2
      have hb2 := fun t ht => (hsub b hb t ht).2
      rw [hf3] at ha2
      rw [hg3] at hb2
      rcases hsep f hf1 g hg1 hf2 hg2 e with h | h
      · exact Or.inl (fun t ht u hu => h t (ha2 t ht) u (hb2 u hu))
      · exact Or.inr (fun t ht u hu => h t (ha2 t ht) u (hb2 u hu))
  rcases hs with hs | hs
  · exact Nat.le_of_lt (hs t hta u hub)
  · exfalso
    unfold Chunk.sortKey at h1
    cases ea : a.trainIds with
    | nil => rw [ea] at hta; simp at hta
    | cons ta la =>
      cases eb : b.trainIds with
      | nil => rw [eb] at hub; simp at hub
      | cons tb lb =>
        rw [ea, eb] at h1
        have := hs ta (by simp [ea]) tb (by simp [eb])
        simp at h1
        omega


/-- A file with the instrument data `D:o`, `data.y`. -/
def exInst (name : Str) (tids firsts counts rows : List Nat) : FileAccess Nat :=
  ⟨name, tids, [], [ch! "D:o"],
    { trainId := some tids, version := some (ch! "1.0"), sources05 := none,
      sources10 := some [ch! "INSTRUMENT/D:o/data"],
      index := [([ch! "INDEX", ch! "D:o", ch! "data"],
        ⟨some (firsts.map (BitVec.ofNat 64)), some (counts.map (BitVec.ofNat 64)), none, none⟩)],
      groups := [], datasets := [([ch! "INSTRUMENT", ch! "D:o", ch! "data", ch! "y"], ⟨rows, [], 0⟩)] }⟩

/-- Two files with interleaved trains. -/
def exArr : DC Nat where
  files := [exInst (ch! "a") [1, 3] [0, 2] [2, 1] [10, 11, 12], exInst (ch! "b") [2, 4] [0, 1] [1, 0] [20]]
  selection := [(ch! "D:o", none)]
  trainIds := [1, 2, 3]
  ctxCloses := true

/-- C25 is false: with trains 1 and 3 in one file and 2 in another, the labels are 1, 1, 3, 2. -/
theorem get_array_out_of_order :
    exArr.getArray (ch! "D:o") (ch! "data.y") id = .ok ⟨[10, 11, 12, 20], some [1, 1, 3, 2], [], 0⟩ := by decide

theorem exInst_valid {name : Str} {tids firsts counts rows : List Nat} (h1 : tids.Pairwise (· < ·)) (h2 : tids ≠ [])
    (h3 : firsts.length = tids.length) (h4 : counts.length = tids.length) (h5 : Contiguous firsts counts)
    (h6 : InBounds firsts counts rows.length) (h7 : ∀ n ∈ firsts, n < 2 ^ 64) (h8 : ∀ n ∈ counts, n < 2 ^ 64) :
    ValidField (exInst name tids firsts counts rows) true (ch! "D:o") (ch! "data.y") := by
  refine ⟨h1, h2, ?_, firsts, counts, ⟨rows, [], 0⟩, ?_, ?_, h3, h4, h5, h6⟩
  · simp [exInst]
  · have hp : h5path (ch! "/INDEX/" ++ ch! "D:o" ++ ch! "/" ++ groupName true (ch! "data.y"))
        = [ch! "INDEX", ch! "D:o", ch! "data"] := by decide
    have e : ∀ l : List Nat, (∀ n ∈ l, n < 2 ^ 64) → (l.map (BitVec.ofNat 64)).map BitVec.toNat = l := by
      intro l hl
      rw [List.map_map]
      conv_rhs => rw [← List.map_id l]
      apply List.map_congr_left
      intro n hn
      simp only [Function.comp, BitVec.toNat_ofNat, id]
      exact Nat.mod_eq_of_lt (hl n hn)
    unfold FileAccess.getIndex FileAccess.readIndex
    dsimp only
    rw [hp]
    simp only [exInst, Dict.get?, if_true, need]
    rw [List.take_of_length_le (by simp [h3]), List.take_of_length_le (by simp [h4]), e _ h7, e _ h8]
  · unfold FileAccess.dataset
    have hp : h5path (ch! "/" ++ sectionName true ++ ch! "/" ++ ch! "D:o" ++ ch! "/" ++ replaceCh '.' '/' (ch! "data.y"))
        = [ch! "INSTRUMENT", ch! "D:o", ch! "data", ch! "y"] := by decide
    rw [hp]
    simp only [exInst, Dict.get?, if_true, need]

theorem contiguous_cons {a n b : Nat} {l ns : List Nat} (h : b = a + n) (hl : Contiguous (b :: l) ns) :
    Contiguous (a :: b :: l) (n :: ns) := by
  intro i x m y h1 h2 h3
  cases i with
  | zero => simp at h1 h2 h3; omega
  | succ i => exact hl i x m y (by simpa using h1) (by simpa using h2) (by simpa using h3)

theorem contiguous_one (a n : Nat) : Contiguous [a] [n] := by
  intro i x m y h1 h2 h3; simp at h3

theorem inBounds_cons {a n size : Nat} {l ns : List Nat} (h : a + n ≤ size) (hl : InBounds l ns size) :
    InBounds (a :: l) (n :: ns) size := by
  intro i x m h1 h2
  cases i with
  | zero => simp at h1 h2; omega
  | succ i => exact hl i x m (by simpa using h1) (by simpa using h2)

theorem inBounds_nil (size : Nat) : InBounds [] [] size := by
  intro i x m h1 h2; simp at h1

/-- The hypotheses of C24 hold for these files. -/
theorem exArr_valid : NoConflict exArr.files ∧ ValidIn exArr true (ch! "D:o") (ch! "data.y") := by
  refine ⟨hasConflicts_false.1 (by decide), ?_⟩
  intro f hf _
  rcases List.mem_cons.1 hf with rfl | hf
  · exact exInst_valid (by decide) (by decide) rfl rfl (contiguous_cons rfl (contiguous_one _ _))
      (inBounds_cons (by decide) (inBounds_cons (by decide) (inBounds_nil _))) (by decide) (by decide)
  · obtain rfl := List.mem_singleton.1 hf
    exact exInst_valid (by decide) (by decide) rfl rfl (contiguous_cons rfl (contiguous_one _ _))
      (inBounds_cons (by decide) (inBounds_cons (by decide) (inBounds_nil _))) (by decide) (by decide)

example : labelled (⟨[10, 11, 12, 20], some [1, 1, 3, 2], [], 0⟩ : LArr Nat) 1 = [10, 11] ∧
    fileEntries (exInst (ch! "a") [1, 3] [0, 2] [2, 1] [10, 11, 12]) true (ch! "D:o") (ch! "data.y") 1 = [10, 11] := by
  decide

/-- A file without trains: `get_array` fails with IndexError, because looking for contiguous regions reads the first
element of an empty array. -/
theorem get_array_no_trains : (DC.make [exInst (ch! "a") [] [] [] []] none none true).map (fun c =>
    c.getArray (ch! "D:o") (ch! "data.y") id) = .ok (.error .index) := by decide

/-! ### C34 -/

theorem daskChunkAux_spec (rowBytes limit : Nat) : ∀ fuel d, d ≤ fuel + 1 → 1 ≤ d →
    1 ≤ daskChunkAux rowBytes limit fuel d ∧ daskChunkAux rowBytes limit fuel d ≤ d ∧
    (daskChunkAux rowBytes limit fuel d * rowBytes ≤ limit ∨ daskChunkAux rowBytes limit fuel d = 1) ∧
    (∃ k, daskChunkAux rowBytes limit fuel d = d / 2 ^ k) ∧
    (d * rowBytes ≤ limit → daskChunkAux rowBytes limit fuel d = d) := by
  intro fuel
  induction fuel with
  | zero =>
    intro d h1 h2
    have : d = 1 := by omega
    subst this
    exact ⟨by simp [daskChunkAux], by simp [daskChunkAux], Or.inr rfl, ⟨0, by simp [daskChunkAux]⟩, fun _ => rfl⟩
  | succ fuel ih =>
    intro d h1 h2
    simp only [daskChunkAux]
    split
    · next h =>
      obtain ⟨i1, i2, i3, ⟨k, i4⟩, -⟩ := ih (d / 2) (by omega) (by omega)
      refine ⟨i1, by omega, i3, ⟨k + 1, ?_⟩, fun h' => by omega⟩
      rw [i4, Nat.div_div_eq_div_mul, Nat.pow_succ, Nat.mul_comm]
    · next h =>
      refine ⟨h2, Nat.le_refl d, ?_, ⟨0, by simp⟩, fun _ => rfl⟩
      by_cases h3 : d * rowBytes ≤ limit
      · exact Or.inl h3
      · exact Or.inr (by omega)

/-- C34. Choosing the chunk size ends, with chunks of at least one entry and at most 2 GiB, or one entry if a
single entry is larger than that; it is not reduced if everything fits. -/
theorem dask_chunk_size (rowBytes dim0 : Nat) (h : 1 ≤ dim0) :
    1 ≤ daskChunk rowBytes dim0 ∧ daskChunk rowBytes dim0 ≤ dim0 ∧
    (daskChunk rowBytes dim0 * rowBytes ≤ 2 * 1024 ^ 3 ∨ daskChunk rowBytes dim0 = 1) ∧
    (dim0 * rowBytes ≤ 2 * 1024 ^ 3 → daskChunk rowBytes dim0 = dim0) := by
  obtain ⟨h1, h2, h3, -, h5⟩ := daskChunkAux_spec rowBytes (2 * 1024 ^ 3) dim0 dim0 (by omega) h
  exact ⟨h1, h2, h3, h5⟩

example : daskChunk (1024 ^ 3) 7 = 1 ∧ daskChunk (1024 ^ 2) 5000 = 1250 := by decide


/-! ### C26 -/

/-- Not one of the two exceptions for unknown fields. -/
def NotFieldErr (e : PyErr) : Prop := e ≠ .sourceName ∧ e ≠ .propertyName

theorem mapE_error_mem {α β : Type _} {f : α → R β} {l : List α} {e : PyErr} (h : mapE f l = .error e) :
    ∃ a ∈ l, f a = .error e := by
  induction l with
  | nil => simp [mapE] at h
  | cons a l ih =>
    simp only [mapE] at h
    cases ha : f a with
    | error e' => simp only [ha, Except.error.injEq] at h; subst h; exact ⟨a, by simp, ha⟩
    | ok b =>
      simp only [ha] at h
      cases hl : mapE f l with
      | error e' =>
        simp only [hl, Except.error.injEq] at h; subst h
        obtain ⟨x, hx, hx2⟩ := ih hl
        exact ⟨x, by simp [hx], hx2⟩
      | ok bs => simp [hl] at h

theorem need_error {α : Type _} {x : Option α} {e : PyErr} (h : need x = .error e) : e = .key := by
  unfold need at h; split at h <;> simp_all

theorem zipSame_error {α β γ : Type _} {f : α → β → γ} {a : List α} {b : List β} {e : PyErr}
    (h : zipSame f a b = .error e) : e = .value := by
  unfold zipSame at h; split at h <;> simp_all

theorem zipBroad_error {α β γ : Type _} {f : α → β → γ} {a : List α} {b : List β} {e : PyErr}
    (h : zipBroad f a b = .error e) : e = .value := by
  unfold zipBroad at h
  split at h
  · simp at h
  · split at h <;> simp_all

theorem getIndex_error {f : FileAccess V} {source group : Str} {e : PyErr} (h : f.getIndex source group = .error e) :
    NotFieldErr e := by
  unfold FileAccess.getIndex FileAccess.readIndex at h
  dsimp only at h
  split at h
  · next h' => have := need_error h'; simp at h; subst h; subst this; exact ⟨by simp, by simp⟩
  split at h
  · next h' => have := need_error h'; simp at h; subst h; subst this; exact ⟨by simp, by simp⟩
  split at h
  · simp at h
  split at h
  · split at h
    · next h' => have := zipBroad_error h'; simp at h; subst h; subst this; exact ⟨by simp, by simp⟩
    split at h
    · next h' => have := zipBroad_error h'; simp at h; subst h; subst this; exact ⟨by simp, by simp⟩
    simp at h
  · simp at h; subst h; exact ⟨by simp, by simp⟩

theorem nth_error {α : Type _} {l : List α} {i : Nat} {e : PyErr} (h : nth l i = .error e) : e = .index := by
  unfold nth at h; split at h <;> simp_all

theorem reshape2_error {l : List Nat} {e : PyErr} (h : reshape2 l = .error e) : e = .value := by
  match l with
  | [] => simp [reshape2] at h
  | [_] => simp [reshape2] at h; exact h.symm
  | a :: b :: l =>
    simp only [reshape2] at h
    split at h
    · next h' => simp at h; subst h; exact reshape2_error h'
    · simp at h

theorem dataset_error {f : FileAccess V} {sec source key : Str} {e : PyErr} (h : f.dataset sec source key = .error e) :
    e = .key := need_error h

theorem chunksOfFile_error {c : DC V} {source key : Str} {f : FileAccess V} {e : PyErr}
    (h : c.chunksOfFile source key f = .error e) : NotFieldErr e := by
  unfold DC.chunksOfFile at h
  split at h
  · next h' => simp at h; subst h; exact getIndex_error h'
  dsimp only at h
  split at h
  · next h' =>
    simp at h; subst h
    unfold contiguousRegions at h'
    dsimp only at h'
    split at h'
    · have := reshape2_error h'; subst this; exact ⟨by simp, by simp⟩
    · simp at h'; subst h'; exact ⟨by simp, by simp⟩
  split at h
  · next h' =>
    simp at h; subst h
    obtain ⟨r, -, hr⟩ := mapE_error_mem h'
    unfold regionChunk at hr
    split at hr
    · next h'' => simp at hr; subst hr; have := nth_error h''; subst this; exact ⟨by simp, by simp⟩
    · simp at hr
  split at h <;> simp at h

theorem regionChunk_file {f : FileAccess V} {source key : Str} {firsts counts : List Nat} {r : Nat × Nat} {ch : Chunk V}
    (h : regionChunk f source key firsts counts r = .ok ch) : ch.file = f ∧ ch.source = source := by
  unfold regionChunk at h
  split at h
  · simp at h
  · simp at h; subst h; exact ⟨rfl, rfl⟩

theorem chunksOfFile_file {c : DC V} {source key : Str} {f : FileAccess V} {chs : List (Chunk V)}
    (h : c.chunksOfFile source key f = .ok chs) : ∀ ch ∈ chs, ch.file = f ∧ ch.source = source := by
  unfold DC.chunksOfFile at h
  split at h
  · simp at h
  dsimp only at h
  split at h
  · simp at h
  split at h
  · simp at h
  next h' =>
  split at h
  · simp at h; subst h; simp
  · simp at h; subst h
    intro ch hch
    obtain ⟨r, -, hr⟩ := (mapE_mem h').1 hch
    exact regionChunk_file hr

theorem chunkDataset_error {ch : Chunk V} {e : PyErr} (hh : Holds ch.file ch.source) (h : ch.dataset = .error e) :
    e = .key := by
  unfold Chunk.dataset at h
  split at h
  · exact dataset_error h
  · split at h
    · exact dataset_error h
    · next h1 h2 => rcases hh with hh | hh <;> contradiction

theorem keysForSource_error {c : DC V} {source : Str} {e : PyErr} (h : c.keysForSource source = .error e) :
    NotFieldErr e := by
  unfold DC.keysForSource at h
  split at h
  · simp at h; subst h; exact ⟨by simp, by simp⟩
  · simp at h
  · split at h
    · next f hf =>
      have hh := (mem_sourceIndex.1 (List.mem_of_mem_head? hf)).2
      unfold FileAccess.getKeys FileAccess.readKeys at h
      have hv : ∀ {p e'}, visitDatasets f.file p = .error e' → e' = .key := by
        intro p e' h; unfold visitDatasets at h; dsimp only at h; split at h <;> simp_all
      split at h
      · split at h
        · next h' => have := hv h'; simp at h; subst h; subst this; exact ⟨by simp, by simp⟩
        · simp at h
      · split at h
        · split at h
          · next h' => have := hv h'; simp at h; subst h; subst this; exact ⟨by simp, by simp⟩
          · simp at h
        · next h1 h2 => rcases hh with hh | hh <;> contradiction
    · simp at h; subst h; exact ⟨by simp, by simp⟩

/-- The field is unknown or fine, exactly. -/
theorem checkField_error {c : DC V} {source key : Str} :
    (c.checkField source key = .error .sourceName ↔ source ∉ c.allSources) ∧
    (c.checkField source key = .error .propertyName ↔
      source ∈ c.allSources ∧ ∃ ks, c.keysForSource source = .ok ks ∧ key ∉ ks) := by
  unfold DC.checkField
  by_cases hs : source ∈ c.allSources
  · rw [if_neg (not_not.2 hs)]
    cases hk : c.keysForSource source with
    | error e => have := keysForSource_error hk; simp [this.1, this.2, hs]
    | ok ks => by_cases h : key ∈ ks <;> simp [h, hs]
  · simp [hs]

/-- The two exceptions come from the check of the field and from nothing else. -/
theorem field_errors_partial {c : DC V} {source key : Str} {α : Type} {r : R α}
    (h1 : ∀ e, c.checkField source key = .error e → r = .error e)
    (h2 : c.checkField source key = .ok () → ∀ e, r = .error e → NotFieldErr e) :
    (r = .error .sourceName ↔ source ∉ c.allSources) ∧
    (r = .error .propertyName ↔ source ∈ c.allSources ∧ ∃ ks, c.keysForSource source = .ok ks ∧ key ∉ ks) := by
  rw [← (checkField_error (c := c) (source := source) (key := key)).1, ← (checkField_error (c := c)).2]
  cases hc : c.checkField source key with
  | error e => rw [h1 e hc]; simp
  | ok u =>
    have h2 := h2 hc
    refine ⟨⟨fun h => absurd rfl (h2 _ h).1, fun h => by simp at h⟩, ⟨fun h => absurd rfl (h2 _ h).2, fun h => by simp at h⟩⟩

/-- C26. `get_array` raises SourceNameError exactly for sources not in the collection, and PropertyNameError exactly
for keys which are not selected, of sources which are. -/
theorem get_array_field_errors {c : DC V} {source key : Str} (roi : V → W) :
    (c.getArray source key roi = .error .sourceName ↔ source ∉ c.allSources) ∧
    (c.getArray source key roi = .error .propertyName ↔
      source ∈ c.allSources ∧ ∃ ks, c.keysForSource source = .ok ks ∧ key ∉ ks) := by
  apply field_errors_partial
  · intro e h; unfold DC.getArray; rw [h]
  · intro hc e h
    unfold DC.getArray at h
    rw [hc] at h
    dsimp only at h
    split at h
    · next h' =>
      simp at h; subst h
      unfold DC.findDataChunks at h'
      split at h'
      · next h'' =>
        simp at h'; subst h'
        obtain ⟨f, -, hf⟩ := mapE_error_mem h''
        exact chunksOfFile_error hf
      · simp at h'
    next cs hcs =>
    have hfile : ∀ ch ∈ sortBy Chunk.sortKey cs, Holds ch.file ch.source := by
      intro ch hch
      have hch : ch ∈ cs := (List.perm_insertionSort _ _).mem_iff.1 hch
      unfold DC.findDataChunks at hcs
      split at hcs
      · simp at hcs
      · next l hl =>
        simp at hcs; subst hcs
        obtain ⟨chs, h1, h2⟩ := List.mem_flatten.1 hch
        obtain ⟨f, hf, h3⟩ := (mapE_mem hl).1 h1
        obtain ⟨h4, h5⟩ := chunksOfFile_file h3 ch h2
        rw [h4, h5]
        exact (mem_sourceIndex.1 hf).2
    split at h
    · next h' =>
      simp at h; subst h
      obtain ⟨ch, hm, hd⟩ := mapE_error_mem h'
      have := chunkDataset_error (hfile ch hm) hd
      subst this; exact ⟨by simp, by simp⟩
    split at h
    · simp at h; subst h; exact ⟨by simp, by simp⟩
    split at h
    · simp at h; subst h; exact ⟨by simp, by simp⟩
    split at h
    · split at h
      · next h' =>
        simp at h; subst h
        obtain ⟨ch, hm, hd⟩ := mapE_error_mem h'
        unfold readChunk at hd
        dsimp only at hd
        split at hd
        · simp at hd
        split at hd
        · next h'' =>
          simp at hd; subst hd
          have := chunkDataset_error (hfile ch hm) h''
          subst this; exact ⟨by simp, by simp⟩
        split at hd
        · next h'' =>
          simp at hd; subst hd
          unfold h5Fill at h''
          split at h''
          · simp at h''
          · split at h''
            · simp at h''
            · simp at h''; subst h''; exact ⟨by simp, by simp⟩
        · simp at hd
      · simp at h
    · simp at h; subst h; exact ⟨by simp, by simp⟩

/-- C26 for `get_data_counts`. -/
theorem get_data_counts_field_errors {c : DC V} {source key : Str} :
    (c.getDataCounts source key = .error .sourceName ↔ source ∉ c.allSources) ∧
    (c.getDataCounts source key = .error .propertyName ↔
      source ∈ c.allSources ∧ ∃ ks, c.keysForSource source = .ok ks ∧ key ∉ ks) := by
  apply field_errors_partial
  · intro e h; unfold DC.getDataCounts; rw [h]
  · intro hc e h
    unfold DC.getDataCounts at h
    rw [hc] at h
    dsimp only at h
    split at h
    · next h' =>
      simp at h; subst h
      obtain ⟨f, -, hf⟩ := mapE_error_mem h'
      unfold DC.countsOfFile at hf
      split at hf
      · unfold onesSeries at hf
        split at hf <;> simp at hf
        subst hf; exact ⟨by simp, by simp⟩
      · split at hf
        · next h'' => simp at hf; subst hf; exact getIndex_error h''
        · have := zipSame_error hf; subst this; exact ⟨by simp, by simp⟩
    split at h
    · simp at h; subst h; exact ⟨by simp, by simp⟩
    · simp at h

theorem plainData_error {ds : Dataset V} {e : PyErr} (h : plainData ds = .error e) : e ≠ .sourceName ∧ e ≠ .propertyName := by
  unfold plainData at h
  split at h <;> simp at h
  subst h; exact ⟨by simp, by simp⟩

theorem pulseLabels_error {ds : Dataset V} {e : PyErr} (h : pulseLabels ds = .error e) :
    e ≠ .sourceName ∧ e ≠ .propertyName := by
  unfold pulseLabels at h
  split at h <;> simp at h <;> (subst h; exact ⟨by simp, by simp⟩)

theorem pulseData_error {ds : Dataset V} {e : PyErr} (h : pulseData ds = .error e) : e ≠ .sourceName ∧ e ≠ .propertyName := by
  unfold pulseData at h
  split at h <;> simp at h <;> (subst h; exact ⟨by simp, by simp⟩)

/-- C26 for `get_series`. -/
theorem get_series_field_errors {c : DC V} {source key : Str} :
    (c.getSeries source key = .error .sourceName ↔ source ∉ c.allSources) ∧
    (c.getSeries source key = .error .propertyName ↔
      source ∈ c.allSources ∧ ∃ ks, c.keysForSource source = .ok ks ∧ key ∉ ks) := by
  apply field_errors_partial
  · intro e h; unfold DC.getSeries; rw [h]
  · intro hc e h
    unfold DC.getSeries at h
    rw [hc] at h
    dsimp only at h
    split at h
    · next h' =>
      simp at h; subst h
      obtain ⟨f, -, hf⟩ := mapE_error_mem h'
      unfold DC.seriesOfFile at hf
      split at hf
      · unfold seriesControl at hf
        split at hf
        · next h'' => simp at hf; subst hf; have := dataset_error h''; subst this; exact ⟨by simp, by simp⟩
        split at hf
        · next h'' => simp at hf; subst hf; exact plainData_error h''
        · have := zipSame_error hf; subst this; exact ⟨by simp, by simp⟩
      · unfold seriesInstrument at hf
        dsimp only at hf
        split at hf
        · next h'' => simp at hf; subst hf; exact getIndex_error h''
        split at hf
        · next h'' => simp at hf; subst hf; have := dataset_error h''; subst this; exact ⟨by simp, by simp⟩
        split at hf
        · split at hf
          · next h'' => simp at hf; subst hf; exact plainData_error h''
          · have := zipSame_error hf; subst this; exact ⟨by simp, by simp⟩
        split at hf
        · next h'' => simp at hf; subst hf; have := dataset_error h''; subst this; exact ⟨by simp, by simp⟩
        split at hf
        · next h'' => simp at hf; subst hf; exact pulseLabels_error h''
        split at hf
        · next h'' => simp at hf; subst hf; have := zipSame_error h''; subst this; exact ⟨by simp, by simp⟩
        split at hf
        · next h'' => simp at hf; subst hf; exact pulseData_error h''
        · have := zipSame_error hf; subst this; exact ⟨by simp, by simp⟩
    split at h
    · simp at h; subst h; exact ⟨by simp, by simp⟩
    split at h
    · simp at h; subst h; exact ⟨by simp, by simp⟩
    · simp at h

/-- C26 is false for `get_dask_array`: an unknown source is a ValueError from joining nothing, and a key which is not
selected is read all the same. -/
theorem dask_array_unchecked :
    exArr.getDaskArray (ch! "X") (ch! "data.y") = .error .value ∧
    let c : DC Nat := { exArr with selection := [(ch! "D:o", some [ch! "data.z"])] }
    exArr.select (.dict [(ch! "D:o", [ch! "data.z"])]) = .ok { c with ctxCloses := false } ∧
    c.getArray (ch! "D:o") (ch! "data.y") id = .error .propertyName ∧
    c.getDaskArray (ch! "D:o") (ch! "data.y") = .ok [10, 11, 12, 20] := by decide

end KD
