/- Helper lemmas for reading arrays. -/
import Verif.Lemmas.Selection
import Verif.Lemmas.Regions
import Verif.Spec.Data
import Mathlib.Data.List.Chain

set_option linter.unusedSimpArgs false

namespace KD
open Spec

variable {V W : Type}

/-! ### Runs of a mask -/

theorem maskSel_nil_right {α : Type _} (z : List α) : maskSel z [] = [] := by cases z <;> rfl

theorem sl_succ {α : Type _} (z : List α) {a o : Nat} {x : α} {z' : List α} (h : z.drop o = x :: z') (ha : a ≤ o) :
    sl z a (o + 1) = sl z a o ++ [x] := by
  obtain ⟨h1, h2, h3⟩ := drop_cons h
  unfold sl
  have e : o + 1 - a = (o - a) + 1 := by omega
  rw [e, List.take_add_one, List.getElem?_drop]
  have : a + (o - a) = o := by omega
  rw [this, h1]; rfl

theorem runs_flatMap_sl {α : Type _} (z : List α) (m : List Bool) : ∀ o, (z.drop o).length = m.length →
    (runs none o m).flatMap (fun r => sl z r.1 r.2) = maskSel (z.drop o) m ∧
    ∀ a, a ≤ o → (runs (some a) o m).flatMap (fun r => sl z r.1 r.2) = sl z a o ++ maskSel (z.drop o) m := by
  induction m with
  | nil =>
    intro o h
    simp [runs, maskSel_nil_right]
  | cons b m ih =>
    intro o h
    cases hz : z.drop o with
    | nil => rw [hz] at h; simp at h
    | cons x z' =>
      obtain ⟨h1, h2, h3⟩ := drop_cons hz
      rw [hz] at h
      have h' : (z.drop (o + 1)).length = m.length := by rw [h2]; simpa using h
      obtain ⟨i1, i2⟩ := ih (o + 1) h'
      rw [h2] at i1 i2
      cases b
      · refine ⟨by simpa [runs, maskSel] using i1, fun a ha => ?_⟩
        simp only [runs, Bool.false_eq_true, if_false, List.flatMap_cons, i1, maskSel]
      · refine ⟨?_, fun a ha => ?_⟩
        · simp only [runs, if_true, maskSel]
          rw [i2 o (by omega), sl_succ z hz (Nat.le_refl o)]
          simp [sl]
        · simp only [runs, if_true, maskSel]
          rw [i2 a (by omega), sl_succ z hz ha]
          simp

theorem maskSel_map {α : Type _} (z : List α) (p : α → Bool) : maskSel z (z.map p) = z.filter p := by
  induction z with
  | nil => rfl
  | cons x z ih => simp only [List.map_cons, maskSel, ih, List.filter_cons]

theorem mem_runs_bounds {m : List Bool} {r : Nat × Nat} (h : r ∈ runs none 0 m) : r.1 < r.2 ∧ r.2 ≤ m.length := by
  have := ((mem_runs m m 0 (by omega) (by simp)).1 (Or.inl rfl) r.1 r.2).1 h
  exact ⟨this.1.1, this.1.2.1⟩

/-! ### Contiguous pieces of an index -/

/-- The rows of one train with their label. -/
def entry (rows : List V) (x : Nat × Nat × Nat) : List (Nat × V) := (slice rows x.2.1 x.2.2).map (fun v => (x.1, v))

theorem sl_eq_slice {α : Type _} (l : List α) (a n : Nat) : sl l a (a + n) = slice l a n := by
  simp [sl, slice]

theorem slice_add {α : Type _} (l : List α) (a n m : Nat) : slice l a (n + m) = slice l a n ++ slice l (a + n) m := by
  unfold slice
  rw [List.take_add, List.drop_drop]

theorem slice_length {α : Type _} {l : List α} {a n : Nat} (h : a + n ≤ l.length) : (slice l a n).length = n := by
  simp [slice]; omega

theorem contiguous_read (rows : List V) (w : List (Nat × Nat × Nat)) : ∀ (a : Nat),
    (w.head?.map (fun x => x.2.1) = some a ∨ w = []) →
    List.IsChain (fun x y : Nat × Nat × Nat => y.2.1 = x.2.1 + x.2.2) w →
    (∀ x ∈ w, x.2.1 + x.2.2 ≤ rows.length) →
    (npRepeat (w.map (fun x => x.1)) (w.map (fun x => x.2.2))).zip (slice rows a (w.map (fun x => x.2.2)).sum)
      = w.flatMap (entry rows) ∧
    (slice rows a (w.map (fun x => x.2.2)).sum).length = (w.map (fun x => x.2.2)).sum ∧
    (npRepeat (w.map (fun x => x.1)) (w.map (fun x => x.2.2))).length = (w.map (fun x => x.2.2)).sum := by
  induction w with
  | nil => intro a _ _ _; simp [npRepeat, slice]
  | cons x w ih =>
    intro a ha hc hb
    have ha : x.2.1 = a := by simpa using ha
    subst ha
    have hx := hb x (by simp)
    have := ih (x.2.1 + x.2.2) (by
        cases w with
        | nil => simp
        | cons y w => simp [(List.isChain_cons_cons.1 hc).1])
      (by cases w with
        | nil => simp
        | cons y w => exact (List.isChain_cons_cons.1 hc).2)
      (fun y hy => hb y (by simp [hy]))
    obtain ⟨i1, i2, i3⟩ := this
    simp only [List.map_cons, List.sum_cons, npRepeat, slice_add, List.flatMap_cons]
    refine ⟨?_, ?_, ?_⟩
    · rw [List.zip_append (by rw [slice_length hx]; simp), i1]
      congr 1
      unfold entry
      apply List.ext_getElem
      · simp [slice_length hx]
      · intro i h1 h2; simp
    · rw [List.length_append, slice_length hx, i2]
    · simp [i3]

theorem entry_fst {rows : List V} {x : Nat × Nat × Nat} {p : Nat × V} (h : p ∈ entry rows x) : p.1 = x.1 := by
  unfold entry at h
  obtain ⟨v, -, rfl⟩ := List.mem_map.1 h
  rfl

/-! ### Rearranging pieces of which at most one is non-empty -/

theorem flatMap_perm {α β : Type _} {g : α → List β} {l l' : List α} (h : l.Perm l')
    (hp : l.Pairwise (fun a b => g a = [] ∨ g b = [])) : l.flatMap g = l'.flatMap g := by
  induction h with
  | nil => rfl
  | cons x h ih => simp only [List.flatMap_cons]; rw [ih (List.pairwise_cons.1 hp).2]
  | swap x y l =>
    simp only [List.flatMap_cons]
    have := (List.pairwise_cons.1 hp).1 x (by simp)
    rcases this with h | h <;> simp [h]
  | trans h1 h2 ih1 ih2 =>
    rw [ih1 hp]
    apply ih2
    refine (h1.pairwise_iff ?_).1 hp
    intro a b h; exact h.symm

/-! ### Chunks -/

/-- The rows of a chunk. -/
def rowsOf (ch : Chunk V) : List V :=
  match ch.dataset with
  | .ok ds => slice ds.rows ch.first ch.counts.sum
  | .error _ => []

/-- The labels of the rows of a chunk. -/
def labelsOf (ch : Chunk V) : List Nat := npRepeat ch.trainIds ch.counts

/-- The rows with their labels. -/
def lab (ch : Chunk V) : List (Nat × V) := (labelsOf ch).zip (rowsOf ch)

theorem sum_zero_mem {l : List Nat} (h : l.sum = 0) {n : Nat} (hn : n ∈ l) : n = 0 := by
  induction l with
  | nil => simp at hn
  | cons a l ih =>
    simp only [List.sum_cons, Nat.add_eq_zero_iff] at h
    rcases List.mem_cons.1 hn with rfl | hn
    · exact h.1
    · exact ih h.2 hn

theorem npRepeat_sum_zero {α : Type _} (l : List α) : ∀ ns : List Nat, ns.sum = 0 → npRepeat l ns = [] := by
  induction l with
  | nil => intro ns _; simp [npRepeat]
  | cons a l ih =>
    intro ns h
    cases ns with
    | nil => simp [npRepeat]
    | cons n ns =>
      simp only [List.sum_cons, Nat.add_eq_zero_iff] at h
      simp [npRepeat, h.1, ih ns h.2]

theorem npRepeat_mem {α : Type _} {l : List α} : ∀ {ns : List Nat} {x : α}, x ∈ npRepeat l ns → x ∈ l := by
  induction l with
  | nil => intro ns x h; simp [npRepeat] at h
  | cons a l ih =>
    intro ns x h
    cases ns with
    | nil => simp [npRepeat] at h
    | cons n ns =>
      simp only [npRepeat, List.mem_append, List.mem_replicate] at h
      rcases h with ⟨-, rfl⟩ | h
      · simp
      · simp [ih h]

/-- Every chunk has as many entries as its counts say. -/
def FullChunks (chunks : List (Chunk V)) : Prop := ∀ ch ∈ chunks, (rowsOf ch).length = ch.counts.sum

/-- What reading the chunks in turn gives. -/
theorem readChunks_ok {roi : V → W} {chunks : List (Chunk V)} : ∀ {parts : List (Option (List W × List Nat))},
    mapE (readChunk roi) chunks = .ok parts →
    (FullChunks chunks → ((parts.filterMap id).map Prod.fst).flatten = (chunks.flatMap rowsOf).map roi) ∧
    ((parts.filterMap id).map Prod.snd).flatten = chunks.flatMap labelsOf := by
  induction chunks with
  | nil => intro parts h; simp [mapE] at h; subst h; simp
  | cons ch chs ih =>
    intro parts h
    obtain ⟨p, ps, h1, h2, rfl⟩ := mapE_cons_ok.1 h
    obtain ⟨i1, i2⟩ := ih h2
    have i1 : FullChunks (ch :: chs) → _ := fun hf => i1 (fun x hx => hf x (by simp [hx]))
    unfold readChunk at h1
    dsimp only at h1
    split at h1
    · next hn =>
      simp at h1; subst h1
      rw [show List.filterMap id (none :: ps) = List.filterMap id ps from rfl, i2]
      simp only [List.flatMap_cons, List.map_append]
      constructor
      · intro hf
        rw [i1 hf]
        have : rowsOf ch = [] := by unfold rowsOf; split <;> simp [hn, slice]
        simp [this]
      · simp [labelsOf, npRepeat_sum_zero _ _ hn]
    · split at h1
      · simp at h1
      · next ds hds =>
        split at h1
        · simp at h1
        next rows hrows =>
        simp at h1; subst h1
        rw [show ∀ x, List.filterMap id (some x :: ps) = x :: List.filterMap id ps from fun _ => rfl]
        simp only [List.flatMap_cons, List.map_append, i2, List.map_cons, List.flatten_cons]
        refine ⟨fun hf => ?_, rfl⟩
        rw [i1 hf]
        have hl := hf ch (by simp)
        unfold h5Fill at hrows
        simp only [rowsOf, hds, sl_eq_slice] at hl hrows ⊢
        rw [if_pos (by simpa using hl)] at hrows
        rw [← Except.ok.inj hrows]

/-- The chunks of a source and key in the order in which arrays are assembled. -/
def DC.sortedChunks (c : DC V) (source key : Str) : R (List (Chunk V)) :=
  match c.findDataChunks source key with
  | .error e => .error e
  | .ok cs => .ok (sortBy Chunk.sortKey cs)

theorem getArray_ok {c : DC V} {source key : Str} {roi : V → W} {a : LArr W} (h : c.getArray source key roi = .ok a) :
    c.checkField source key = .ok () ∧ ∃ chunks, c.sortedChunks source key = .ok chunks ∧
      (FullChunks chunks → a.rows = (chunks.flatMap rowsOf).map roi) ∧ a.coords.getD [] = chunks.flatMap labelsOf ∧
      (a.coords = none ↔ (chunks.map (fun ch => ch.counts.sum)).sum = 0) ∧
      (∀ ch ∈ chunks, ∃ ds, ch.dataset = .ok ds ∧ ds.rowShape = a.rowShape ∧ ds.dtype = a.dtype) ∧ chunks ≠ [] := by
  unfold DC.getArray at h
  split at h
  · simp at h
  next hcf =>
  split at h
  · simp at h
  next cs hcs =>
  dsimp only at h
  split at h
  · simp at h
  next dss hdss =>
  split at h
  · simp at h
  next hsh =>
  split at h
  · simp at h
  next hdt =>
  split at h
  next shape shapes dtype dtypes hs1 hd1 =>
    split at h
    · simp at h
    next parts hparts =>
    obtain ⟨e1, e2⟩ := readChunks_ok hparts
    simp at h
    subst h
    refine ⟨hcf, sortBy Chunk.sortKey cs, by simp [DC.sortedChunks, hcs], e1, ?_, ?_, ?_, ?_⟩
    · split
      · next h0 =>
        simp only [Option.getD_none]
        symm
        rw [List.flatMap_eq_nil_iff]
        intro ch hch
        apply npRepeat_sum_zero
        exact sum_zero_mem h0 (List.mem_map.2 ⟨ch, hch, rfl⟩)
      · simpa using e2
    · by_cases h0 : (List.map (fun ch => ch.counts.sum) (sortBy Chunk.sortKey cs)).sum = 0
      · simp [h0]
      · simp [h0]
    · intro ch hch
      obtain ⟨ds, hds, hd⟩ := mapE_ok_all hdss hch
      refine ⟨ds, hd, ?_, ?_⟩
      · have hm : ds.rowShape ∈ (dss.map Dataset.rowShape).dedup :=
          List.mem_dedup.2 (List.mem_map.2 ⟨ds, hds, rfl⟩)
        rw [hs1] at hm hsh
        have : shapes = [] := by cases shapes <;> simp_all
        subst this
        simpa using hm
      · have hm : ds.dtype ∈ (dss.map Dataset.dtype).dedup :=
          List.mem_dedup.2 (List.mem_map.2 ⟨ds, hds, rfl⟩)
        rw [hd1] at hm hdt
        have : dtypes = [] := by cases dtypes <;> simp_all
        subst this
        simpa using hm
    · rintro hnil
      rw [hnil] at hdss
      simp [mapE] at hdss
      subst hdss
      simp at hs1
  · simp at h


/-- The chunk consists of the given pieces (train, first, count) of a contiguous index. -/
structure ChunkOf (f : FileAccess V) (source key : Str) (ds : Dataset V) (ch : Chunk V)
    (w : List (Nat × Nat × Nat)) : Prop where
  file : ch.file = f
  source : ch.source = source
  key : ch.key = key
  tids : ch.trainIds = w.map (fun x => x.1)
  counts : ch.counts = w.map (fun x => x.2.2)
  head : w.head?.map (fun x => x.2.1) = some ch.first ∨ w = []
  chain : List.IsChain (fun x y : Nat × Nat × Nat => y.2.1 = x.2.1 + x.2.2) w
  bound : ∀ x ∈ w, x.2.1 + x.2.2 ≤ ds.rows.length

theorem sl_map {α β : Type _} (g : α → β) (l : List α) (a b : Nat) : sl (l.map g) a b = (sl l a b).map g := by
  simp [sl, List.map_drop, List.map_take]

theorem zip3_maps {t a n : List Nat} (h1 : a.length = t.length) (h2 : n.length = t.length) :
    (t.zip (a.zip n)).map (fun x => x.1) = t ∧ (t.zip (a.zip n)).map (fun x => x.2.1) = a ∧
      (t.zip (a.zip n)).map (fun x => x.2.2) = n := by
  have e1 : (t.zip (a.zip n)).map Prod.snd = a.zip n := List.map_snd_zip (by simp; omega)
  refine ⟨List.map_fst_zip (by simp; omega), ?_, ?_⟩
  · have : (t.zip (a.zip n)).map (fun x => x.2.1) = ((t.zip (a.zip n)).map Prod.snd).map Prod.fst := by simp
    rw [this, e1, List.map_fst_zip (by omega)]
  · have : (t.zip (a.zip n)).map (fun x => x.2.2) = ((t.zip (a.zip n)).map Prod.snd).map Prod.snd := by simp
    rw [this, e1, List.map_snd_zip (by omega)]

theorem zip3_chain {t a n : List Nat} (h1 : a.length = t.length) (h2 : n.length = t.length) (hc : Contiguous a n) :
    List.IsChain (fun x y : Nat × Nat × Nat => y.2.1 = x.2.1 + x.2.2) (t.zip (a.zip n)) := by
  rw [List.isChain_iff_getElem]
  intro i hi
  simp only [List.length_zip] at hi
  simp only [List.getElem_zip]
  have e1 : i < a.length := by omega
  have e2 : i < n.length := by omega
  have e3 : i + 1 < a.length := by omega
  exact hc i a[i] n[i] a[i + 1] (List.getElem?_eq_getElem e1) (List.getElem?_eq_getElem e2)
    (List.getElem?_eq_getElem e3)

theorem zip3_bound {t a n : List Nat} {size : Nat} (hb : InBounds a n size) {x : Nat × Nat × Nat}
    (hx : x ∈ t.zip (a.zip n)) : x.2.1 + x.2.2 ≤ size := by
  have : x.2 ∈ a.zip n := (List.of_mem_zip (a := x.1) (b := x.2) hx).2
  obtain ⟨i, hi⟩ := List.mem_iff_getElem?.1 this
  have := List.getElem?_zip_eq_some.1 hi
  exact hb i _ _ this.1 this.2

theorem chunksOfFile_valid {c : DC V} {f : FileAccess V} {instr : Bool} {source key : Str}
    (hv : ValidField f instr source key) (hg : c.keyGroup source key = groupName instr key) :
    ∃ firsts counts ds chs ws, f.getIndex source (groupName instr key) = .ok (firsts, counts) ∧
      f.dataset (sectionName instr) source key = .ok ds ∧
      firsts.length = f.trainIds.length ∧ counts.length = f.trainIds.length ∧
      c.chunksOfFile source key f = .ok chs ∧ chs ≠ [] ∧
      List.Forall₂ (ChunkOf f source key ds) chs ws ∧
      ws.flatten = (f.trainIds.zip (firsts.zip counts)).filter (fun x => decide (x.1 ∈ c.trainIds)) := by
  obtain ⟨firsts, counts, ds, hix, hds, hl1, hl2, hcon, hin⟩ := hv.data
  let z := f.trainIds.zip (firsts.zip counts)
  obtain ⟨z1, z2, z3⟩ := zip3_maps hl1 hl2
  let mask := f.trainIds.map (fun t => decide (t ∈ c.trainIds))
  have hmask : mask ≠ [] := by simp [mask, hv.someTrain]
  have hmz : mask = z.map (fun x => decide (x.1 ∈ c.trainIds)) := by
    have : z.map (fun x => decide (x.1 ∈ c.trainIds)) = (z.map (fun x => x.1)).map (fun t => decide (t ∈ c.trainIds)) := by
      simp
    rw [this, z1]
  have hreg := contiguousRegions_eq_runs mask hmask
  let g : Nat × Nat → Chunk V := fun r =>
    Chunk.mk f source key (firsts.getD r.1 0) (sl f.trainIds r.1 r.2) (sl counts r.1 r.2)
  have hlen : mask.length = f.trainIds.length := by simp [mask]
  have hmap : mapE (regionChunk f source key firsts counts) (runs none 0 mask) = .ok ((runs none 0 mask).map g) := by
    apply mapE_ok_of_forall
    intro r hr
    obtain ⟨b1, b2⟩ := mem_runs_bounds hr
    have hlt : r.1 < firsts.length := by omega
    rw [regionChunk, nth_ok_of_lt hlt]
    simp [g, List.getElem?_eq_getElem hlt]
  have hflat := (runs_flatMap_sl z mask 0 (by rw [hmz]; simp)).1
  rw [hmz, List.drop_zero, maskSel_map, ← hmz] at hflat
  have hch : c.chunksOfFile source key f = .ok (if ((runs none 0 mask).map g).isEmpty
      then [Chunk.mk f source key 0 [] []] else (runs none 0 mask).map g) := by
    unfold DC.chunksOfFile
    rw [hg, hix]
    simp only
    rw [show contiguousRegions (f.trainIds.map (fun t => decide (t ∈ c.trainIds))) = .ok (runs none 0 mask) from hreg]
    simp only
    rw [hmap]
    simp only
    split <;> rfl
  refine ⟨firsts, counts, ds, _, if (runs none 0 mask).isEmpty then [[]] else
    (runs none 0 mask).map (fun r => sl z r.1 r.2), hix, hds, hl1, hl2, hch, ?_, ?_, ?_⟩
  · cases hr : runs none 0 mask <;> simp
  · cases hr : runs none 0 mask with
    | nil =>
      simp only [List.map_nil, List.isEmpty_nil, if_true]
      refine List.Forall₂.cons ?_ List.Forall₂.nil
      exact ⟨rfl, rfl, rfl, rfl, rfl, Or.inr rfl, List.IsChain.nil, by simp⟩
    | cons r0 rs =>
      rw [if_neg (by simp), if_neg (by simp), ← hr]
      rw [List.forall₂_map_left_iff, List.forall₂_map_right_iff, List.forall₂_same]
      intro r hrr
      obtain ⟨b1, b2⟩ := mem_runs_bounds hrr
      have hlt : r.1 < firsts.length := by omega
      have hzl : r.1 < z.length := by simp [z]; omega
      refine ⟨rfl, rfl, rfl, ?_, ?_, Or.inl ?_, ?_, ?_⟩
      · rw [← sl_map, z1]
      · rw [← sl_map, z3]
      · have : (sl z r.1 r.2).head? = z[r.1]? := by
          unfold sl
          have : r.2 - r.1 = (r.2 - r.1 - 1) + 1 := by omega
          rw [this, List.drop_eq_getElem_cons hzl, List.take_succ_cons, List.head?_cons,
            List.getElem?_eq_getElem hzl]
        rw [this]
        have : (z.map (fun x => x.2.1))[r.1]? = z[r.1]?.map (fun x => x.2.1) := by simp
        rw [← this, z2, List.getElem?_eq_getElem hlt]
        simp [g, List.getElem?_eq_getElem hlt]
      · exact (zip3_chain hl1 hl2 hcon).infix
          ((List.take_prefix _ _).isInfix.trans (List.drop_suffix _ _).isInfix)
      · intro x hx
        exact zip3_bound hin (List.mem_of_mem_drop (List.mem_of_mem_take hx))
  · cases hr : runs none 0 mask with
    | nil => rw [hr] at hflat; simpa using hflat
    | cons r0 rs =>
      rw [hr] at hflat
      simp only [List.isEmpty_cons, Bool.false_eq_true, if_false]
      rw [← hflat, List.flatMap_def]


theorem chunkOf_dataset {f : FileAccess V} {instr : Bool} {source key : Str} {ds : Dataset V} {ch : Chunk V}
    {w : List (Nat × Nat × Nat)} (hv : ValidField f instr source key) (hds : f.dataset (sectionName instr) source key = .ok ds)
    (h : ChunkOf f source key ds ch w) : ch.dataset = .ok ds := by
  have hc := hv.category
  unfold Chunk.dataset
  rw [h.file, h.source, h.key]
  cases instr
  · simp only [Bool.false_eq_true, if_false] at hc
    rw [if_neg hc.2, if_pos hc.1]
    exact hds
  · simp only [if_true] at hc
    rw [if_pos hc.1]
    exact hds

theorem chunkOf_lab {f : FileAccess V} {source key : Str} {ds : Dataset V} {ch : Chunk V}
    {w : List (Nat × Nat × Nat)} (hd : ch.dataset = .ok ds) (h : ChunkOf f source key ds ch w) :
    lab ch = w.flatMap (entry ds.rows) ∧ (labelsOf ch).length = (rowsOf ch).length ∧
      (rowsOf ch).length = ch.counts.sum := by
  obtain ⟨h1, h2, h3⟩ := contiguous_read ds.rows w ch.first h.head h.chain h.bound
  unfold lab labelsOf rowsOf
  rw [hd, h.tids, h.counts]
  exact ⟨h1, by rw [h2, h3], h2⟩

theorem lab_mem {ch : Chunk V} {p : Nat × V} (h : p ∈ lab ch) : p.1 ∈ ch.trainIds :=
  npRepeat_mem (List.of_mem_zip h).1

/-- What the chunks of a valid file are. -/
theorem chunksOfFile_facts {c : DC V} {f : FileAccess V} {instr : Bool} {source key : Str}
    (hv : ValidField f instr source key) (hg : c.keyGroup source key = groupName instr key) :
    ∃ chs ds, c.chunksOfFile source key f = .ok chs ∧ chs ≠ [] ∧
      f.dataset (sectionName instr) source key = .ok ds ∧
      (∀ ch ∈ chs, ch.dataset = .ok ds ∧ ch.file = f ∧ (∃ w, ChunkOf f source key ds ch w)) ∧
      (chs.map Chunk.trainIds).flatten = f.trainIds.filter (fun t => decide (t ∈ c.trainIds)) ∧
      (∀ t, (chs.flatMap lab).filter (fun x => x.1 = t) =
        if t ∈ c.trainIds then (fileEntries f instr source key t).map (fun v => (t, v)) else []) := by
  obtain ⟨firsts, counts, ds, chs, ws, hix, hds, hl1, hl2, hch, hne, hall, hw⟩ := chunksOfFile_valid hv hg
  obtain ⟨z1, z2, z3⟩ := zip3_maps hl1 hl2
  have hmem : ∀ ch ∈ chs, ∃ w, ChunkOf f source key ds ch w := by
    intro ch hm
    clear hw hch hne
    induction hall with
    | nil => simp at hm
    | cons h _ ih =>
      rcases List.mem_cons.1 hm with rfl | hm
      · exact ⟨_, h⟩
      · exact ih hm
  have hlab : chs.flatMap lab = ws.flatten.flatMap (entry ds.rows) := by
    clear hw hch hne hmem
    induction hall with
    | nil => rfl
    | cons h _ ih =>
      simp only [List.flatMap_cons, List.flatten_cons, List.flatMap_append, ih]
      rw [(chunkOf_lab (chunkOf_dataset hv hds h) h).1]
  have htids : (chs.map Chunk.trainIds).flatten = ws.flatten.map (fun x => x.1) := by
    clear hw hch hne hmem hlab
    induction hall with
    | nil => rfl
    | cons h _ ih => simp only [List.map_cons, List.flatten_cons, List.map_append, ih, h.tids]
  refine ⟨chs, ds, hch, hne, hds, fun ch hm => ?_, ?_, fun t => ?_⟩
  · obtain ⟨w, hw⟩ := hmem ch hm
    exact ⟨chunkOf_dataset hv hds hw, hw.file, w, hw⟩
  · rw [htids, hw]
    conv_rhs => rw [← z1]
    rw [List.filter_map]; rfl
  · rw [hlab, hw]
    have hent : ∀ w : List (Nat × Nat × Nat), (w.flatMap (entry ds.rows)).filter (fun x => x.1 = t)
        = ((w.filter (fun x => x.1 = t)).flatMap (fun x => slice ds.rows x.2.1 x.2.2)).map (fun v => (t, v)) := by
      intro w
      induction w with
      | nil => rfl
      | cons x w ih =>
        simp only [List.flatMap_cons, List.filter_append, ih, List.filter_cons]
        by_cases hx : x.1 = t
        · simp only [hx, decide_true, if_true, List.flatMap_cons, List.map_append]
          congr 1
          rw [List.filter_eq_self.2]
          · simp [entry, hx]
          · intro p hp; simp [entry_fst hp, hx]
        · simp only [hx, decide_false, Bool.false_eq_true, if_false]
          rw [List.filter_eq_nil_iff.2]
          · rfl
          · intro p hp; simp [entry_fst hp, hx]
    rw [hent, List.filter_filter]
    by_cases ht : t ∈ c.trainIds
    · rw [if_pos ht]
      unfold fileEntries
      rw [hix, hds]
      simp only [indexEntries]
      congr 2
      apply List.filter_congr
      intro x _
      by_cases hx : x.1 = t <;> simp [hx, ht]
    · rw [if_neg ht, List.filter_eq_nil_iff.2]
      · rfl
      · intro x _
        by_cases hx : x.1 = t
        · subst hx; simp [ht]
        · simp [hx]

theorem keyGroup_valid {c : DC V} {instr : Bool} {source key : Str} (hv : ValidIn c instr source key)
    (hs : source ∈ c.allSources) : c.keyGroup source key = groupName instr key := by
  unfold DC.keyGroup groupName
  obtain ⟨hk, f, hf, hh⟩ := mem_allSources.1 hs
  cases instr
  · have : source ∉ c.instrumentSources := by
      rw [mem_instrumentSources]
      rintro ⟨-, g, hg, hgi⟩
      have := (hv g hg (Or.inr hgi)).category
      simp at this
      exact this.2 hgi
    simp [this]
  · have : source ∈ c.instrumentSources := by
      rw [mem_instrumentSources]
      have := (hv f hf hh).category
      simp at this
      exact ⟨hk, f, hf, this.1⟩
    simp [this]

/-- All trains of one chunk come before those of the other. -/
def Separated (a b : Chunk V) : Prop :=
  (∀ t ∈ a.trainIds, ∀ u ∈ b.trainIds, t < u) ∨ (∀ t ∈ a.trainIds, ∀ u ∈ b.trainIds, u < t)

/-- The chunks of a valid field: their data sets, their trains and their labelled rows. -/
theorem sortedChunks_valid {c : DC V} {instr : Bool} {source key : Str} (hc : NoConflict c.files)
    (hv : ValidIn c instr source key) (hs : source ∈ c.allSources) :
    ∃ chunks, c.sortedChunks source key = .ok chunks ∧
      chunks.Pairwise (fun a b => Chunk.sortKey a ≤ Chunk.sortKey b) ∧
      (∀ ch ∈ chunks, ∃ f ∈ c.files, Holds f source ∧ ch.file = f ∧ ∃ ds w, f.dataset (sectionName instr) source key = .ok ds ∧
        ch.dataset = .ok ds ∧ ChunkOf f source key ds ch w) ∧
      (∀ f ∈ c.files, Holds f source → ∃ ch ∈ chunks, ch.file = f) ∧
      chunks.Pairwise (fun a b => ∀ t ∈ a.trainIds, t ∉ b.trainIds) ∧
      (∀ ch ∈ chunks, ∀ t ∈ ch.trainIds, t ∈ c.trainIds ∧ t ∈ ch.file.trainIds) ∧
      (∀ t, (chunks.flatMap lab).filter (fun x => x.1 = t) = (c.sourceIndex source).flatMap (fun f =>
        if t ∈ c.trainIds then (fileEntries f instr source key t).map (fun v => (t, v)) else [])) ∧
      (∀ ch ∈ chunks, ch.trainIds.Pairwise (· < ·)) ∧
      chunks.Pairwise (fun a b => a.file = b.file → Separated a b) := by
  have hg := keyGroup_valid hv hs
  have hval : ∀ f ∈ c.sourceIndex source, ValidField f instr source key := fun f hf =>
    hv f (mem_sourceIndex.1 hf).1 (mem_sourceIndex.1 hf).2
  obtain ⟨css, hcss⟩ := mapE_exists_ok (f := c.chunksOfFile source key) (l := c.sourceIndex source) (fun f hf => by
    obtain ⟨chs, ds, h, -⟩ := chunksOfFile_facts (hval f hf) hg
    exact ⟨chs, h⟩)
  have hall := mapE_ok_iff.1 hcss
  have hsc : c.sortedChunks source key = .ok (sortBy Chunk.sortKey css.flatten) := by
    unfold DC.sortedChunks DC.findDataChunks
    rw [hcss]
  have hperm : (sortBy Chunk.sortKey css.flatten).Perm css.flatten := List.perm_insertionSort _ _
  have hmemf : ∀ chs ∈ css, ∃ f ∈ c.sourceIndex source, c.chunksOfFile source key f = .ok chs := by
    intro chs h; exact (mapE_mem hcss).1 h
  have hfile : ∀ chs ∈ css, ∀ ch ∈ chs, ch.file ∈ c.sourceIndex source ∧
      (∀ t ∈ ch.trainIds, t ∈ c.trainIds ∧ t ∈ ch.file.trainIds) ∧ ch.trainIds.Pairwise (· < ·) ∧
      ∃ ds w, ch.file.dataset (sectionName instr) source key = .ok ds ∧
        ch.dataset = .ok ds ∧ ChunkOf ch.file source key ds ch w := by
    intro chs h ch hch
    obtain ⟨f, hf, he⟩ := hmemf chs h
    obtain ⟨chs', ds, h1, -, h2, h3, h4, -⟩ := chunksOfFile_facts (c := c) (hval f hf) hg
    rw [he] at h1
    obtain rfl := Except.ok.inj h1
    obtain ⟨d1, d2, w, d3⟩ := h3 ch hch
    rw [d2]
    have hinc : (chs.map Chunk.trainIds).flatten.Pairwise (· < ·) := by
      rw [h4]; exact (hval f hf).trains.filter _
    refine ⟨hf, fun t ht => ?_, (List.pairwise_flatten.1 hinc).1 _ (List.mem_map.2 ⟨ch, hch, rfl⟩), ds, w, h2, d1, d3⟩
    have : t ∈ (chs.map Chunk.trainIds).flatten :=
      List.mem_flatten.2 ⟨_, List.mem_map.2 ⟨ch, hch, rfl⟩, ht⟩
    rw [h4] at this
    simp at this
    exact ⟨this.2, this.1⟩
  have hpw : css.flatten.Pairwise (fun a b => ∀ t ∈ a.trainIds, t ∉ b.trainIds) := by
    rw [List.pairwise_flatten]
    constructor
    · intro chs h
      obtain ⟨f, hf, he⟩ := hmemf chs h
      obtain ⟨chs', ds, h1, -, h2, h3, h4, -⟩ := chunksOfFile_facts (c := c) (hval f hf) hg
      rw [he] at h1
      obtain rfl := Except.ok.inj h1
      have hnd : (chs.map Chunk.trainIds).flatten.Nodup := by
        rw [h4]
        exact ((hval f hf).trains.imp (fun h => Nat.ne_of_lt h)).filter _
      have := (List.nodup_flatten.1 hnd).2
      rw [List.pairwise_map] at this
      exact this.imp (fun h t ht1 ht2 => h ht1 ht2)
    · have hcp : (c.sourceIndex source).Pairwise Compatible := List.Pairwise.sublist List.filter_sublist hc
      have hhold : ∀ f ∈ c.sourceIndex source, Holds f source := fun f hf => (mem_sourceIndex.1 hf).2
      have hsub : ∀ f chs, f ∈ c.sourceIndex source → c.chunksOfFile source key f = .ok chs → ∀ ch ∈ chs,
          ∀ t ∈ ch.trainIds, t ∈ f.trainIds := by
        intro f chs hf he ch hch t ht
        obtain ⟨chs', ds, h1, -, h2, h3, h4, -⟩ := chunksOfFile_facts (c := c) (hval f hf) hg
        rw [he] at h1
        obtain rfl := Except.ok.inj h1
        have : t ∈ (chs.map Chunk.trainIds).flatten :=
          List.mem_flatten.2 ⟨_, List.mem_map.2 ⟨ch, hch, rfl⟩, ht⟩
        rw [h4] at this
        simp at this
        exact this.1
      clear hfile hmemf hperm hsc hcss hval
      revert hcp hhold hsub
      generalize c.sourceIndex source = fs at hall
      intro hcp hhold hsub
      induction hall with
      | nil => exact List.Pairwise.nil
      | @cons f chs fs css h1 h2 ih =>
        rw [List.pairwise_cons] at hcp ⊢
        refine ⟨?_, ih hcp.2 (fun f hf => hhold f (by simp [hf])) (fun f chs hf => hsub f chs (by simp [hf]))⟩
        intro chs' hchs' a ha b hb t hta htb
        obtain ⟨g, hg1, hg2⟩ := (mapE_mem (mapE_ok_iff.2 h2)).1 hchs'
        exact hcp.1 g hg1 source t (hhold f (by simp)) (hhold g (by simp [hg1]))
          (hsub f chs (by simp) h1 a ha t hta) (hsub g chs' (by simp [hg1]) hg2 b hb t htb)
  have hsep : css.flatten.Pairwise (fun a b => a.file = b.file → Separated a b) := by
    rw [List.pairwise_flatten]
    constructor
    · intro chs h
      obtain ⟨f, hf, he⟩ := hmemf chs h
      obtain ⟨chs', ds, h1, -, h2, h3, h4, -⟩ := chunksOfFile_facts (c := c) (hval f hf) hg
      rw [he] at h1
      obtain rfl := Except.ok.inj h1
      have hinc : (chs.map Chunk.trainIds).flatten.Pairwise (· < ·) := by
        rw [h4]; exact (hval f hf).trains.filter _
      have := (List.pairwise_flatten.1 hinc).2
      rw [List.pairwise_map] at this
      exact this.imp (fun h _ => Or.inl h)
    · have hpw2 := (List.pairwise_flatten.1 hpw).2
      have hcp : (c.sourceIndex source).Pairwise Compatible := List.Pairwise.sublist List.filter_sublist hc
      have hhold : ∀ f ∈ c.sourceIndex source, Holds f source := fun f hf => (mem_sourceIndex.1 hf).2
      have hsub : ∀ f chs, f ∈ c.sourceIndex source → c.chunksOfFile source key f = .ok chs → ∀ ch ∈ chs,
          ch.file = f ∧ ∀ t ∈ ch.trainIds, t ∈ f.trainIds := by
        intro f chs hf he ch hch
        obtain ⟨chs', ds, h1, -, h2, h3, h4, -⟩ := chunksOfFile_facts (c := c) (hval f hf) hg
        rw [he] at h1
        obtain rfl := Except.ok.inj h1
        refine ⟨(h3 ch hch).2.1, fun t ht => ?_⟩
        have : t ∈ (chs.map Chunk.trainIds).flatten :=
          List.mem_flatten.2 ⟨_, List.mem_map.2 ⟨ch, hch, rfl⟩, ht⟩
        rw [h4] at this
        simp at this
        exact this.1
      clear hfile hmemf hperm hsc hcss hval hpw hpw2
      revert hcp hhold hsub
      generalize c.sourceIndex source = fs at hall
      intro hcp hhold hsub
      induction hall with
      | nil => exact List.Pairwise.nil
      | @cons f chs fs css h1 h2 ih =>
        rw [List.pairwise_cons] at hcp ⊢
        refine ⟨?_, ih hcp.2 (fun f hf => hhold f (by simp [hf])) (fun f chs hf => hsub f chs (by simp [hf]))⟩
        intro chs' hchs' a ha b hb hab
        obtain ⟨g, hg1, hg2⟩ := (mapE_mem (mapE_ok_iff.2 h2)).1 hchs'
        left
        intro t hta u hub
        exfalso
        obtain ⟨a1, a2⟩ := hsub f chs (by simp) h1 a ha
        obtain ⟨b1, b2⟩ := hsub g chs' (by simp [hg1]) hg2 b hb
        have hfg : f = g := by rw [← a1, ← b1, hab]
        have := hcp.1 g hg1 source t (hhold f (by simp)) (hhold g (by simp [hg1])) (a2 t hta)
        rw [← hfg] at this
        exact this (a2 t hta)
  refine ⟨_, hsc, List.pairwise_insertionSort _ _, ?_, ?_, ?_, ?_, ?_, ?_, ?_⟩
  · intro ch hch
    obtain ⟨chs, h1, h2⟩ := List.mem_flatten.1 (hperm.mem_iff.1 hch)
    obtain ⟨e1, -, -, ds, w, e2, e3, e4⟩ := hfile chs h1 ch h2
    obtain ⟨e5, e6⟩ := mem_sourceIndex.1 e1
    exact ⟨ch.file, e5, e6, rfl, ds, w, e2, e3, e4⟩
  · intro f hf hh
    obtain ⟨chs, h1, h2⟩ := mapE_ok_all hcss (mem_sourceIndex.2 ⟨hf, hh⟩)
    obtain ⟨chs', ds, g1, g2, -, g3, -⟩ := chunksOfFile_facts (c := c) (hv f hf hh) hg
    rw [h2] at g1
    obtain rfl := Except.ok.inj g1
    obtain ⟨ch, hch⟩ := List.exists_mem_of_ne_nil _ g2
    exact ⟨ch, hperm.mem_iff.2 (List.mem_flatten.2 ⟨chs, h1, hch⟩), (g3 ch hch).2.1⟩
  · exact (hperm.pairwise_iff (fun {a b} h t hb ha => h t ha hb)).2 hpw
  · intro ch hch
    obtain ⟨chs, h1, h2⟩ := List.mem_flatten.1 (hperm.mem_iff.1 hch)
    exact (hfile chs h1 ch h2).2.1
  · intro t
    have e1 : ∀ l : List (Chunk V), (l.flatMap lab).filter (fun x => x.1 = t)
        = l.flatMap (fun ch => (lab ch).filter (fun x => x.1 = t)) := by
      intro l; simp [List.filter_flatMap]
    rw [e1, ← flatMap_perm hperm.symm]
    · have hall' := hall
      have hval' := hval
      clear hsc hperm hmemf hfile hpw hcss hsep
      generalize c.sourceIndex source = fs at hall' hval'
      clear hall
      induction hall' with
      | nil => rfl
      | @cons f chs fs css h1 h2 ih =>
        simp only [List.flatten_cons, List.flatMap_append, List.flatMap_cons]
        rw [ih (fun f hf => hval' f (by simp [hf])), ← e1]
        congr 1
        obtain ⟨chs', ds, g1, g2, -, g3, -, g4⟩ := chunksOfFile_facts (c := c) (hval' f (by simp)) hg
        rw [h1] at g1
        obtain rfl := Except.ok.inj g1
        exact g4 t
    · refine hpw.imp (fun {a b} h => ?_)
      by_contra hcon
      rw [not_or] at hcon
      obtain ⟨p, hp⟩ := List.exists_mem_of_ne_nil _ hcon.1
      obtain ⟨q, hq⟩ := List.exists_mem_of_ne_nil _ hcon.2
      simp only [List.mem_filter, decide_eq_true_eq] at hp hq
      have := lab_mem hp.1
      have := lab_mem hq.1
      rw [hp.2] at *
      rw [hq.2] at *
      exact h t (by assumption) (by assumption)

  · intro ch hch
    obtain ⟨chs, h1, h2⟩ := List.mem_flatten.1 (hperm.mem_iff.1 hch)
    exact (hfile chs h1 ch h2).2.2.1
  · refine (hperm.pairwise_iff (fun {a b} h e => ?_)).2 hsep
    rcases h e.symm with h | h
    · exact Or.inr (fun t ht u hu => h u hu t ht)
    · exact Or.inl (fun t ht u hu => h u hu t ht)

theorem fileEntries_notMem {f : FileAccess V} {instr : Bool} {source key : Str} {t : Nat} (h : t ∉ f.trainIds) :
    fileEntries f instr source key t = [] := by
  unfold fileEntries
  split
  · unfold indexEntries
    rw [List.filter_eq_nil_iff.2]
    · rfl
    · intro x hx
      have := (List.of_mem_zip (a := x.1) (b := x.2) hx).1
      simp only [decide_eq_true_eq]
      rintro rfl
      exact h this
  · rfl

theorem sourceIndex_flatMap {β : Type _} {c : DC V} {source : Str} (hc : NoConflict c.files) {f : FileAccess V}
    (hf : f ∈ c.files) (hh : Holds f source) {t : Nat} (ht : t ∈ f.trainIds) (g : FileAccess V → List β)
    (hg : ∀ f', t ∉ f'.trainIds → g f' = []) : (c.sourceIndex source).flatMap g = g f := by
  obtain ⟨l1, l2, hl⟩ := List.append_of_mem (mem_sourceIndex.2 ⟨hf, hh⟩)
  have hcp : (c.sourceIndex source).Pairwise Compatible := List.Pairwise.sublist List.filter_sublist hc
  have hall : ∀ f' ∈ c.sourceIndex source, Holds f' source := fun f hf => (mem_sourceIndex.1 hf).2
  rw [hl] at hcp hall ⊢
  rw [List.pairwise_append, List.pairwise_cons] at hcp
  have e1 : l1.flatMap g = [] := List.flatMap_eq_nil_iff.2 (fun f' hf' => hg f' (fun ht' =>
    hcp.2.2 f' hf' f (by simp) source t (hall f' (by simp [hf'])) hh ht' ht))
  have e2 : l2.flatMap g = [] := List.flatMap_eq_nil_iff.2 (fun f' hf' => hg f' (fun ht' =>
    hcp.2.1.1 f' hf' source t hh (hall f' (by simp [hf'])) ht ht'))
  simp [e1, e2]

theorem checkField_ok {c : DC V} {source key : Str} : c.checkField source key = .ok () ↔ Available c source key := by
  unfold DC.checkField Available
  by_cases hs : source ∈ c.allSources
  · rw [if_neg (not_not.2 hs)]
    cases hk : c.keysForSource source with
    | error e => simp
    | ok ks => by_cases h : key ∈ ks <;> simp [h, hs]
  · simp [hs]

/-- The chunks of valid files are full. -/
theorem fullChunks_valid {c : DC V} {instr : Bool} {source key : Str} (hc : NoConflict c.files)
    (hv : ValidIn c instr source key) (hs : source ∈ c.allSources) {chunks : List (Chunk V)}
    (h : c.sortedChunks source key = .ok chunks) : FullChunks chunks := by
  obtain ⟨chunks', h', -, hds, -⟩ := sortedChunks_valid hc hv hs
  rw [h] at h'
  obtain rfl := Except.ok.inj h'
  intro ch hm
  obtain ⟨f, -, -, -, ds, w, -, h1, h2⟩ := hds ch hm
  exact (chunkOf_lab h1 h2).2.2

/-- The chunks, file by file. -/
theorem mem_sortedChunks {c : DC V} {source key : Str} {chunks : List (Chunk V)} (hch : c.sortedChunks source key = .ok chunks)
    (ch : Chunk V) :
    ch ∈ chunks ↔ ∃ f ∈ c.files, Holds f source ∧ ∃ chs, c.chunksOfFile source key f = .ok chs ∧ ch ∈ chs := by
  unfold DC.sortedChunks DC.findDataChunks at hch
  split at hch
  · simp at hch
  next cs hcs =>
  obtain rfl := Except.ok.inj hch
  rw [show ch ∈ sortBy Chunk.sortKey cs ↔ ch ∈ cs from (List.perm_insertionSort _ _).mem_iff]
  split at hcs
  · simp at hcs
  next l hl =>
  obtain rfl := Except.ok.inj hcs
  rw [List.mem_flatten]
  constructor
  · rintro ⟨chs, e1, e2⟩
    obtain ⟨f, hf, h3⟩ := (mapE_mem hl).1 e1
    exact ⟨f, (mem_sourceIndex.1 hf).1, (mem_sourceIndex.1 hf).2, chs, h3, e2⟩
  · rintro ⟨f, f1, f2, chs, e1, e2⟩
    exact ⟨chs, (mapE_mem hl).2 ⟨f, mem_sourceIndex.2 ⟨f1, f2⟩, e1⟩, e2⟩

end KD
