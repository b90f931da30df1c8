/-
Reading with an index which need not be contiguous: where the entries of each train are looked for.
-/
import Verif.Lemmas.OneTrain
import Verif.Spec.Stretch

set_option linter.unusedSimpArgs false

namespace KD
open Spec

variable {V W : Type}

/-- Where reading looks for the entries of each train: those of a train after a selected one follow on, else the index says where. -/
def readStarts : Option Nat → List Bool → List Nat → List Nat → List Nat
  | prev, s :: sel, a :: firsts, n :: counts =>
    prev.getD a :: readStarts (if s then some (prev.getD a + n) else none) sel firsts counts
  | _, _, _, _ => []

theorem readStarts_length : ∀ (sel : List Bool) (firsts counts : List Nat) (prev : Option Nat), firsts.length = sel.length →
    counts.length = sel.length → (readStarts prev sel firsts counts).length = sel.length
  | [], [], [], _, _, _ => rfl
  | s :: sel, a :: firsts, n :: counts, prev, h1, h2 => by
    simp [readStarts, readStarts_length sel firsts counts _ (by simpa using h1) (by simpa using h2)]

theorem readStarts_zero (sel : List Bool) (firsts counts : List Nat) (h1 : firsts.length = sel.length)
    (h2 : counts.length = sel.length) (prev : Option Nat) :
    (readStarts prev sel firsts counts)[0]? = firsts[0]?.map (fun a => prev.getD a) := by
  match sel, firsts, counts, h1, h2 with
  | [], [], [], _, _ => rfl
  | s :: sel, a :: firsts, n :: counts, h1, h2 => rfl

theorem readStarts_succ : ∀ (i : Nat) (sel : List Bool) (firsts counts : List Nat), firsts.length = sel.length →
    counts.length = sel.length → ∀ (prev : Option Nat) (s : Bool) (x n a : Nat), sel[i]? = some s →
    (readStarts prev sel firsts counts)[i]? = some x → counts[i]? = some n → firsts[i + 1]? = some a →
    (readStarts prev sel firsts counts)[i + 1]? = some (if s then x + n else a) := by
  intro i
  induction i with
  | zero =>
    intro sel firsts counts h1 h2 prev s x n a e1 e2 e3 e4
    match sel, firsts, counts, h1, h2 with
    | [], [], [], _, _ => simp at e1
    | [s0], [a0], [n0], h1, h2 => simp at e4
    | s0 :: s1 :: sel, a0 :: a1 :: firsts, n0 :: n1 :: counts, h1, h2 =>
      simp [readStarts] at e1 e2 e3 e4 ⊢
      subst e1 e2 e3 e4
      cases s0 <;> simp
  | succ i ih =>
    intro sel firsts counts h1 h2 prev s x n a e1 e2 e3 e4
    match sel, firsts, counts, h1, h2 with
    | [], [], [], _, _ => simp at e1
    | s0 :: sel, a0 :: firsts, n0 :: counts, h1, h2 =>
      simp only [readStarts, List.getElem?_cons_succ] at e1 e2 e3 e4 ⊢
      exact ih sel firsts counts (by simpa using h1) (by simpa using h2) _ s x n a e1 e2 e3 e4

/-- What reading takes for the entries of train `t`. -/
def readEntries (f : FileAccess V) (T : List Nat) (instr : Bool) (source key : Str) (t : Nat) : List V :=
  match f.getIndex source (groupName instr key), f.dataset (sectionName instr) source key with
  | .ok (firsts, counts), .ok ds =>
    indexEntries f.trainIds (readStarts none (f.trainIds.map (fun t => decide (t ∈ T))) firsts counts) counts ds.rows t
  | _, _ => []

theorem take_succ_sum {l : List Nat} {i0 i n : Nat} (hle : i0 ≤ i) (h : l[i]? = some n) :
    ((l.drop i0).take (i + 1 - i0)).sum = ((l.drop i0).take (i - i0)).sum + n := by
  have e : i + 1 - i0 = (i - i0) + 1 := by omega
  have hi : (l.drop i0)[i - i0]? = some n := by rw [List.getElem?_drop, show i0 + (i - i0) = i by omega, h]
  rw [e, List.take_add_one, hi]
  simp

/-- In a stretch, the positions go on from the first. -/
theorem readStarts_stretch {f : FileAccess V} {T firsts counts : List Nat} (h1 : firsts.length = f.trainIds.length)
    (h2 : counts.length = f.trainIds.length) {i0 i : Nat} (hs : Stretch f T i0 i) {a : Nat} (ha : firsts[i0]? = some a) :
    (readStarts none (f.trainIds.map (fun t => decide (t ∈ T))) firsts counts)[i]? =
      some (a + ((counts.drop i0).take (i - i0)).sum) := by
  have l1 : firsts.length = (f.trainIds.map (fun t => decide (t ∈ T))).length := by simp [h1]
  have l2 : counts.length = (f.trainIds.map (fun t => decide (t ∈ T))).length := by simp [h2]
  have l3 := readStarts_length (f.trainIds.map (fun t => decide (t ∈ T))) firsts counts none l1 l2
  obtain ⟨hle, hall, hbef⟩ := hs
  obtain ⟨k, rfl⟩ : ∃ k, i = i0 + k := ⟨i - i0, by omega⟩
  clear hle
  induction k with
  | zero =>
    simp only [Nat.add_zero, Nat.sub_self, List.take_zero, List.sum_nil]
    rcases hbef with rfl | ⟨t, ht, hnt⟩
    · rw [readStarts_zero _ _ _ l1 l2, ha]
      rfl
    · cases i0 with
      | zero => rw [readStarts_zero _ _ _ l1 l2, ha]; rfl
      | succ i0 =>
        simp only [Nat.add_sub_cancel] at ht
        have hlt : i0 < f.trainIds.length := (List.getElem?_eq_some_iff.1 ht).1
        have hx := List.getElem?_eq_getElem (l := readStarts none (f.trainIds.map (fun t => decide (t ∈ T))) firsts counts)
          (i := i0) (by rw [l3]; simpa using hlt)
        have hn := List.getElem?_eq_getElem (l := counts) (i := i0) (by omega)
        have := readStarts_succ i0 _ firsts counts l1 l2 none false _ _ a (by simp [ht, hnt]) hx hn ha
        simpa using this
  | succ k ih =>
    have ih := ih (fun j hj1 hj2 => hall j hj1 (by omega))
    obtain ⟨t, ht, hT⟩ := hall (i0 + k) (by omega) (by omega)
    obtain ⟨t', ht', hT'⟩ := hall (i0 + (k + 1)) (by omega) (by omega)
    have hlt : i0 + k + 1 < f.trainIds.length := (List.getElem?_eq_some_iff.1 ht').1
    have hn := List.getElem?_eq_getElem (l := counts) (i := i0 + k) (by omega)
    have hf := List.getElem?_eq_getElem (l := firsts) (i := i0 + k + 1) (by omega)
    have := readStarts_succ (i0 + k) _ firsts counts l1 l2 none true _ _ _ (by simp [ht, hT]) ih hn hf
    rw [show i0 + (k + 1) = i0 + k + 1 by omega, this, take_succ_sum (by omega) hn]
    simp; omega

/-- Each selected train is in a stretch. -/
theorem stretch_exists {f : FileAccess V} {T : List Nat} {i t : Nat} (h : f.trainIds[i]? = some t) (ht : t ∈ T) :
    ∃ i0, Stretch f T i0 i := by
  induction i generalizing t with
  | zero => exact ⟨0, le_refl _, fun j _ hj => ⟨t, by rw [show j = 0 by omega]; exact h, ht⟩, .inl rfl⟩
  | succ i ih =>
    have hlt : i + 1 < f.trainIds.length := (List.getElem?_eq_some_iff.1 h).1
    have hu := List.getElem?_eq_getElem (l := f.trainIds) (i := i) (by omega)
    by_cases hm : f.trainIds[i] ∈ T
    · obtain ⟨i0, h1, h2, h3⟩ := ih hu hm
      refine ⟨i0, by omega, fun j hj1 hj2 => ?_, h3⟩
      by_cases hj : j = i + 1
      · exact ⟨t, hj ▸ h, ht⟩
      · exact h2 j hj1 (by omega)
    · exact ⟨i + 1, le_refl _, fun j hj1 hj2 => ⟨t, by rw [show j = i + 1 by omega]; exact h, ht⟩, .inr ⟨_, hu, hm⟩⟩

theorem keyGroup_category {c : DC V} {instr : Bool} {source key : Str}
    (hv : ∀ f ∈ c.files, Holds f source → if instr then source ∈ f.instrumentSources ∧ source ∉ f.controlSources
      else source ∈ f.controlSources ∧ source ∉ f.instrumentSources)
    (hs : source ∈ c.allSources) : c.keyGroup source key = groupName instr key := by
  unfold DC.keyGroup groupName
  obtain ⟨hk, f, hf, hh⟩ := mem_allSources.1 hs
  cases instr
  · have : source ∉ c.instrumentSources := by
      rw [mem_instrumentSources]
      rintro ⟨-, g, hg, hgi⟩
      have := hv g hg (Or.inr hgi)
      simp at this
      exact this.2 hgi
    simp [this]
  · have : source ∈ c.instrumentSources := by
      rw [mem_instrumentSources]
      have := hv f hf hh
      simp at this
      exact ⟨hk, f, hf, this.1⟩
    simp [this]

theorem chunkOf_dataset_any {f : FileAccess V} {instr : Bool} {source key : Str} {ds : Dataset V} {ch : Chunk V}
    {w : List (Nat × Nat × Nat)} (hc : if instr then source ∈ f.instrumentSources ∧ source ∉ f.controlSources
      else source ∈ f.controlSources ∧ source ∉ f.instrumentSources)
    (hds : f.dataset (sectionName instr) source key = .ok ds)
    (h : ChunkOf f source key ds ch w) : ch.dataset = .ok ds := by
  unfold Chunk.dataset
  rw [h.file, h.source, h.key]
  cases instr
  · simp only [Bool.false_eq_true, if_false] at hc
    rw [if_neg hc.2, if_pos hc.1]
    exact hds
  · simp only [if_true] at hc
    rw [if_pos hc.1]
    exact hds

theorem chunksOfFile_any {c : DC V} {f : FileAccess V} {instr : Bool} {source key : Str}
    (hv : ReadableField f c.trainIds instr source key) (hg : c.keyGroup source key = groupName instr key) :
    ∃ firsts counts ds chs ws, f.getIndex source (groupName instr key) = .ok (firsts, counts) ∧
      f.dataset (sectionName instr) source key = .ok ds ∧
      firsts.length = f.trainIds.length ∧ counts.length = f.trainIds.length ∧
      c.chunksOfFile source key f = .ok chs ∧
      List.Forall₂ (ChunkOf f source key ds) chs ws ∧
      ws.flatten = (f.trainIds.zip ((readStarts none (f.trainIds.map (fun t => decide (t ∈ c.trainIds))) firsts counts).zip
        counts)).filter (fun x => decide (x.1 ∈ c.trainIds)) := by
  obtain ⟨firsts, counts, ds, hix, hds, hl1, hl2, hin⟩ := hv.data
  let mask := f.trainIds.map (fun t => decide (t ∈ c.trainIds))
  have hlen : mask.length = f.trainIds.length := by simp [mask]
  let starts := readStarts none mask firsts counts
  have m1 : firsts.length = mask.length := by omega
  have m2 : counts.length = mask.length := by omega
  have hl3 : starts.length = f.trainIds.length := by rw [← hlen]; exact readStarts_length _ _ _ _ m1 m2
  let z := f.trainIds.zip (starts.zip counts)
  obtain ⟨z1, z2, z3⟩ := zip3_maps hl3 hl2
  have hmask : mask ≠ [] := by simp [mask, hv.someTrain]
  have hmz : mask = z.map (fun x => decide (x.1 ∈ c.trainIds)) := by
    have : z.map (fun x => decide (x.1 ∈ c.trainIds)) = (z.map (fun x => x.1)).map (fun t => decide (t ∈ c.trainIds)) := by
      simp
    rw [this, z1]
  have hreg := contiguousRegions_eq_runs mask hmask
  let g : Nat × Nat → Chunk V := fun r =>
    Chunk.mk f source key (firsts.getD r.1 0) (sl f.trainIds r.1 r.2) (sl counts r.1 r.2)
  have hmap : mapE (regionChunk f source key firsts counts) (runs none 0 mask) = .ok ((runs none 0 mask).map g) := by
    apply mapE_ok_of_forall
    intro r hr
    obtain ⟨b1, b2⟩ := mem_runs_bounds hr
    have hlt : r.1 < firsts.length := by omega
    rw [regionChunk, nth_ok_of_lt hlt]
    simp [g, List.getElem?_eq_getElem hlt]
  have hflat := (runs_flatMap_sl z mask 0 (by rw [hmz]; simp)).1
  rw [hmz, List.drop_zero, maskSel_map, ← hmz] at hflat
  have hch : c.chunksOfFile source key f = .ok (if ((runs none 0 mask).map g).isEmpty
      then [Chunk.mk f source key 0 [] []] else (runs none 0 mask).map g) := by
    unfold DC.chunksOfFile
    rw [hg, hix]
    simp only
    rw [show contiguousRegions (f.trainIds.map (fun t => decide (t ∈ c.trainIds))) = .ok (runs none 0 mask) from hreg]
    simp only
    rw [hmap]
    simp only
    split <;> rfl
  -- what is selected
  have hsel : ∀ i : Nat, mask[i]? = some true → ∃ t, f.trainIds[i]? = some t ∧ t ∈ c.trainIds := by
    intro i hi
    simp only [mask, List.getElem?_map, Option.map_eq_some_iff, decide_eq_true_eq] at hi
    exact hi
  have hnsel : ∀ i : Nat, mask[i]? = some false → ∃ t, f.trainIds[i]? = some t ∧ t ∉ c.trainIds := by
    intro i hi
    simp only [mask, List.getElem?_map, Option.map_eq_some_iff, decide_eq_false_iff_not] at hi
    exact hi
  refine ⟨firsts, counts, ds, _, if (runs none 0 mask).isEmpty then [[]] else
    (runs none 0 mask).map (fun r => sl z r.1 r.2), hix, hds, hl1, hl2, hch, ?_, ?_⟩
  · cases hr : runs none 0 mask with
    | nil =>
      simp only [List.map_nil, List.isEmpty_nil, if_true]
      refine List.Forall₂.cons ?_ List.Forall₂.nil
      exact ⟨rfl, rfl, rfl, rfl, rfl, Or.inr rfl, List.IsChain.nil, by simp⟩
    | cons r0 rs =>
      rw [if_neg (by simp), if_neg (by simp), ← hr]
      rw [List.forall₂_map_left_iff, List.forall₂_map_right_iff, List.forall₂_same]
      intro r hrr
      obtain ⟨b1, b2⟩ := mem_runs_bounds hrr
      have hrun := (((mem_runs mask mask 0 (by omega) (by simp)).1 (Or.inl rfl) r.1 r.2).1 hrr).1
      have hlt : r.1 < firsts.length := by omega
      have hzl : r.1 < z.length := by simp [z]; omega
      have hstr : ∀ i, r.1 ≤ i → i < r.2 → Stretch f c.trainIds r.1 i := by
        intro i hi1 hi2
        obtain ⟨-, -, hall, hbef, -⟩ := hrun
        refine ⟨hi1, fun j hj1 hj2 => hsel j (hall j hj1 (by omega)), ?_⟩
        rcases hbef with h | h
        · exact .inl h
        · exact .inr (hnsel _ h)
      have hfst := List.getElem?_eq_getElem hlt
      refine ⟨rfl, rfl, rfl, ?_, ?_, Or.inl ?_, ?_, ?_⟩
      · rw [← sl_map, z1]
      · rw [← sl_map, z3]
      · have : (sl z r.1 r.2).head? = z[r.1]? := by
          unfold sl
          have : r.2 - r.1 = (r.2 - r.1 - 1) + 1 := by omega
          rw [this, List.drop_eq_getElem_cons hzl, List.take_succ_cons, List.head?_cons,
            List.getElem?_eq_getElem hzl]
        rw [this]
        have : (z.map (fun x => x.2.1))[r.1]? = z[r.1]?.map (fun x => x.2.1) := by simp
        rw [← this, z2]
        have := readStarts_stretch hl1 hl2 (hstr r.1 (le_refl _) b1) hfst
        show (readStarts none _ firsts counts)[r.1]? = _
        rw [this]
        simp [g, List.getElem?_eq_getElem hlt]
      · rw [List.isChain_iff_getElem]
        intro i hi
        have hi' : r.1 + i + 1 < r.2 := by
          simp only [sl, List.length_take, List.length_drop] at hi
          omega
        simp only [sl, List.getElem_take, List.getElem_drop, z, List.getElem_zip]
        have e1 := readStarts_stretch hl1 hl2 (hstr (r.1 + i) (by omega) (by omega)) hfst
        have e2 := readStarts_stretch hl1 hl2 (hstr (r.1 + (i + 1)) (by omega) (by omega)) hfst
        have e1 : starts[r.1 + i] = _ := (List.getElem?_eq_some_iff.1 e1).2
        have e2 : starts[r.1 + (i + 1)] = _ := (List.getElem?_eq_some_iff.1 e2).2
        rw [e1, e2]
        have hn := List.getElem?_eq_getElem (l := counts) (i := r.1 + i) (by omega)
        rw [show r.1 + (i + 1) - r.1 = r.1 + i + 1 - r.1 by omega, take_succ_sum (by omega) hn]
        omega
      · intro x hx
        obtain ⟨i, hi, rfl⟩ := List.getElem_of_mem hx
        have hi' : r.1 + i < r.2 := by
          simp only [sl, List.length_take, List.length_drop] at hi
          omega
        simp only [sl, List.getElem_take, List.getElem_drop, z, List.getElem_zip]
        have e1 := readStarts_stretch hl1 hl2 (hstr (r.1 + i) (by omega) (by omega)) hfst
        have e1 : starts[r.1 + i] = _ := (List.getElem?_eq_some_iff.1 e1).2
        have hn := List.getElem?_eq_getElem (l := counts) (i := r.1 + i) (by omega)
        have := hin r.1 (r.1 + i) _ (hstr (r.1 + i) (by omega) (by omega)) hfst
        rw [take_succ_sum (by omega) hn] at this
        rw [e1]
        omega
  · cases hr : runs none 0 mask with
    | nil => rw [hr] at hflat; simpa using hflat
    | cons r0 rs =>
      rw [hr] at hflat
      simp only [List.isEmpty_cons, Bool.false_eq_true, if_false]
      rw [← hflat, List.flatMap_def]

/-- What the chunks of the file are. -/
theorem chunksOfFile_any_facts {c : DC V} {f : FileAccess V} {instr : Bool} {source key : Str}
    (hv : ReadableField f c.trainIds instr source key) (hg : c.keyGroup source key = groupName instr key) :
    ∃ chs ds, c.chunksOfFile source key f = .ok chs ∧
      (∀ ch ∈ chs, ch.dataset = .ok ds ∧ ch.file = f ∧ (∃ w, ChunkOf f source key ds ch w) ∧
        f.dataset (sectionName instr) source key = .ok ds) ∧
      (chs.map Chunk.trainIds).flatten = f.trainIds.filter (fun t => decide (t ∈ c.trainIds)) ∧
      (∀ t, (chs.flatMap lab).filter (fun x => x.1 = t) =
        if t ∈ c.trainIds then (readEntries f c.trainIds instr source key t).map (fun v => (t, v)) else []) := by
  obtain ⟨firsts, counts, ds, chs, ws, hix, hds, hl1, hl2, hch, hall, hw⟩ := chunksOfFile_any hv hg
  have hl3 : (readStarts none (f.trainIds.map (fun t => decide (t ∈ c.trainIds))) firsts counts).length = f.trainIds.length := by
    rw [readStarts_length _ _ _ _ (by simp [hl1]) (by simp [hl2])]; simp
  obtain ⟨z1, z2, z3⟩ := zip3_maps hl3 hl2
  have hmem : ∀ ch ∈ chs, ∃ w, ChunkOf f source key ds ch w := by
    intro ch hm
    clear hw hch
    induction hall with
    | nil => simp at hm
    | cons h _ ih =>
      rcases List.mem_cons.1 hm with rfl | hm
      · exact ⟨_, h⟩
      · exact ih hm
  have hlab : chs.flatMap lab = ws.flatten.flatMap (entry ds.rows) := by
    clear hw hch hmem
    induction hall with
    | nil => rfl
    | cons h _ ih =>
      simp only [List.flatMap_cons, List.flatten_cons, List.flatMap_append, ih]
      rw [(chunkOf_lab (chunkOf_dataset_any hv.category hds h) h).1]
  have htids : (chs.map Chunk.trainIds).flatten = ws.flatten.map (fun x => x.1) := by
    clear hw hch hmem hlab
    induction hall with
    | nil => rfl
    | cons h _ ih => simp only [List.map_cons, List.flatten_cons, List.map_append, ih, h.tids]
  refine ⟨chs, ds, hch, fun ch hm => ?_, ?_, fun t => ?_⟩
  · obtain ⟨w, hw⟩ := hmem ch hm
    exact ⟨chunkOf_dataset_any hv.category hds hw, hw.file, ⟨w, hw⟩, hds⟩
  · rw [htids, hw]
    conv_rhs => rw [← z1]
    rw [List.filter_map]; rfl
  · rw [hlab, hw]
    have hent : ∀ w : List (Nat × Nat × Nat), (w.flatMap (entry ds.rows)).filter (fun x => x.1 = t)
        = ((w.filter (fun x => x.1 = t)).flatMap (fun x => slice ds.rows x.2.1 x.2.2)).map (fun v => (t, v)) := by
      intro w
      induction w with
      | nil => rfl
      | cons x w ih =>
        simp only [List.flatMap_cons, List.filter_append, ih, List.filter_cons]
        by_cases hx : x.1 = t
        · simp only [hx, decide_true, if_true, List.flatMap_cons, List.map_append]
          congr 1
          rw [List.filter_eq_self.2]
          · simp [entry, hx]
          · intro p hp; simp [entry_fst hp, hx]
        · simp only [hx, decide_false, Bool.false_eq_true, if_false]
          rw [List.filter_eq_nil_iff.2]
          · rfl
          · intro p hp; simp [entry_fst hp, hx]
    rw [hent, List.filter_filter]
    by_cases ht : t ∈ c.trainIds
    · rw [if_pos ht]
      unfold readEntries
      rw [hix, hds]
      simp only [indexEntries]
      congr 2
      apply List.filter_congr
      intro x _
      by_cases hx : x.1 = t <;> simp [hx, ht]
    · rw [if_neg ht, List.filter_eq_nil_iff.2]
      · rfl
      · intro x _
        by_cases hx : x.1 = t
        · subst hx; simp [ht]
        · simp [hx]

/-- The chunks of all files. -/
theorem sortedChunks_any {c : DC V} {instr : Bool} {source key : Str} (hc : NoConflict c.files)
    (hv : ∀ f ∈ c.files, Holds f source → ReadableField f c.trainIds instr source key) (hs : source ∈ c.allSources) :
    ∃ chunks, c.sortedChunks source key = .ok chunks ∧
      (∀ ch ∈ chunks, ∃ ds w, ch.dataset = .ok ds ∧ ChunkOf ch.file source key ds ch w) ∧
      (∀ t, (chunks.flatMap lab).filter (fun x => x.1 = t) = (c.sourceIndex source).flatMap (fun f =>
        if t ∈ c.trainIds then (readEntries f c.trainIds instr source key t).map (fun v => (t, v)) else [])) ∧
      (∀ ch ∈ chunks, ch.file ∈ c.files ∧ Holds ch.file source ∧
        (∀ ds, ch.dataset = .ok ds → ch.file.dataset (sectionName instr) source key = .ok ds) ∧
        ch.trainIds.Sublist ch.file.trainIds ∧ ∀ t ∈ ch.trainIds, t ∈ c.trainIds) ∧
      chunks.Pairwise (fun a b => ∀ t ∈ a.trainIds, t ∉ b.trainIds) := by
  have hg := keyGroup_category (key := key) (fun f hf hh => (hv f hf hh).category) hs
  have hval : ∀ f ∈ c.sourceIndex source, ReadableField f c.trainIds instr source key := fun f hf =>
    hv f (mem_sourceIndex.1 hf).1 (mem_sourceIndex.1 hf).2
  obtain ⟨css, hcss⟩ := mapE_exists_ok (f := c.chunksOfFile source key) (l := c.sourceIndex source) (fun f hf => by
    obtain ⟨chs, ds, h, -⟩ := chunksOfFile_any_facts (hval f hf) hg
    exact ⟨chs, h⟩)
  have hall := mapE_ok_iff.1 hcss
  have hsc : c.sortedChunks source key = .ok (sortBy Chunk.sortKey css.flatten) := by
    unfold DC.sortedChunks DC.findDataChunks
    rw [hcss]
  have hperm : (sortBy Chunk.sortKey css.flatten).Perm css.flatten := List.perm_insertionSort _ _
  have hmemf : ∀ chs ∈ css, ∃ f ∈ c.sourceIndex source, c.chunksOfFile source key f = .ok chs := by
    intro chs h; exact (mapE_mem hcss).1 h
  have hpw : css.flatten.Pairwise (fun a b => ∀ t ∈ a.trainIds, t ∉ b.trainIds) := by
    rw [List.pairwise_flatten]
    constructor
    · intro chs h
      obtain ⟨f, hf, he⟩ := hmemf chs h
      obtain ⟨chs', ds, h1, h3, h4, -⟩ := chunksOfFile_any_facts (c := c) (hval f hf) hg
      rw [he] at h1
      obtain rfl := Except.ok.inj h1
      have hnd : (chs.map Chunk.trainIds).flatten.Nodup := by
        rw [h4]
        exact (hval f hf).trains.filter _
      have := (List.nodup_flatten.1 hnd).2
      rw [List.pairwise_map] at this
      exact this.imp (fun h t ht1 ht2 => h ht1 ht2)
    · have hcp : (c.sourceIndex source).Pairwise Compatible := List.Pairwise.sublist List.filter_sublist hc
      have hhold : ∀ f ∈ c.sourceIndex source, Holds f source := fun f hf => (mem_sourceIndex.1 hf).2
      have hsub : ∀ f chs, f ∈ c.sourceIndex source → c.chunksOfFile source key f = .ok chs → ∀ ch ∈ chs,
          ∀ t ∈ ch.trainIds, t ∈ f.trainIds := by
        intro f chs hf he ch hch t ht
        obtain ⟨chs', ds, h1, h3, h4, -⟩ := chunksOfFile_any_facts (c := c) (hval f hf) hg
        rw [he] at h1
        obtain rfl := Except.ok.inj h1
        have : t ∈ (chs.map Chunk.trainIds).flatten :=
          List.mem_flatten.2 ⟨_, List.mem_map.2 ⟨ch, hch, rfl⟩, ht⟩
        rw [h4] at this
        simp at this
        exact this.1
      clear hmemf hperm hsc hcss hval
      revert hcp hhold hsub
      generalize c.sourceIndex source = fs at hall
      intro hcp hhold hsub
      induction hall with
      | nil => exact List.Pairwise.nil
      | @cons f chs fs css h1 h2 ih =>
        rw [List.pairwise_cons] at hcp ⊢
        refine ⟨?_, ih hcp.2 (fun f hf => hhold f (by simp [hf])) (fun f chs hf => hsub f chs (by simp [hf]))⟩
        intro chs' hchs' a ha b hb t hta htb
        obtain ⟨g, hg1, hg2⟩ := (mapE_mem (mapE_ok_iff.2 h2)).1 hchs'
        exact hcp.1 g hg1 source t (hhold f (by simp)) (hhold g (by simp [hg1]))
          (hsub f chs (by simp) h1 a ha t hta) (hsub g chs' (by simp [hg1]) hg2 b hb t htb)
  refine ⟨_, hsc, ?_, ?_, ?_, (hperm.pairwise_iff (fun {a b} h t ht htb => h t htb ht)).2 hpw⟩
  · intro ch hch
    obtain ⟨chs, h1, h2⟩ := List.mem_flatten.1 (hperm.mem_iff.1 hch)
    obtain ⟨f, hf, he⟩ := hmemf chs h1
    obtain ⟨chs', ds, e1, e3, -⟩ := chunksOfFile_any_facts (c := c) (hval f hf) hg
    rw [he] at e1
    obtain rfl := Except.ok.inj e1
    obtain ⟨d1, d2, ⟨w, d3⟩, -⟩ := e3 ch h2
    rw [d2]
    exact ⟨ds, w, d1, d3⟩
  · intro t
    have e1 : ∀ l : List (Chunk V), (l.flatMap lab).filter (fun x => x.1 = t)
        = l.flatMap (fun ch => (lab ch).filter (fun x => x.1 = t)) := by
      intro l; simp [List.filter_flatMap]
    rw [e1, ← flatMap_perm hperm.symm]
    · have hall' := hall
      have hval' := hval
      clear hsc hperm hmemf hpw hcss
      generalize c.sourceIndex source = fs at hall' hval'
      clear hall
      induction hall' with
      | nil => rfl
      | @cons f chs fs css h1 h2 ih =>
        simp only [List.flatten_cons, List.flatMap_append, List.flatMap_cons]
        rw [ih (fun f hf => hval' f (by simp [hf])), ← e1]
        congr 1
        obtain ⟨chs', ds, g1, g3, -, g4⟩ := chunksOfFile_any_facts (c := c) (hval' f (by simp)) hg
        rw [h1] at g1
        obtain rfl := Except.ok.inj g1
        exact g4 t
    · refine hpw.imp (fun {a b} h => ?_)
      by_contra hcon
      rw [not_or] at hcon
      obtain ⟨p, hp⟩ := List.exists_mem_of_ne_nil _ hcon.1
      obtain ⟨q, hq⟩ := List.exists_mem_of_ne_nil _ hcon.2
      simp only [List.mem_filter, decide_eq_true_eq] at hp hq
      have := lab_mem hp.1
      have := lab_mem hq.1
      rw [hp.2] at *
      rw [hq.2] at *
      exact h t (by assumption) (by assumption)
  · intro ch hch
    obtain ⟨chs, h1, h2⟩ := List.mem_flatten.1 (hperm.mem_iff.1 hch)
    obtain ⟨f, hf, he⟩ := hmemf chs h1
    obtain ⟨chs', ds, e1, e3, e4, -⟩ := chunksOfFile_any_facts (c := c) (hval f hf) hg
    rw [he] at e1
    obtain rfl := Except.ok.inj e1
    obtain ⟨d1, d2, -, d4⟩ := e3 ch h2
    rw [d2]
    have hsub : ch.trainIds.Sublist (f.trainIds.filter (fun t => decide (t ∈ c.trainIds))) := by
      rw [← e4]
      exact List.sublist_flatten_of_mem (List.mem_map.2 ⟨ch, h2, rfl⟩)
    refine ⟨(mem_sourceIndex.1 hf).1, (mem_sourceIndex.1 hf).2, fun ds' hds' => ?_, hsub.trans List.filter_sublist, fun t ht => ?_⟩
    · rw [d1] at hds'
      rw [← Except.ok.inj hds', d4]
    · have := List.mem_filter.1 (hsub.subset ht)
      simpa using this.2

theorem readEntries_notMem {f : FileAccess V} {T : List Nat} {instr : Bool} {source key : Str} {t : Nat} (h : t ∉ f.trainIds) :
    readEntries f T instr source key t = [] := by
  unfold readEntries
  split
  · unfold indexEntries
    rw [List.filter_eq_nil_iff.2]
    · rfl
    · intro x hx
      have := (List.of_mem_zip (a := x.1) (b := x.2) hx).1
      simp only [decide_eq_true_eq]
      rintro rfl
      exact h this
  · rfl

end KD
