/- Property C25: exactly when the labels of arrays are in order. -/
import Verif.Props.Arrays
import Verif.Spec.ArrayOrder

namespace KD
open Spec

variable {V W : Type}

theorem sl_at {α : Type _} (l : List α) {a b i : Nat} : i < b - a → (sl l a b)[i]? = l[a + i]? := by
  intro h
  simp [sl, h]

theorem mem_sl {α : Type _} {l : List α} {a b : Nat} {x : α} (h : x ∈ sl l a b) : ∃ i, a ≤ i ∧ i < b ∧ l[i]? = some x := by
  obtain ⟨i, hi⟩ := List.mem_iff_getElem?.1 h
  have hlt : i < b - a := by
    by_contra hn
    simp [sl, hn] at hi
  rw [sl_at l hlt] at hi
  exact ⟨a + i, by omega, by omega, hi⟩

theorem increasing_lt {l : List Nat} (h : l.Pairwise (· < ·)) {i j x y : Nat} (hi : l[i]? = some x) (hj : l[j]? = some y) :
    x < y ↔ i < j := by
  obtain ⟨hi', rfl⟩ := List.getElem?_eq_some_iff.1 hi
  obtain ⟨hj', rfl⟩ := List.getElem?_eq_some_iff.1 hj
  have hp := List.pairwise_iff_getElem.1 h
  constructor
  · intro hlt
    by_contra hn
    rcases Nat.lt_or_ge j i with h2 | h2
    · have := hp j i hj' hi' h2; omega
    · have : i = j := by omega
      subst this; omega
  · exact fun hlt => hp i j hi' hj' hlt

/-- The trains of a chunk are a maximal run of selected trains of its file. -/
theorem chunk_sameRun {c : DC V} {source key : Str} {f : FileAccess V} {chs : List (Chunk V)} (hinc : f.trainIds.Pairwise (· < ·))
    (hne : f.trainIds ≠ []) (h : c.chunksOfFile source key f = .ok chs) {ch : Chunk V} (hm : ch ∈ chs) {t : Nat}
    (ht : t ∈ ch.trainIds) (s : Nat) : (s ∈ ch.trainIds ∧ s ≤ t) ↔ SameRun c f s t := by
  unfold DC.chunksOfFile at h
  split at h
  · simp at h
  next firsts counts hix =>
  simp only at h
  have hmask : f.trainIds.map (fun t => decide (t ∈ c.trainIds)) ≠ [] := by simp [hne]
  rw [contiguousRegions_eq_runs _ hmask] at h
  simp only at h
  split at h
  · simp at h
  next chunks hch =>
  split at h
  · obtain rfl := Except.ok.inj h
    obtain rfl := List.mem_singleton.1 hm
    simp at ht
  obtain rfl := Except.ok.inj h
  obtain ⟨r, hr, hrc⟩ := (mapE_mem hch).1 hm
  have hrun := (((mem_runs _ _ 0 (Nat.zero_le _) rfl).1 (Or.inl rfl) r.1 r.2).1 hr).1
  unfold regionChunk at hrc
  split at hrc
  · simp at hrc
  obtain rfl := Except.ok.inj hrc
  simp only at ht ⊢
  obtain ⟨j, hj1, hj2, hj⟩ := mem_sl ht
  obtain ⟨-, r2, r3, r4, -⟩ := hrun
  have hsel : ∀ (i x : Nat), f.trainIds[i]? = some x →
      (f.trainIds.map (fun t => decide (t ∈ c.trainIds)))[i]? = some (decide (x ∈ c.trainIds)) := by
    intro i x hx; simp [hx]
  constructor
  · rintro ⟨hs, hle⟩
    obtain ⟨i, hi1, hi2, hi⟩ := mem_sl hs
    refine ⟨List.mem_of_getElem? hi, List.mem_of_getElem? hj, hle, fun u hu h1 h2 => ?_⟩
    obtain ⟨k, hk⟩ := List.mem_iff_getElem?.1 hu
    have hk1 : i ≤ k := by
      by_contra hn
      have := (increasing_lt hinc hk hi).2 (by omega); omega
    have hk2 : k ≤ j := by
      by_contra hn
      have := (increasing_lt hinc hj hk).2 (by omega); omega
    have := r3 k (by omega) (by omega)
    rw [hsel k u hk] at this
    simpa using this
  · rintro ⟨hs, -, hle, hall⟩
    refine ⟨?_, hle⟩
    obtain ⟨i, hi⟩ := List.mem_iff_getElem?.1 hs
    have hij : i ≤ j := by
      by_contra hn
      have := (increasing_lt hinc hj hi).2 (by omega); omega
    have hri : r.1 ≤ i := by
      by_contra hn
      rcases r4 with r4 | r4
      · omega
      · have hlt : r.1 - 1 < f.trainIds.length := by
          have := (List.getElem?_eq_some_iff.1 r4).1
          simpa using this
        have hx := List.getElem?_eq_getElem hlt
        rw [hsel _ _ hx] at r4
        have h1 : s ≤ f.trainIds[r.1 - 1] := by
          by_contra hn2
          have := (increasing_lt hinc hx hi).1 (by omega); omega
        have h2 : f.trainIds[r.1 - 1] ≤ t := by
          by_contra hn2
          have := (increasing_lt hinc hj hx).1 (by omega); omega
        have := hall _ (List.getElem_mem hlt) h1 h2
        simp [this] at r4
    have hmem := List.mem_of_getElem? (l := sl f.trainIds r.1 r.2) (i := i - r.1) (a := s)
    rw [sl_at _ (by omega), show r.1 + (i - r.1) = i by omega] at hmem
    exact hmem hi

theorem sortedChunks_mem {c : DC V} {source key : Str} {chunks : List (Chunk V)} (h : c.sortedChunks source key = .ok chunks)
    {ch : Chunk V} (hm : ch ∈ chunks) : ∃ f ∈ c.sourceIndex source, ∃ chs, c.chunksOfFile source key f = .ok chs ∧ ch ∈ chs := by
  unfold DC.sortedChunks DC.findDataChunks at h
  split at h
  · simp at h
  next cs hcs =>
  split at hcs
  · simp at hcs
  next css hcss =>
  obtain rfl := Except.ok.inj hcs
  obtain rfl := Except.ok.inj h
  have hm2 : ch ∈ css.flatten := (List.perm_insertionSort _ _).mem_iff.1 hm
  obtain ⟨chs, h1, h2⟩ := List.mem_flatten.1 hm2
  obtain ⟨f, hf, he⟩ := (mapE_mem hcss).1 h1
  exact ⟨f, hf, chs, he, h2⟩

/-- Two files of a collection which both have a source and a train are the same. -/
theorem same_file_of_train {c : DC V} (hc : NoConflict c.files) {source : Str} {f g : FileAccess V} (hf : f ∈ c.files) (hg : g ∈ c.files)
    (hf2 : Holds f source) (hg2 : Holds g source) {t : Nat} (h1 : t ∈ f.trainIds) (h2 : t ∈ g.trainIds) : f = g := by
  by_contra hne
  have hsym : c.files.Pairwise (fun f g => ∀ (source : Str) (t : Nat), Holds f source → Holds g source → t ∈ f.trainIds → t ∉ g.trainIds) :=
    hc
  have : Std.Symm (fun f g : FileAccess V => ∀ (source : Str) (t : Nat), Holds f source → Holds g source → t ∈ f.trainIds →
    t ∉ g.trainIds) := ⟨fun f g h source t a b x y => h source t b a y x⟩
  exact hsym.forall hf hg hne source t hf2 hg2 h1 h2

theorem mem_coords_labelled {a : LArr W} (hl : AllLabelled a) (t : Nat) : t ∈ a.coords.getD [] ↔ labelled a t ≠ [] := by
  unfold labelled
  constructor
  · intro h
    obtain ⟨i, hi⟩ := List.mem_iff_getElem?.1 h
    have hlt : i < a.rows.length := by
      have := (List.getElem?_eq_some_iff.1 hi).1
      unfold AllLabelled at hl
      omega
    have hz : (t, a.rows[i]) ∈ (a.coords.getD []).zip a.rows :=
      List.mem_of_getElem? (List.getElem?_zip_eq_some.2 ⟨hi, List.getElem?_eq_getElem hlt⟩)
    intro he
    have := List.map_eq_nil_iff.1 he
    rw [List.filter_eq_nil_iff] at this
    exact this _ hz (by simp)
  · intro h
    obtain ⟨x, hx⟩ := List.exists_mem_of_ne_nil _ h
    obtain ⟨p, hp, -⟩ := List.mem_map.1 hx
    obtain ⟨p1, p2⟩ := List.mem_filter.1 hp
    have := (List.of_mem_zip (a := p.1) (b := p.2) p1).1
    have e : p.1 = t := by simpa using p2
    rwa [e] at this

theorem sortedChunks_sorted {c : DC V} {source key : Str} {chunks : List (Chunk V)} (h : c.sortedChunks source key = .ok chunks) :
    chunks.Pairwise (fun a b => a.sortKey ≤ b.sortKey) := by
  unfold DC.sortedChunks at h
  split at h
  · simp at h
  · obtain rfl := Except.ok.inj h
    have : Std.Total (fun a b : Chunk V => a.sortKey ≤ b.sortKey) := ⟨fun a b => Nat.le_total _ _⟩
    have : IsTrans (Chunk V) (fun a b => a.sortKey ≤ b.sortKey) := ⟨fun a b c h1 h2 => Nat.le_trans h1 h2⟩
    exact List.pairwise_insertionSort _ _

/-- The labels of arrays are in order exactly if no two files have trains in the wrong order, when the array has entries for the trains for
which the files have. -/
theorem array_order_of {c : DC V} {instr : Bool} {source key : Str} {roi : V → W} {a : LArr W} {chunks : List (Chunk V)}
    (hc : NoConflict c.files) (h : c.getArray source key roi = .ok a) (hch : c.sortedChunks source key = .ok chunks) (hal : AllLabelled a)
    (hex : ∀ t ∈ c.trainIds, ∀ f ∈ c.files, Holds f source → t ∈ f.trainIds → (labelled a t ≠ [] ↔ fileEntries f instr source key t ≠ []))
    (hfile : ∀ ch ∈ chunks, ch.file ∈ c.files ∧ Holds ch.file source)
    (hdis : chunks.Pairwise (fun a b => ∀ t ∈ a.trainIds, t ∉ b.trainIds))
    (hsub : ∀ ch ∈ chunks, ∀ t ∈ ch.trainIds, t ∈ c.trainIds ∧ t ∈ ch.file.trainIds)
    (hinc : ∀ ch ∈ chunks, ch.trainIds.Pairwise (· < ·))
    (hrun : ∀ ch ∈ chunks, ∀ t ∈ ch.trainIds, ∀ s, (s ∈ ch.trainIds ∧ s ≤ t) ↔ SameRun c ch.file s t) :
    (a.coords.getD []).Pairwise (· ≤ ·) ↔ TrainsInOrder c instr source key := by
  obtain ⟨hcf, chunks', hch', -, hlab, -, -, -⟩ := getArray_ok h
  rw [hch] at hch'
  obtain rfl := Except.ok.inj hch'
  have hsort : chunks.Pairwise (fun a b => a.sortKey ≤ b.sortKey) := sortedChunks_sorted hch
  have hent : ∀ ch ∈ chunks, ∀ t ∈ labelsOf ch, fileEntries ch.file instr source key t ≠ [] := by
    intro ch hm t ht
    have h1 := (mem_coords_labelled hal t).1 (by rw [hlab]; exact List.mem_flatMap.2 ⟨ch, hm, ht⟩)
    have h2 := hsub ch hm t (npRepeat_mem ht)
    exact (hex t h2.1 ch.file (hfile ch hm).1 (hfile ch hm).2 h2.2).1 h1
  have hhead : ∀ ch : Chunk V, ∀ t ∈ ch.trainIds, ch.sortKey ∈ ch.trainIds := by
    intro ch t ht
    unfold Chunk.sortKey
    cases e : ch.trainIds with
    | nil => rw [e] at ht; simp at ht
    | cons x l => simp
  have hmin : ∀ ch ∈ chunks, ∀ t ∈ ch.trainIds, ch.sortKey ≤ t := by
    intro ch hm t ht
    have := hinc ch hm
    unfold Chunk.sortKey
    cases e : ch.trainIds with
    | nil => rw [e] at ht; simp at ht
    | cons x l =>
      rw [e] at ht this
      rw [List.pairwise_cons] at this
      rcases List.mem_cons.1 ht with rfl | ht
      · exact Nat.le_refl _
      · exact Nat.le_of_lt (this.1 t ht)
  constructor
  · rintro hp f hf g hg hf2 hg2 ⟨u, v, huv, hev, heu, s, hsv, huu, hall⟩
    have hwhere : ∀ f ∈ c.files, Holds f source → ∀ t, fileEntries f instr source key t ≠ [] → SameRun c f t t →
        ∃ ch ∈ chunks, t ∈ labelsOf ch ∧ ch.file = f := by
      intro f hf hf2 t he hr
      have hsel : t ∈ c.trainIds := hr.2.2.2 t hr.1 (Nat.le_refl t) (Nat.le_refl t)
      have h1 : t ∈ a.coords.getD [] := by
        exact (mem_coords_labelled hal t).2 ((hex t hsel f hf hf2 hr.1).2 he)
      rw [hlab] at h1
      obtain ⟨ch, hm, ht⟩ := List.mem_flatMap.1 h1
      exact ⟨ch, hm, ht, same_file_of_train hc (hfile ch hm).1 hf (hfile ch hm).2 hf2 (hsub ch hm t (npRepeat_mem ht)).2 hr.1⟩
    have hvv : SameRun c f v v :=
      ⟨hsv.2.1, hsv.2.1, Nat.le_refl v, fun x hx h1 h2 => hsv.2.2.2 x hx (by have := hsv.2.2.1; omega) h2⟩
    obtain ⟨A, hA, hvA, rfl⟩ := hwhere f hf hf2 v hev hvv
    obtain ⟨B, hB, huB, rfl⟩ := hwhere g hg hg2 u heu huu
    have hsA : s ∈ A.trainIds := ((hrun A hA v (npRepeat_mem hvA) s).2 hsv).1
    have h1 := hmin A hA s hsA
    have h2 := hall B.sortKey ((hrun B hB u (npRepeat_mem huB) B.sortKey).1
      ⟨hhead B u (npRepeat_mem huB), hmin B hB u (npRepeat_mem huB)⟩)
    rw [hlab, List.pairwise_flatMap] at hp
    have hall2 := (hsort.and hp.2).imp (S := fun a b => (a.sortKey ≤ b.sortKey ∧ ∀ x ∈ labelsOf a, ∀ y ∈ labelsOf b, x ≤ y) ∨
      (b.sortKey ≤ a.sortKey ∧ ∀ x ∈ labelsOf b, ∀ y ∈ labelsOf a, x ≤ y)) (fun h => Or.inl h)
    have hne : A ≠ B := fun e => by subst e; omega
    have : Std.Symm (fun a b : Chunk V => (a.sortKey ≤ b.sortKey ∧ ∀ x ∈ labelsOf a, ∀ y ∈ labelsOf b, x ≤ y) ∨
      (b.sortKey ≤ a.sortKey ∧ ∀ x ∈ labelsOf b, ∀ y ∈ labelsOf a, x ≤ y)) := ⟨fun a b h => Or.symm h⟩
    rcases hall2.forall hA hB hne with h3 | h3
    · have := h3.2 v hvA u huB; omega
    · omega
  · intro hno
    rw [hlab, List.pairwise_flatMap]
    refine ⟨fun ch hm => npRepeat_pairwise (hinc ch hm) _, ?_⟩
    have hall := hsort.and hdis
    rw [List.pairwise_iff_forall_sublist] at hall ⊢
    intro A B hAB t ht u hu
    obtain ⟨h1, h2⟩ := hall hAB
    have hA : A ∈ chunks := hAB.subset (by simp)
    have hB : B ∈ chunks := hAB.subset (by simp)
    have htA := npRepeat_mem ht
    have huB := npRepeat_mem hu
    by_contra hlt
    have hk : A.sortKey < B.sortKey := by
      rcases Nat.lt_or_ge A.sortKey B.sortKey with h | h
      · exact h
      · have e : A.sortKey = B.sortKey := by omega
        exact absurd (hhead B u huB) (e ▸ h2 _ (hhead A t htA))
    refine hno A.file (hfile A hA).1 B.file (hfile B hB).1 (hfile A hA).2 (hfile B hB).2 ⟨u, t, by omega, hent A hA t ht, hent B hB u hu,
      A.sortKey, (hrun A hA t htA _).1 ⟨hhead A t htA, hmin A hA t htA⟩, (hrun B hB u huB u).1 ⟨huB, Nat.le_refl u⟩, fun s' hs' => ?_⟩
    have := hmin B hB s' ((hrun B hB u huB s').2 hs').1
    omega

/-- C25. Exactly when the labels of an array are in order: if there are no two files with trains of the source in the wrong order. -/
theorem get_array_order {c : DC V} {instr : Bool} {source key : Str} {roi : V → W} {a : LArr W}
    (hc : NoConflict c.files) (hv : ValidIn c instr source key) (h : c.getArray source key roi = .ok a) :
    (a.coords.getD []).Pairwise (· ≤ ·) ↔ TrainsInOrder c instr source key := by
  obtain ⟨hal, hex, hno⟩ := get_array_exact hc hv h
  have hs : source ∈ c.allSources := (checkField_ok.1 (getArray_ok h).1).1
  obtain ⟨chunks, hch, -, hds, -, hdis, hsub, -, hinc, -⟩ := sortedChunks_valid hc hv hs
  refine array_order_of hc h hch hal (fun t ht f hf hh htf => ?_) (fun ch hm => ?_) hdis hsub hinc (fun ch hm t ht s => ?_)
  · rw [hex t ht f hf hh htf]
    simp
  · obtain ⟨f, h1, h2, h3, -⟩ := hds ch hm
    rw [h3]; exact ⟨h1, h2⟩
  · obtain ⟨f, hf, chs, h1, h2⟩ := sortedChunks_mem hch hm
    have hvf := hv f (mem_sourceIndex.1 hf).1 (mem_sourceIndex.1 hf).2
    obtain ⟨chs', ds, e1, -, -, e3, -⟩ := chunksOfFile_facts (c := c) hvf (keyGroup_valid hv hs)
    rw [h1] at e1
    obtain rfl := Except.ok.inj e1
    rw [(e3 ch h2).2.1]
    exact chunk_sameRun hvf.trains hvf.someTrain h1 h2 ht s

/-- Files whose ranges of trains do not overlap are in order. -/
theorem inOrder_of_ranges {c : DC V} (instr : Bool) {source : Str} (key : Str)
    (hsep : ∀ f ∈ c.files, ∀ g ∈ c.files, Holds f source → Holds g source → f ≠ g →
      (∀ t ∈ f.trainIds, ∀ u ∈ g.trainIds, t < u) ∨ (∀ t ∈ f.trainIds, ∀ u ∈ g.trainIds, u < t)) : TrainsInOrder c instr source key := by
  rintro f hf g hg hf2 hg2 ⟨u, v, huv, -, -, s, hsv, huu, hall⟩
  have h1 := hall u huu
  by_cases e : f = g
  · subst e
    have := hall s ⟨hsv.1, huu.1, by omega, fun x hx a b => hsv.2.2.2 x hx a (by omega)⟩
    omega
  · rcases hsep f hf g hg hf2 hg2 e with h | h
    · have := h v hsv.2.1 u huu.1; omega
    · have := h s hsv.1 u huu.1; omega

/-- The two files with interleaved trains are in the wrong order. -/
example : Interleaved exArr true (ch! "D:o") (ch! "data.y") (exInst (ch! "a") [1, 3] [0, 2] [2, 1] [10, 11, 12])
    (exInst (ch! "b") [2, 4] [0, 1] [1, 0] [20]) := by
  refine ⟨2, 3, by decide, by decide, by decide, 1, ⟨by decide, by decide, by decide, by decide⟩, ⟨by decide, by decide, by decide, by decide⟩, ?_⟩
  rintro s' ⟨h1, -, h2, -⟩
  simp [exInst] at h1
  omega

/-- With trains 1 and 3 selected only, they are in order. -/
example : ∀ a, ({ exArr with trainIds := [1, 3] } : DC Nat).getArray (ch! "D:o") (ch! "data.y") id = .ok a →
    (a.coords.getD []).Pairwise (· ≤ ·) := by
  intro a h
  rw [show ({ exArr with trainIds := [1, 3] } : DC Nat).getArray (ch! "D:o") (ch! "data.y") id =
    .ok ⟨[10, 11, 12], some [1, 1, 3], [], 0⟩ from by decide] at h
  obtain rfl := Except.ok.inj h
  decide

end KD
