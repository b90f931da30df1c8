/- Examples for virtual CXI files: files whose index has gaps, and one whose index is out of order. -/
import Verif.Props.CxiArray

namespace KD
open Spec

/-- The file of module 3: one row before the first train, no frames in train 11, which points at row 0, and after train 13 two rows
which belong to no train. -/
def exGapFile : FileAccess Nat := exModule '3' [10, 11, 12, 13, 14] [1, 0, 3, 5, 9] [2, 0, 2, 2, 2] [9, 5, 7, 5, 7, 5, 7, 9, 9, 5, 7]
  [0, 100, 101, 120, 121, 130, 131, 0, 0, 140, 141]

/-- Modules 0 and 3, without train 13. -/
def exGaps : DC Nat × Det Nat := exDetOf [exGapFile,
    exModule '0' [10, 11, 12, 14] [0, 2, 4, 6] [2, 2, 2, 2] [5, 7, 5, 7, 5, 7, 5, 7] [200, 201, 210, 211, 220, 221, 240, 241]]
  [(exSource '3', 3), (exSource '0', 0)] [10, 11, 12, 14] [10, 11, 12, 14] 2

set_option maxRecDepth 20000 in
theorem exGaps_init : Det.init none exGaps.1 none none 1 = .ok exGaps.2 := by decide

theorem exGap_stretch {i0 i : Nat} (h : Stretch exGapFile [10, 11, 12, 14] i0 i) : (i0 = 0 ∧ i ≤ 2) ∨ (i0 = 4 ∧ i = 4) := by
  obtain ⟨h1, h2, h3⟩ := h
  have hi : i < 5 := by
    obtain ⟨t, ht, -⟩ := h2 i h1 (le_refl _)
    exact (List.getElem?_eq_some_iff.1 ht).1
  have not3 : ¬ (i0 ≤ 3 ∧ 3 ≤ i) := by
    rintro ⟨a, b⟩
    obtain ⟨t, ht, hm⟩ := h2 3 a b
    have : t = 13 := (Option.some.inj ht).symm
    subst this
    simp at hm
  have first : i0 = 0 ∨ i0 = 4 := by
    rcases h3 with rfl | ⟨t, ht, hm⟩
    · exact .inl rfl
    · have : i0 - 1 = 0 ∨ i0 - 1 = 1 ∨ i0 - 1 = 2 ∨ i0 - 1 = 3 := by omega
      rcases this with e | e | e | e
      · rw [e] at ht; obtain rfl := Option.some.inj ht; simp at hm
      · rw [e] at ht; obtain rfl := Option.some.inj ht; simp at hm
      · rw [e] at ht; obtain rfl := Option.some.inj ht; simp at hm
      · omega
  omega

theorem exGap_follows {key : Str} (hk : key = ch! "image.data" ∨ key = ch! "image.pulseId" ∨ key = ch! "image.cellId") :
    exGapFile.trainIds.Pairwise (· < ·) ∧ exGapFile.trainIds ≠ [] ∧ IndexedField exGapFile true (exSource '3') key ∧
      FollowsOn exGapFile [10, 11, 12, 14] true (exSource '3') key := by
  have ix := exModule_index (n := '3') (tids := [10, 11, 12, 13, 14]) (firsts := [1, 0, 3, 5, 9]) (counts := [2, 0, 2, 2, 2])
    (ids := [9, 5, 7, 5, 7, 5, 7, 9, 9, 5, 7]) (rows := [0, 100, 101, 120, 121, 130, 131, 0, 0, 140, 141]) (Or.inr rfl) rfl rfl
    (by decide) (by decide)
  have dat := exModule_data (n := '3') (tids := [10, 11, 12, 13, 14]) (firsts := [1, 0, 3, 5, 9]) (counts := [2, 0, 2, 2, 2])
    (ids := [9, 5, 7, 5, 7, 5, 7, 9, 9, 5, 7]) (rows := [0, 100, 101, 120, 121, 130, 131, 0, 0, 140, 141]) (Or.inr rfl)
  have hg : groupName true key = ch! "image" := by rcases hk with rfl | rfl | rfl <;> decide
  have hb : InBounds [1, 0, 3, 5, 9] [2, 0, 2, 2, 2] 11 :=
    inBounds_cons (by decide) (inBounds_cons (by decide) (inBounds_cons (by decide) (inBounds_cons (by decide)
      (inBounds_cons (by decide) (inBounds_nil _)))))
  refine ⟨by decide, by decide, ⟨by decide, by decide, ?_⟩, ?_⟩
  · rcases hk with rfl | rfl | rfl
    · exact ⟨_, _, _, ix, dat.1, rfl, rfl, hb⟩
    · exact ⟨_, _, _, ix, dat.2.1, rfl, rfl, hb⟩
    · exact ⟨_, _, _, ix, dat.2.2, rfl, rfl, hb⟩
  · intro firsts counts he i0 i a b n hs ha hb' hn hne
    rw [hg] at he
    obtain ⟨rfl, rfl⟩ := Prod.mk.inj (Except.ok.inj (ix.symm.trans he))
    rcases exGap_stretch hs with ⟨rfl, hi⟩ | ⟨rfl, rfl⟩
    · have : i = 0 ∨ i = 1 ∨ i = 2 := by omega
      rcases this with rfl | rfl | rfl <;> simp at ha hb' hn <;> subst ha <;> subst hb' <;> subst hn <;> simp at hne ⊢
    · simp at ha hb'
      subst ha; subst hb'; simp

theorem exGaps_files {f : FileAccess Nat} (hf : f ∈ exGaps.1.files) {x : Str × Nat} (hx : x ∈ exGaps.2.sourceToModno)
    (hh : Holds f x.1) : (f = exGapFile ∧ x.1 = exSource '3') ∨
      (f = exModule '0' [10, 11, 12, 14] [0, 2, 4, 6] [2, 2, 2, 2] [5, 7, 5, 7, 5, 7, 5, 7] [200, 201, 210, 211, 220, 221, 240, 241] ∧
        x.1 = exSource '0') := by
  simp only [exGaps, exDetOf, List.mem_cons, List.not_mem_nil, or_false] at hf hx
  rcases hf with rfl | rfl <;> rcases hx with rfl | rfl
  · exact Or.inl ⟨rfl, rfl⟩
  · exact absurd hh (by rintro (h | h) <;> revert h <;> decide)
  · exact absurd hh (by rintro (h | h) <;> revert h <;> decide)
  · exact Or.inr ⟨rfl, rfl⟩

/-- The example meets the hypotheses of `cxi_file`, `cxi_pulse_ids_exact` and others, although its index is not contiguous. -/
theorem exGaps_follows : NoConflict exGaps.1.files ∧ PlainSources exGaps.2 ∧ ModulesInRange exGaps.2 ∧
    (∀ x ∈ exGaps.2.sourceToModno, HasImages exGaps.1 x.1) ∧
    (∀ key, key = ch! "image.data" ∨ key = ch! "image.pulseId" ∨ key = ch! "image.cellId" →
      ∀ x ∈ exGaps.2.sourceToModno, FollowsIn exGaps.1 exGaps.2.data.trainIds true x.1 key) ∧
    ¬ ValidIn exGaps.1 true (exSource '3') (ch! "image.data") := by
  have v0 := exModule_valid (n := '0') (tids := [10, 11, 12, 14]) (firsts := [0, 2, 4, 6]) (counts := [2, 2, 2, 2])
    (ids := [5, 7, 5, 7, 5, 7, 5, 7])
    (rows := [200, 201, 210, 211, 220, 221, 240, 241]) (Or.inl rfl) (by decide) (by decide) rfl rfl
    (contiguous_cons rfl (contiguous_cons rfl (contiguous_cons rfl (contiguous_one _ _))))
    (inBounds_cons (by decide) (inBounds_cons (by decide) (inBounds_cons (by decide) (inBounds_cons (by decide) (inBounds_nil _)))))
    rfl (by decide) (by decide)
  have hfol : ∀ key, key = ch! "image.data" ∨ key = ch! "image.pulseId" ∨ key = ch! "image.cellId" →
      ∀ x ∈ exGaps.2.sourceToModno, FollowsIn exGaps.1 exGaps.2.data.trainIds true x.1 key := by
    intro key hk x hx f hf hh
    rcases exGaps_files hf hx hh with ⟨rfl, e⟩ | ⟨rfl, e⟩ <;> rw [e]
    · exact exGap_follows hk
    · have hv : ValidField (exModule '0' [10, 11, 12, 14] [0, 2, 4, 6] [2, 2, 2, 2] [5, 7, 5, 7, 5, 7, 5, 7]
          [200, 201, 210, 211, 220, 221, 240, 241]) true (exSource '0') key := by
        rcases hk with rfl | rfl | rfl
        · exact v0.1
        · exact v0.2.1
        · exact v0.2.2
      exact ⟨hv.trains, hv.someTrain, hv.indexed, followsOn_of_valid hv⟩
  refine ⟨by rw [← hasConflicts_false]; decide, ?_, by unfold ModulesInRange; decide, ?_, hfol, ?_⟩
  · intro x hx
    simp only [exGaps, exDetOf, List.mem_cons, List.not_mem_nil, or_false] at hx
    rcases hx with rfl | rfl <;> (intro c hc; revert c; decide)
  · intro x hx
    refine ⟨followsIn_indexed (hfol _ (.inl rfl) x hx), fun f hf hh => ?_⟩
    rcases exGaps_files hf hx hh with ⟨rfl, e⟩ | ⟨rfl, e⟩ <;> rw [e]
    · exact ⟨⟨_, rfl, by decide⟩, by decide⟩
    · exact ⟨⟨_, rfl, by decide⟩, by decide⟩
  · intro h
    have hv := h exGapFile (by decide) (by unfold Holds; decide)
    obtain ⟨firsts, counts, ds, h1, -, -, -, hcon, -⟩ := hv.data
    have ix := exModule_index (n := '3') (tids := [10, 11, 12, 13, 14]) (firsts := [1, 0, 3, 5, 9]) (counts := [2, 0, 2, 2, 2])
      (ids := [9, 5, 7, 5, 7, 5, 7, 9, 9, 5, 7]) (rows := [0, 100, 101, 120, 121, 130, 131, 0, 0, 140, 141]) (Or.inr rfl) rfl rfl
      (by decide) (by decide)
    obtain ⟨rfl, rfl⟩ := Prod.mk.inj (Except.ok.inj (ix.symm.trans h1))
    exact absurd (hcon 0 1 2 0 rfl rfl rfl) (by decide)

set_option maxRecDepth 20000 in
/-- The frames are in the rows of their trains: none in the rows of train 11, and those of train 14 after the gap. -/
example : (exGaps.2.writeVirtualCxi id [2, 2]).map (fun x => (x.trainIds, x.pulseIds,
      x.layouts.map fun l => (List.range l.grid.rows).map fun r => l.grid.cell r 3)) =
    .ok ([10, 10, 11, 11, 12, 12, 14, 14], [5, 7, 5, 7, 5, 7, 5, 7],
      [[some 100, some 101, none, none, some 120, some 121, some 140, some 141],
       [some 5, some 7, none, none, some 5, some 7, some 5, some 7]]) := by decide

set_option maxRecDepth 20000 in
/-- C62 is wrong for files whose entries are not in the order of the trains: here those of train 11 (110 and 111) come before those of
train 10, and the virtual file has the rows after those of train 10 in their place. -/
theorem cxi_index_wrong :
    let file := exModule '3' [10, 11] [2, 0] [2, 2] [5, 7, 5, 7, 5, 7] [110, 111, 100, 101, 0, 1]
    let x := exDetOf [file] [(exSource '3', 3)] [10, 11] [10, 11] 2
    Det.init none x.1 none none 1 = .ok x.2 ∧ fileEntries file true (exSource '3') (ch! "image.data") 11 = [110, 111] ∧
      (x.2.writeVirtualCxi id [2, 2]).map (fun x => (x.trainIds, (x.layouts.take 1).map fun l => (List.range l.grid.rows).map
        fun r => l.grid.cell r 3)) = .ok ([10, 10, 11, 11], [[some 100, some 101, some 0, some 1]]) := ⟨by decide, by decide, by decide⟩

end KD
