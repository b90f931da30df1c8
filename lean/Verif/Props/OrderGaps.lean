/- Property C25 for indexes with gaps: exactly when the labels of arrays are in order. -/
import Verif.Props.ArrayOrder
import Verif.Props.AnyIndex
import Verif.Props.DaskErrors

namespace KD
open Spec

variable {V W : Type}

theorem followsIn_readable {c : DC V} {T : List Nat} {b : Bool} {s k : Str} (h : FollowsIn c T b s k) :
    ∀ f ∈ c.files, Holds f s → ReadableField f T b s k := fun f hf hh =>
  followsOn_readable (h f hf hh).2.2.1 (h f hf hh).2.1 (h f hf hh).2.2.2

theorem sortedChunks_any_files {c : DC V} {instr : Bool} {source key : Str}
    (hv : ∀ f ∈ c.files, Holds f source → ReadableField f c.trainIds instr source key) (hs : source ∈ c.allSources)
    {chunks : List (Chunk V)} (hch : c.sortedChunks source key = .ok chunks) :
    (∀ ch ∈ chunks, ∃ f ∈ c.files, Holds f source ∧ ch.file = f ∧ ∃ ds w,
      f.dataset (sectionName instr) source key = .ok ds ∧ ch.dataset = .ok ds ∧ ChunkOf f source key ds ch w) ∧
    (∀ f ∈ c.files, Holds f source → ∃ ch ∈ chunks, ch.file = f) := by
  have hg := keyGroup_category (key := key) (fun f hf hh => (hv f hf hh).category) hs
  constructor
  · intro ch hm
    obtain ⟨f, hf, hh, chs, h1, h2⟩ := (mem_sortedChunks hch ch).1 hm
    obtain ⟨firsts, counts, ds, chs', ws, -, hds, -, -, h3, h4, -⟩ := chunksOfFile_any (hv f hf hh) hg
    rw [h1] at h3
    obtain rfl := Except.ok.inj h3
    have hex : ∃ w, ChunkOf f source key ds ch w := by
      clear h1
      induction h4 with
      | nil => simp at h2
      | cons hd _ ih =>
        rcases List.mem_cons.1 h2 with rfl | h
        · exact ⟨_, hd⟩
        · exact ih h rfl
    obtain ⟨w, hw⟩ := hex
    exact ⟨f, hf, hh, hw.file, ds, w, hds, chunkOf_dataset_any (hv f hf hh).category hds hw, hw⟩
  · intro f hf hh
    obtain ⟨firsts, counts, ds, chs, ws, -, -, -, -, h1, -⟩ := chunksOfFile_any (hv f hf hh) hg
    obtain ⟨hne, hall⟩ := chunksOfFile_ne h1
    obtain ⟨ch, chs', rfl⟩ := List.exists_cons_of_ne_nil hne
    exact ⟨ch, (mem_sortedChunks hch ch).2 ⟨f, hf, hh, _, h1, by simp⟩, (hall ch (by simp)).1⟩

theorem any_fullChunks {c : DC V} {instr : Bool} {source key : Str} (hc : NoConflict c.files)
    (hv : ∀ f ∈ c.files, Holds f source → ReadableField f c.trainIds instr source key) (hs : source ∈ c.allSources)
    {chunks : List (Chunk V)} (hch : c.sortedChunks source key = .ok chunks) : FullChunks chunks := by
  obtain ⟨chunks', hch', hds, -⟩ := sortedChunks_any hc hv hs
  rw [hch] at hch'
  obtain rfl := Except.ok.inj hch'
  intro ch hm
  obtain ⟨ds, w, h1, h2⟩ := hds ch hm
  exact (chunkOf_lab h1 h2).2.2

theorem validIn_follows {c : DC V} {b : Bool} {s k : Str} (h : ValidIn c b s k) (T : List Nat) : FollowsIn c T b s k :=
  followsIn_of_valid h

theorem keyGroup_follows {c : DC V} {T : List Nat} {instr : Bool} {source key : Str} (hv : FollowsIn c T instr source key)
    (hs : source ∈ c.allSources) : c.keyGroup source key = groupName instr key :=
  keyGroup_category (fun f hf hh => (hv f hf hh).2.2.1.category) hs

theorem fullChunks_gaps {c : DC V} {instr : Bool} {source key : Str} (hc : NoConflict c.files)
    (hv : FollowsIn c c.trainIds instr source key) (hs : source ∈ c.allSources) {chunks : List (Chunk V)}
    (h : c.sortedChunks source key = .ok chunks) : FullChunks chunks :=
  any_fullChunks hc (followsIn_readable hv) hs h

/-- C22, C147 for indexes with gaps. `get_array` raises an exception exactly if entries differ in shape or type between files. -/
theorem get_array_mismatch_gaps {c : DC V} {instr : Bool} {source key : Str} (roi : V → W) (hc : NoConflict c.files)
    (hv : FollowsIn c c.trainIds instr source key) (ha : Available c source key) :
    (Mismatch c instr source key → c.getArray source key roi = .error .generic) ∧
    (¬ Mismatch c instr source key → ∃ a, c.getArray source key roi = .ok a ∧
      ∀ f ∈ c.files, Holds f source → ∃ d, f.dataset (sectionName instr) source key = .ok d ∧
        a.rowShape = d.rowShape ∧ a.dtype = d.dtype) := by
  obtain ⟨chunks, hch, -⟩ := sortedChunks_any hc (followsIn_readable hv) ha.1
  obtain ⟨h1, h2⟩ := sortedChunks_any_files (followsIn_readable hv) ha.1 hch
  exact get_array_mismatch_of roi ha hch h1 h2

/-- C25 for indexes with gaps. The labels of an array are in order exactly if no two files have trains of the source in the wrong order. -/
theorem get_array_order_gaps {c : DC V} {instr : Bool} {source key : Str} {roi : V → W} {a : LArr W}
    (hc : NoConflict c.files) (hv : FollowsIn c c.trainIds instr source key) (h : c.getArray source key roi = .ok a) :
    (a.coords.getD []).Pairwise (· ≤ ·) ↔ TrainsInOrder c instr source key := by
  obtain ⟨hal, hex, -⟩ := get_array_follows hc hv h
  have hs : source ∈ c.allSources := (checkField_ok.1 (getArray_ok h).1).1
  obtain ⟨chunks, hch, -, -, hds, hdis⟩ := sortedChunks_any hc (followsIn_readable hv) hs
  have hinc : ∀ ch ∈ chunks, ch.file.trainIds.Pairwise (· < ·) ∧ ch.file.trainIds ≠ [] := fun ch hm =>
    ⟨(hv ch.file (hds ch hm).1 (hds ch hm).2.1).1, (hv ch.file (hds ch hm).1 (hds ch hm).2.1).2.1⟩
  refine array_order_of hc h hch hal (fun t ht f hf hh htf => ?_) (fun ch hm => ⟨(hds ch hm).1, (hds ch hm).2.1⟩) hdis
    (fun ch hm t ht => ⟨(hds ch hm).2.2.2.2 t ht, (hds ch hm).2.2.2.1.subset ht⟩)
    (fun ch hm => (hinc ch hm).1.sublist (hds ch hm).2.2.2.1) (fun ch hm t ht s => ?_)
  · rw [hex t ht f hf hh htf]
    simp
  · obtain ⟨f, hf, chs, h1, h2⟩ := sortedChunks_mem hch hm
    have e := ((chunksOfFile_ne h1).2 ch h2).1
    have hi := hinc ch hm
    rw [e] at hi ⊢
    exact chunk_sameRun hi.1 hi.2 h1 h2 ht s

/-- The file of `exEmptyTrain`, whose index is not contiguous: the labels are in order. -/
example : ∃ a, (⟨[exEmptyTrain], [(ch! "D:o", none)], [1, 2, 3], true⟩ : DC Nat).getArray (ch! "D:o") (ch! "data.y") id = .ok a ∧
    (a.coords.getD []).Pairwise (· ≤ ·) := by
  refine ⟨_, rfl, (get_array_order_gaps (c := ⟨[exEmptyTrain], [(ch! "D:o", none)], [1, 2, 3], true⟩) (instr := true) (source := ch! "D:o")
    (key := ch! "data.y") (roi := id) (List.pairwise_singleton _ _) (fun f hf _ => ?_) rfl).2 (inOrder_of_ranges _ _ ?_)⟩
  · rw [List.mem_singleton.1 hf]
    exact ⟨by decide, by decide, exEmptyTrain_follows.1, exEmptyTrain_follows.2.1⟩
  · intro f hf g hg _ _ hne
    rw [List.mem_singleton.1 hf, List.mem_singleton.1 hg] at hne
    exact absurd rfl hne

end KD
