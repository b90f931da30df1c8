/- Property C26 for `get_dask_array`: what it does with unknown or unselected fields. -/
import Verif.Props.Arrays

namespace KD
open Spec

variable {V : Type}

theorem chunksOfFile_ne {c : DC V} {source key : Str} {f : FileAccess V} {chs : List (Chunk V)}
    (h : c.chunksOfFile source key f = .ok chs) : chs ≠ [] ∧ ∀ ch ∈ chs, ch.file = f ∧ ch.source = source ∧ ch.key = key := by
  unfold DC.chunksOfFile at h
  split at h
  · simp at h
  dsimp only at h
  split at h
  · simp at h
  split at h
  · simp at h
  next h' =>
  split at h
  · simp at h; subst h; simp
  next he =>
    simp at h; subst h
    refine ⟨by rintro rfl; simp at he, ?_⟩
    intro ch hch
    obtain ⟨r, -, hr⟩ := (mapE_mem h').1 hch
    unfold regionChunk at hr
    split at hr
    · simp at hr
    · simp at hr; subst hr; exact ⟨rfl, rfl, rfl⟩

theorem mapE_all_ok {α β : Type _} {f : α → R β} : ∀ {l : List α} {r : List β}, mapE f l = .ok r → ∀ a ∈ l, ∃ b, f a = .ok b
  | [], _, _ => by simp
  | a :: l, r, h => by
    simp only [mapE] at h
    split at h
    · simp at h
    next b hb =>
    split at h
    · simp at h
    next bs hbs =>
    intro x hx
    rcases List.mem_cons.1 hx with rfl | hx
    · exact ⟨b, hb⟩
    · exact mapE_all_ok hbs x hx

/-- C26 for `get_dask_array`, which does not check the field: it never raises SourceNameError or PropertyNameError, it raises
ValueError when no file has the source, and some exception when a file with the source does not have the key. -/
theorem dask_array_field_errors {c : DC V} {source key : Str} :
    (∀ e, c.getDaskArray source key = .error e → e ≠ .sourceName ∧ e ≠ .propertyName) ∧
    ((∀ f ∈ c.files, ¬ Holds f source) → c.getDaskArray source key = .error .value) ∧
    ((∃ f ∈ c.files, Holds f source ∧
        f.dataset (sectionName (decide (source ∈ f.instrumentSources))) source key = .error .key) →
      ∃ e, c.getDaskArray source key = .error e) := by
  have hpart : ∀ {ch : Chunk V} {e}, Holds ch.file ch.source → daskPart ch = .error e → e ≠ .sourceName ∧ e ≠ .propertyName := by
    intro ch e hh h
    unfold daskPart at h
    split at h
    next h' => simp at h; subst h; rw [chunkDataset_error hh h']; simp
    · split at h
      · simp at h; subst h; simp
      · simp at h
  refine ⟨?_, ?_, ?_⟩
  · intro e h
    unfold DC.getDaskArray at h
    split at h
    next h' =>
      simp at h; subst h
      unfold DC.findDataChunks at h'
      split at h'
      next h'' =>
        simp at h'; subst h'
        obtain ⟨f, -, hf⟩ := mapE_error_mem h''
        exact chunksOfFile_error hf
      · simp at h'
    next cs h' =>
      split at h
      next h'' =>
        simp at h; subst h
        obtain ⟨ch, hch, he⟩ := mapE_error_mem h''
        have hch : ch ∈ cs := (List.perm_insertionSort _ _).mem_iff.1 hch
        unfold DC.findDataChunks at h'
        split at h'
        · simp at h'
        next l hl =>
        obtain rfl := Except.ok.inj h'
        obtain ⟨chs, hchs, hm⟩ := List.mem_flatten.1 hch
        obtain ⟨f, hf, hfc⟩ := (mapE_mem hl).1 hchs
        obtain ⟨e1, e2, -⟩ := (chunksOfFile_ne hfc).2 ch hm
        refine hpart ?_ he
        rw [e1, e2]
        exact (mem_sourceIndex.1 hf).2
      · unfold daskConcat at h
        split at h
        · simp at h; subst h; simp
        · split at h
          · simp at h; subst h; simp
          · simp at h
  · intro hno
    have hnil : c.sourceIndex source = [] := by
      rw [List.eq_nil_iff_forall_not_mem]
      intro f hf
      have := mem_sourceIndex.1 hf
      exact hno f this.1 this.2
    simp [DC.getDaskArray, DC.findDataChunks, hnil, sortBy, daskConcat]
  · rintro ⟨f, hf, hh, hd⟩
    cases hr : c.getDaskArray source key with
    | error e => exact ⟨e, rfl⟩
    | ok r =>
      exfalso
      unfold DC.getDaskArray at hr
      split at hr
      · simp at hr
      next cs h' =>
      split at hr
      · simp at hr
      next parts hparts =>
      unfold DC.findDataChunks at h'
      split at h'
      · simp at h'
      next l hl =>
      obtain rfl := Except.ok.inj h'
      have hf' : f ∈ c.sourceIndex source := mem_sourceIndex.2 ⟨hf, hh⟩
      obtain ⟨chs, hchs⟩ := mapE_all_ok hl f hf'
      obtain ⟨hne, hall⟩ := chunksOfFile_ne hchs
      obtain ⟨ch, hch⟩ := List.exists_mem_of_ne_nil chs hne
      obtain ⟨e1, e2, e3⟩ := hall ch hch
      have hm : ch ∈ sortBy Chunk.sortKey l.flatten :=
        (List.perm_insertionSort _ _).mem_iff.2 (List.mem_flatten.2 ⟨chs, (mapE_mem hl).2 ⟨f, hf', hchs⟩, hch⟩)
      obtain ⟨b, hb⟩ := mapE_all_ok hparts ch hm
      have hds : ch.dataset = .error .key := by
        unfold Chunk.dataset
        rw [e1, e2, e3]
        by_cases hi : source ∈ f.instrumentSources
        · rw [if_pos hi]; simpa [hi, sectionName] using hd
        · rw [if_neg hi, if_pos (hh.resolve_right hi)]; simpa [hi, sectionName] using hd
      unfold daskPart at hb
      rw [hds] at hb
      simp at hb

/-- C26 for `get_dask_array`: which keys are selected makes no difference. -/
theorem dask_array_ignores_keys {c d : DC V} {source : Str} (key : Str) (hf : c.files = d.files) (ht : c.trainIds = d.trainIds)
    (hi : source ∈ c.instrumentSources ↔ source ∈ d.instrumentSources) :
    c.getDaskArray source key = d.getDaskArray source key := by
  have h1 : c.sourceIndex source = d.sourceIndex source := by unfold DC.sourceIndex; rw [hf]
  have h2 : c.keyGroup source key = d.keyGroup source key := by unfold DC.keyGroup; simp only [hi]
  have h3 : c.chunksOfFile source key = d.chunksOfFile source key := by
    funext f; unfold DC.chunksOfFile; rw [h2, ht]
  unfold DC.getDaskArray DC.findDataChunks
  rw [h1, h3]

/-- A key which no file has, and one which is not selected. -/
example : (∃ f ∈ exArr.files, Holds f (ch! "D:o") ∧
      f.dataset (sectionName (decide ((ch! "D:o") ∈ f.instrumentSources))) (ch! "D:o") (ch! "data.zz") = .error .key) ∧
    exArr.getDaskArray (ch! "D:o") (ch! "data.zz") = .error .key := by
  refine ⟨⟨exArr.files.head (by decide), List.head_mem _, by unfold Holds; decide, by decide⟩, by decide⟩

end KD
