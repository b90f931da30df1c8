/- Property C106: cutting out a region of interest while reading is the same as cutting it out afterwards. -/
import Verif.Model.Collection

namespace KD

variable {V W X : Type}

/-- An array in which each entry was changed. -/
def LArr.mapRows (g : W → X) (a : LArr W) : LArr X := ⟨a.rows.map g, a.coords, a.rowShape, a.dtype⟩

theorem h5Fill_image (g : W → X) (n : Nat) (rows : List W) : h5Fill n (rows.map g) = (h5Fill n rows).map (List.map g) := by
  unfold h5Fill
  rw [List.length_map]
  by_cases h : rows.length = n
  · rw [if_pos h, if_pos h]; rfl
  · rw [if_neg h, if_neg h]
    match rows with
    | [] => rfl
    | [r] => simp [Except.map]
    | a :: b :: l => rfl

theorem readChunk_image (f : V → W) (g : W → X) (ch : Chunk V) :
    readChunk (g ∘ f) ch = (readChunk f ch).map (Option.map (fun p => (p.1.map g, p.2))) := by
  unfold readChunk
  by_cases hn : ch.counts.sum = 0
  · simp only [hn, if_true]; rfl
  · simp only [hn, if_false]
    cases ch.dataset with
    | error e => rfl
    | ok ds =>
      simp only
      rw [← List.map_map, h5Fill_image]
      cases h5Fill ch.counts.sum ((sl ds.rows ch.first (ch.first + ch.counts.sum)).map f) <;> rfl

theorem mapE_image {α β γ : Type _} (f : α → R β) (g : β → γ) : ∀ l : List α,
    mapE (fun a => (f a).map g) l = (mapE f l).map (List.map g)
  | [] => rfl
  | a :: l => by
    simp only [mapE]
    rw [mapE_image f g l]
    cases f a with
    | error e => rfl
    | ok b =>
      cases mapE f l <;> rfl

/-- C106. Changing each entry while reading (for example, cutting a region out of it) gives what changing the entries of the array
read would give, with the same labels, and fails in the same cases, for all collections, sources and keys. -/
theorem get_array_natural (c : DC V) (source key : Str) (f : V → W) (g : W → X) :
    c.getArray source key (g ∘ f) = (c.getArray source key f).map (LArr.mapRows g) := by
  unfold DC.getArray
  cases c.checkField source key with
  | error e => rfl
  | ok u =>
    simp only
    cases c.findDataChunks source key with
    | error e => rfl
    | ok cs =>
      simp only
      cases mapE Chunk.dataset (sortBy Chunk.sortKey cs) with
      | error e => rfl
      | ok dss =>
        simp only
        by_cases h1 : (dss.map Dataset.rowShape).dedup.length > 1
        · rw [if_pos h1, if_pos h1]; rfl
        rw [if_neg h1, if_neg h1]
        by_cases h2 : (dss.map Dataset.dtype).dedup.length > 1
        · rw [if_pos h2, if_pos h2]; rfl
        rw [if_neg h2, if_neg h2]
        cases (dss.map Dataset.rowShape).dedup with
        | nil => rfl
        | cons shape l1 =>
          cases (dss.map Dataset.dtype).dedup with
          | nil => rfl
          | cons dtype l2 =>
            simp only
            have h : readChunk (g ∘ f) = fun ch : Chunk V => (readChunk f ch).map (Option.map (fun p => (p.1.map g, p.2))) :=
              funext (readChunk_image f g)
            rw [h, mapE_image]
            cases mapE (readChunk f) (sortBy Chunk.sortKey cs) with
            | error e => rfl
            | ok parts =>
              have e : ∀ ps : List (Option (List W × List Nat)),
                  (ps.map (Option.map (fun p => (p.1.map g, p.2)))).filterMap id =
                    (ps.filterMap id).map (fun p => (p.1.map g, p.2)) := by
                intro ps
                induction ps with
                | nil => rfl
                | cons p ps ih => cases p <;> simp_all
              simp only [Except.map, LArr.mapRows, e, List.map_map, List.map_flatten]
              rfl

end KD
