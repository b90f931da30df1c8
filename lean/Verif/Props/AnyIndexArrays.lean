/- Property C147: when get_array raises an exception, and get_dask_array, for any index. -/
import Verif.Props.AnyIndexWrite
import Verif.Props.Dask
import Verif.Props.DaskErrors

namespace KD
open Spec

variable {V W : Type}

/-- C147. Whatever the index, `get_array` raises an exception for an available field exactly when two files disagree on the shape of
entries or the data type. -/
theorem get_array_any_works {c : DC V} {instr : Bool} {source key : Str} (roi : V → W) (hc : NoConflict c.files)
    (hv : ∀ f ∈ c.files, Holds f source → ReadableField f c.trainIds instr source key) (ha : Available c source key) :
    (Mismatch c instr source key → c.getArray source key roi = .error .generic) ∧
    (¬ Mismatch c instr source key → ∃ a, c.getArray source key roi = .ok a) := by
  obtain ⟨chunks, hch, -⟩ := sortedChunks_any hc hv ha.1
  obtain ⟨h1, h2⟩ := sortedChunks_any_files hv ha.1 hch
  obtain ⟨g1, g2⟩ := get_array_mismatch_of roi ha hch h1 h2
  exact ⟨g1, fun hm => by obtain ⟨a, h, -⟩ := g2 hm; exact ⟨a, h⟩⟩

/-- C147. Whatever the index, the lazy array has the entries of `get_array`. -/
theorem dask_array_any_index {c : DC V} {instr : Bool} {source key : Str} (hc : NoConflict c.files)
    (hv : ∀ f ∈ c.files, Holds f source → ReadableField f c.trainIds instr source key) {a : LArr V}
    (h : c.getArray source key id = .ok a) {rows : List V} (hd : c.getDaskArray source key = .ok rows) : rows = a.rows := by
  obtain ⟨hcf, chunks, hch, hrows, -⟩ := getArray_ok h
  rw [hrows (any_fullChunks hc hv (checkField_ok.1 hcf).1 hch), List.map_id]
  rw [getDaskArray_eq hch] at hd
  cases hp : mapE daskPart chunks with
  | error e => rw [hp] at hd; simp at hd
  | ok parts =>
    rw [hp] at hd
    simp only at hd
    have hpr : ∀ (l : List (Chunk V)) ps, mapE daskPart l = .ok ps → ps.flatMap Prod.fst = l.flatMap rowsOf := by
      intro l
      induction l with
      | nil => intro ps h; simp [mapE] at h; subst h; rfl
      | cons ch l ih =>
        intro ps h
        simp only [mapE] at h
        split at h
        · simp at h
        next p hp =>
        split at h
        · simp at h
        next ps' hps =>
        obtain rfl := Except.ok.inj h
        rw [List.flatMap_cons, List.flatMap_cons, ih ps' hps]
        congr 1
        unfold daskPart at hp
        split at hp
        · simp at hp
        next ds hds =>
        split at hp
        · simp at hp
        · obtain rfl := Except.ok.inj hp
          simp [rowsOf, hds, sl_eq_slice]
    unfold daskConcat at hd
    split at hd
    · simp at hd
    split at hd
    · simp at hd
    · obtain rfl := Except.ok.inj hd
      rw [← hpr chunks parts hp]
      simp [List.flatMap_def]

example : ∃ a, (⟨[exEmptyTrain], [(ch! "D:o", none)], [2, 3], true⟩ : DC Nat).getArray (ch! "D:o") (ch! "data.y") id = .ok a ∧
    (⟨[exEmptyTrain], [(ch! "D:o", none)], [2, 3], true⟩ : DC Nat).getDaskArray (ch! "D:o") (ch! "data.y") = .ok a.rows ∧ a.rows = [10, 11] :=
  ⟨_, rfl, rfl, rfl⟩

end KD
