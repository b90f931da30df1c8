/- Properties C37 and C38: exactly when a written file has the data of each train, for files in any order. -/
import Verif.Props.Writer

namespace KD
open Spec

variable {V : Type}

/-- C37, C38. What a written file has, for readable files in any order: the number of entries is right for every train. The entries are
right if the trains of no two files are in the wrong order; and if they are and entries of different trains differ, some are wrong. -/
theorem write_same_iff {c : DC V} {h : H5File V} {f : FileAccess V} {name : Str} (hw : Storable c) (hwr : c.write = .ok h)
    (hsize : ∀ p ∈ h.datasets, p.2.rows.length < 2 ^ 64) (hf : FileAccess.init name h none = .ok f) {b : Bool} {s k : Str}
    (hF : HasField c b s k) :
    f.trainIds = c.trainIds ∧ ValidField f b s k ∧ SameType c f b s k ∧
    (∀ t ∈ c.trainIds, ∀ g ∈ c.files, Holds g s → t ∈ g.trainIds →
      (fileEntries f b s k t).length = (fileEntries g b s k t).length) ∧
    (TrainsInOrder c b s k → SameEntries c f b s k) ∧
    (DistinctTrains c b s k → SameEntries c f b s k → TrainsInOrder c b s k) := by
  obtain ⟨Fs, w, hFs, hfold, hfin⟩ := write_ok hwr
  obtain ⟨f', h1, h2, -, -, -, h6⟩ := file_read_any hw name (fun F hF => (hFs F).1 hF) hfold hfin hsize
  rw [hf] at h1
  obtain rfl := Except.ok.inj h1
  obtain ⟨x, hx, -⟩ := write_hasData hwr hF
  obtain ⟨g1, -, g3, hlen, g4⟩ := h6 b s k x ((hFs _).2 hF) hx
  have hv := hw.valid b s k hF
  obtain ⟨a, ha1, ha2, ha3⟩ := fldData_some hx
  obtain ⟨l1, l2, l3⟩ := get_array_follows hw.noConflict hv ha1
  have hslen : (x.2.insertionSort (· ≤ ·)).length = x.2.length := List.length_insertionSort _ _
  have hlab : ∀ t, labelled a t = ((x.2.zip x.1.rows).filter (fun y => y.1 = t)).map Prod.snd := by
    intro t
    unfold labelled
    rw [ha2, ha3]
    rfl
  refine ⟨h2, g1, sameType_of hw.noConflict hv hx g3, ?_, ?_, ?_⟩
  · intro t ht g hg hh htg
    rw [g4, filter_zip_length (by rw [hslen]; exact hlen.symm), (List.perm_insertionSort (· ≤ ·) x.2).count_eq,
      ← filter_zip_length hlen.symm, ← hlab, l2 t ht g hg hh htg, List.map_id]
  · intro hio
    have hord := (get_array_order_gaps hw.noConflict hv ha1).2 hio
    rw [ha2, Option.getD_some] at hord
    rw [hord.insertionSort_eq] at g4
    exact sameEntries_of hw.noConflict hv hx g4
  · intro hd hsame
    rw [← get_array_order_gaps hw.noConflict hv ha1, ha2, Option.getD_some]
    have hwhere : ∀ t ∈ x.2, t ∈ c.trainIds ∧ ∃ g ∈ c.files, Holds g s ∧ t ∈ g.trainIds := by
      intro t ht
      have hne := (mem_coords_labelled l1 t).1 (by rw [ha2]; exact ht)
      by_contra hno
      apply hne
      apply l3
      by_contra hno2
      rw [not_or] at hno2
      apply hno
      refine ⟨by_contra hno2.1, ?_⟩
      by_contra hno3
      exact hno2.2 (fun g hg hh htg => hno3 ⟨g, hg, hh, htg⟩)
    have heq : x.2.insertionSort (· ≤ ·) = x.2 := by
      apply List.ext_getElem hslen
      intro i hi hi2
      have hir : i < x.1.rows.length := by omega
      have m1 : x.1.rows[i] ∈ fileEntries f b s k (x.2.insertionSort (· ≤ ·))[i] := by
        rw [g4]
        refine List.mem_map.2 ⟨((x.2.insertionSort (· ≤ ·))[i], x.1.rows[i]), List.mem_filter.2 ⟨?_, by simp⟩, rfl⟩
        exact List.mem_of_getElem? (List.getElem?_zip_eq_some.2 ⟨List.getElem?_eq_getElem hi, List.getElem?_eq_getElem hir⟩)
      have m2 : x.1.rows[i] ∈ labelled a x.2[i] := by
        rw [hlab]
        refine List.mem_map.2 ⟨(x.2[i], x.1.rows[i]), List.mem_filter.2 ⟨?_, by simp⟩, rfl⟩
        exact List.mem_of_getElem? (List.getElem?_zip_eq_some.2 ⟨List.getElem?_eq_getElem hi2, List.getElem?_eq_getElem hir⟩)
      obtain ⟨t1, g, hg, hh, htg⟩ := hwhere _ ((List.perm_insertionSort (· ≤ ·) x.2).mem_iff.1 (List.getElem_mem hi))
      obtain ⟨t2, g', hg', hh', htg'⟩ := hwhere _ (List.getElem_mem hi2)
      rw [(hsame _ t1).1 g hg hh htg] at m1
      rw [l2 _ t2 g' hg' hh' htg', List.map_id] at m2
      exact hd g hg g' hg' hh hh' _ _ _ m1 m2
    rw [← heq]
    exact List.pairwise_insertionSort (· ≤ ·) x.2

/-- A collection of two interleaved files which meets the conditions of `write_same_iff`, but is not in order. -/
theorem exArr_storable : Storable exArr := by
  have hfield : ∀ b s k, HasField exArr b s k → b = true ∧ s = ch! "D:o" ∧ k = ch! "data.y" := by
    rintro b s k ⟨h1, ks, h2, h3⟩
    cases b with
    | true =>
      have e : exArr.instrumentSources = [ch! "D:o"] := by decide
      rw [if_pos rfl, e, List.mem_singleton] at h1
      subst h1
      have : exArr.keysForSource (ch! "D:o") = .ok [ch! "data.y"] := by decide
      rw [this] at h2; obtain rfl := Except.ok.inj h2
      exact ⟨rfl, rfl, List.mem_singleton.1 h3⟩
    | false =>
      have e : exArr.controlSources = [] := by decide
      rw [if_neg (by decide), e] at h1
      simp at h1
  refine ⟨exArr_valid.1, by decide, by decide, ⟨by decide, ?_, ?_, ?_⟩, ?_⟩
  · intro s hs
    have e : exArr.instrumentSources = [ch! "D:o"] := by decide
    rw [e, List.mem_singleton] at hs
    exact ⟨ch! "D", ch! "o", ⟨by decide, by decide⟩, hs⟩
  · intro b s k h
    obtain ⟨-, -, rfl⟩ := hfield b s k h
    exact ⟨[ch! "data", ch! "y"], by decide, by decide, by decide⟩
  · intro b s k s' k' h h' _
    obtain ⟨-, rfl, -⟩ := hfield b s k h
    obtain ⟨-, rfl, -⟩ := hfield b s' k' h'
    rfl
  · intro b s k h
    obtain ⟨rfl, rfl, rfl⟩ := hfield b s k h
    exact validIn_follows exArr_valid.2 _

example : Storable exArr ∧ (∃ h, exArr.write = .ok h) ∧ ¬ TrainsInOrder exArr true (ch! "D:o") (ch! "data.y") := by
  refine ⟨exArr_storable, ⟨_, rfl⟩, fun h => ?_⟩
  have hp := (get_array_order exArr_valid.1 exArr_valid.2 get_array_out_of_order).2 h
  revert hp
  decide

end KD
