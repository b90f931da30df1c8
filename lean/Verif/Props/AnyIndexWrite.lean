/- Property C148: copies of files with an index which need not be contiguous. -/
import Verif.Props.AnyIndex
import Verif.Props.WriteOrder
import Verif.Props.OrderGaps

namespace KD
open Spec

variable {V : Type}

theorem any_labels {c : DC V} {instr : Bool} {source key : Str} (hc : NoConflict c.files)
    (hv : ∀ f ∈ c.files, Holds f source → ReadableField f c.trainIds instr source key) {a : LArr V}
    (ha : c.getArray source key id = .ok a) :
    AllLabelled a ∧ (∀ t, t ∉ c.trainIds → labelled a t = []) ∧ (a.coords ≠ none → c.trainIds ≠ []) := by
  obtain ⟨l1, -, l3⟩ := get_array_reads hc hv ha
  refine ⟨l1, fun t ht => l3 t (.inl ht), fun hco hT => ?_⟩
  have hall : ∀ t, labelled a t = [] := fun t => l3 t (.inl (by rw [hT]; simp))
  obtain ⟨hcf, chunks, h1, h2, h3, h4, -⟩ := getArray_ok ha
  have hfull := any_fullChunks hc hv (checkField_ok.1 hcf).1 h1
  have h2 := h2 hfull
  apply hco
  rw [h4]
  have hempty : a.coords.getD [] = [] := by
    rw [List.eq_nil_iff_forall_not_mem]
    intro t ht
    exact (mem_coords_labelled l1 t).1 ht (hall t)
  unfold AllLabelled at l1
  rw [hempty] at l1
  have hrows : a.rows = [] := List.eq_nil_of_length_eq_zero l1.symm
  rw [hrows, List.map_id] at h2
  apply sum_eq_zero_of
  intro n hn
  obtain ⟨ch, hm, rfl⟩ := List.mem_map.1 hn
  rw [← hfull ch hm, List.flatMap_eq_nil_iff.1 h2.symm ch hm]
  rfl

/-- C148. A file written by `write` has, for each train, what `get_array` shows for it, if the labels of the array are in order: whatever
the index of the files is, and whether the entries shown are the right ones or not. The index of the new file is contiguous. `write_virtual`
makes a file which reads the same. -/
theorem write_any_index {c : DC V} {h : H5File V} {f : FileAccess V} {name : Str} (hw : StorableAny c) (hwr : c.write = .ok h)
    (hsize : ∀ p ∈ h.datasets, p.2.rows.length < 2 ^ 64) (hf : FileAccess.init name h none = .ok f) :
    c.writeVirtual = .ok h ∧ f.trainIds = c.trainIds ∧
    ∀ b s k, HasField c b s k → ValidField f b s k ∧ StartsAtZero f b s k ∧
      ∃ a, c.getArray s k id = .ok a ∧ (∀ t, (fileEntries f b s k t).length = (labelled a t).length) ∧
        ((a.coords.getD []).Pairwise (· ≤ ·) → ∀ t, fileEntries f b s k t = labelled a t) := by
  refine ⟨virtual_equals_copy_full ?_ hwr, ?_⟩
  · intro b s k x hF hx chunks hch
    exact any_fullChunks hw.noConflict (hw.readable b s k hF) (hasField_available hF).1 hch
  obtain ⟨Fs, w, hFs, hfold, hfin⟩ := write_ok hwr
  obtain ⟨f', h1, h2, -, -, -, h6⟩ := file_read_labels hw.named hw.trains hw.nonzero
    (fun b s k hF => keyGroup_category (fun f hf hh => (hw.readable b s k hF f hf hh).category) (hasField_available hF).1)
    (fun b s k a hF ha => any_labels hw.noConflict (hw.readable b s k hF) ha)
    name (fun F hF => (hFs F).1 hF) hfold hfin hsize
  rw [hf] at h1
  obtain rfl := Except.ok.inj h1
  refine ⟨h2, fun b s k hF => ?_⟩
  obtain ⟨x, hx, -⟩ := write_hasData hwr hF
  obtain ⟨g1, g2, g3, hlen, g4⟩ := h6 b s k x ((hFs _).2 hF) hx
  obtain ⟨a, ha1, ha2, ha3⟩ := fldData_some hx
  have hslen : (x.2.insertionSort (· ≤ ·)).length = x.2.length := List.length_insertionSort _ _
  have hlab : ∀ t, labelled a t = ((x.2.zip x.1.rows).filter (fun y => y.1 = t)).map Prod.snd := by
    intro t
    unfold labelled
    rw [ha2, ha3]
    rfl
  refine ⟨g1, g2, a, ha1, fun t => ?_, fun hord t => ?_⟩
  · rw [g4, filter_zip_length (by rw [hslen]; exact hlen.symm), (List.perm_insertionSort (· ≤ ·) x.2).count_eq,
      ← filter_zip_length hlen.symm, ← hlab]
  · rw [ha2, Option.getD_some] at hord
    rw [g4, hord.insertionSort_eq, hlab]

/-- C148. If `get_array` shows the right entries for all trains which are written, the copy has the right entries, and also any
selection of trains made from the copy: there the index is contiguous. From the original files, selections of trains may be wrong
(`get_array_gap_wrong`). Missing: entries which are wrong in the array are wrong in the copy, see `copy_gap_wrong`. -/
theorem copy_gaps_partial {c : DC V} {h : H5File V} {f : FileAccess V} {name : Str} (hw : StorableAny c) (hwr : c.write = .ok h)
    (hsize : ∀ p ∈ h.datasets, p.2.rows.length < 2 ^ 64) (hf : FileAccess.init name h none = .ok f) {b : Bool} {s k : Str}
    (hF : HasField c b s k) (hi : IndexedIn c b s k) (hfo : ∀ g ∈ c.files, Holds g s → FollowsOn g c.trainIds b s k)
    (hord : ∀ a, c.getArray s k id = .ok a → (a.coords.getD []).Pairwise (· ≤ ·)) :
    SameEntries c f b s k ∧
    ∀ (d : DC V) (W : Type) (roi : V → W) (a : LArr W), d.files = [f] → d.getArray s k roi = .ok a → ∀ t ∈ d.trainIds, t ∈ c.trainIds →
      ∀ g ∈ c.files, Holds g s → t ∈ g.trainIds → labelled a t = (fileEntries g b s k t).map roi := by
  obtain ⟨-, htr, hall⟩ := write_any_index hw hwr hsize hf
  obtain ⟨hv, -, a, ha, -, hent⟩ := hall b s k hF
  have hent := hent (hord a ha)
  obtain ⟨-, r2, r3⟩ := get_array_gaps_partial hw.noConflict hi (fun g hg hh => (hw.readable b s k hF g hg hh).someTrain) hfo ha
  have hsame : SameEntries c f b s k := by
    intro t ht
    constructor
    · intro g hg hh htg
      rw [hent, r2 t ht g hg hh htg, List.map_id]
    · intro hno
      rw [hent]
      exact r3 t (.inr (fun g hg hh htg => hno ⟨g, hg, hh, htg⟩))
  refine ⟨hsame, fun d W roi a' hd ha' t ht htc g hg hh htg => ?_⟩
  have hnc : NoConflict d.files := by rw [hd]; exact List.pairwise_singleton _ _
  have hvd : ValidIn d b s k := by
    intro f' hf' _
    rw [hd, List.mem_singleton] at hf'
    rw [hf']; exact hv
  have hhf : Holds f s := by
    have := hv.category
    unfold Holds
    cases b <;> simp at this
    · exact .inl this.1
    · exact .inr this.1
  rw [(get_array_exact hnc hvd ha').2.1 t ht f (by rw [hd]; simp) hhf (by rw [htr]; exact htc), (hsame t htc).1 g hg hh htg]

theorem exEmptyTrain_field {T : List Nat} {b : Bool} {s k : Str} (h : HasField ⟨[exEmptyTrain], [(ch! "D:o", none)], T, true⟩ b s k) :
    b = true ∧ s = ch! "D:o" ∧ k = ch! "data.y" := by
  obtain ⟨h1, ks, h2, h3⟩ := h
  cases b with
  | true =>
    have h1 : s ∈ [ch! "D:o"] := h1
    rw [List.mem_singleton] at h1
    subst h1
    have h2 : Except.ok [ch! "data.y"] = Except.ok (ε := PyErr) ks := h2
    obtain rfl := Except.ok.inj h2
    exact ⟨rfl, rfl, List.mem_singleton.1 h3⟩
  | false => exact absurd (show s ∈ ([] : List Str) from h1) (by simp)

/-- The file with a train without entries, with all its trains or the last two, meets the conditions of `write_any_index`. -/
theorem exEmptyTrain_storable {T : List Nat} (hT : T = [1, 2, 3] ∨ T = [2, 3]) :
    StorableAny ⟨[exEmptyTrain], [(ch! "D:o", none)], T, true⟩ := by
  refine ⟨List.pairwise_singleton _ _, by rcases hT with rfl | rfl <;> decide, by rcases hT with rfl | rfl <;> decide, ⟨?_, ?_, ?_, ?_⟩, ?_⟩
  · intro s hs
    exact absurd (show s ∈ ([] : List Str) from hs) (by simp)
  · intro s hs
    have : s ∈ [ch! "D:o"] := hs
    rw [List.mem_singleton] at this
    exact ⟨ch! "D", ch! "o", ⟨by decide, by decide⟩, this⟩
  · intro b s k h
    obtain ⟨-, -, rfl⟩ := exEmptyTrain_field h
    exact ⟨[ch! "data", ch! "y"], by decide, by decide, by decide⟩
  · intro b s k s' k' h h' _
    rw [(exEmptyTrain_field h).2.1, (exEmptyTrain_field h').2.1]
  · intro b s k h f hf _
    obtain ⟨rfl, rfl, rfl⟩ := exEmptyTrain_field h
    rw [List.mem_singleton.1 hf]
    have hix : exEmptyTrain.getIndex (ch! "D:o") (groupName true (ch! "data.y")) = .ok ([0, 0, 2], [2, 0, 2]) := by decide
    refine ⟨by decide, by decide, by decide, [0, 0, 2], [2, 0, 2], ⟨[10, 11, 30, 31], [], 0⟩, hix, by decide, rfl, rfl, ?_⟩
    intro i0 i a hs ha
    have hi : i < 3 := by
      obtain ⟨t, ht, -⟩ := hs.2.1 i hs.1 (le_refl _)
      exact (List.getElem?_eq_some_iff.1 ht).1
    have h0 : i0 ≤ i := hs.1
    have hcase : (i0 = 2 ∧ i = 2) ∨ i0 = 0 ∨ i0 = 1 := by omega
    rcases hcase with ⟨rfl, rfl⟩ | rfl | rfl
    · simp at ha; subst ha; decide
    · simp at ha; subst ha
      have : i = 0 ∨ i = 1 ∨ i = 2 := by omega
      rcases this with rfl | rfl | rfl <;> decide
    · simp at ha; subst ha
      have : i = 1 ∨ i = 2 := by omega
      rcases this with rfl | rfl <;> decide

/-- C148 is wrong for entries which `get_array` shows for the wrong train: writing trains 2 and 3 of `exEmptyTrain` makes a file with the
entries of train 1 for train 3. The whole file is copied right. -/
theorem copy_gap_wrong :
    let c : DC Nat := ⟨[exEmptyTrain], [(ch! "D:o", none)], [1, 2, 3], true⟩
    (readBack c).map (fun f => c.trainIds.map (fileEntries f true (ch! "D:o") (ch! "data.y"))) = .ok [[10, 11], [], [30, 31]] ∧
    (readBack { c with trainIds := [2, 3] }).map (fun f => [2, 3].map (fileEntries f true (ch! "D:o") (ch! "data.y"))) =
      .ok [[], [10, 11]] ∧
    [1, 2, 3].map (fileEntries exEmptyTrain true (ch! "D:o") (ch! "data.y")) = [[10, 11], [], [30, 31]] := by
  decide +kernel

example : ∃ h f, (⟨[exEmptyTrain], [(ch! "D:o", none)], [1, 2, 3], true⟩ : DC Nat).write = .ok h ∧
    FileAccess.init (ch! "copy") h none = .ok f ∧ SameEntries ⟨[exEmptyTrain], [(ch! "D:o", none)], [1, 2, 3], true⟩ f true (ch! "D:o") (ch! "data.y") := by
  refine ⟨_, _, rfl, rfl, (copy_gaps_partial (exEmptyTrain_storable (.inl rfl)) (h := _) (name := ch! "copy") rfl (by decide) rfl
    ⟨by decide, _, rfl, by decide⟩ (fun f hf _ => by rw [List.mem_singleton.1 hf]; exact exEmptyTrain_follows.1)
    (fun f hf _ => by rw [List.mem_singleton.1 hf]; exact exEmptyTrain_follows.2.1) ?_).1⟩
  intro a ha
  obtain rfl := Except.ok.inj ha
  decide

end KD
