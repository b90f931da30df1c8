/- Lemmas about reading one train at a time. -/
import Verif.Lemmas.Arrays

set_option linter.unusedSimpArgs false

namespace KD
open Spec

variable {V : Type}

/-! ### Finding the file and position of a train -/

theorem nonzero_eq_nil {ts : List Nat} {t : Nat} : nonzero (ts.map (fun x => x == t)) = [] ↔ t ∉ ts := by
  constructor
  · intro h ht
    obtain ⟨i, hi, rfl⟩ := List.getElem_of_mem ht
    have : i ∈ nonzero (ts.map (fun x => x == ts[i])) := mem_nonzero.2 (by simp [List.getElem?_eq_getElem hi])
    rw [h] at this
    simp at this
  · intro h
    rw [List.eq_nil_iff_forall_not_mem]
    intro i hi
    have := mem_nonzero.1 hi
    rw [List.getElem?_map] at this
    cases hx : ts[i]? with
    | none => simp [hx] at this
    | some x =>
      simp [hx] at this
      subst this
      exact h (List.mem_of_getElem? hx)

theorem nonzero_cons {ts : List Nat} {t i : Nat} {l : List Nat} (h : nonzero (ts.map (fun x => x == t)) = i :: l) :
    ts[i]? = some t := by
  have : i ∈ nonzero (ts.map (fun x => x == t)) := by rw [h]; simp
  have := mem_nonzero.1 this
  rw [List.getElem?_map] at this
  cases hx : ts[i]? with
  | none => simp [hx] at this
  | some x => simp [hx] at this; rw [this]

theorem findDataIn_none {files : List (FileAccess V)} {t : Nat} :
    findDataIn files t = none ↔ ∀ f ∈ files, t ∉ f.trainIds := by
  induction files with
  | nil => simp [findDataIn]
  | cons f fs ih =>
    unfold findDataIn
    cases hn : nonzero (f.trainIds.map (fun x => x == t)) with
    | nil => simp only [ih]; simp [nonzero_eq_nil.1 hn]
    | cons i l =>
      simp only [reduceCtorEq, false_iff]
      intro h
      have := nonzero_eq_nil.2 (h f (by simp))
      rw [hn] at this
      simp at this

theorem findDataIn_some {files : List (FileAccess V)} {t pos : Nat} {f : FileAccess V}
    (h : findDataIn files t = some (f, pos)) :
    f ∈ files ∧ f.trainIds[pos]? = some t ∧ (nonzero (f.trainIds.map (fun x => x == t))).head? = some pos := by
  induction files with
  | nil => simp [findDataIn] at h
  | cons g fs ih =>
    unfold findDataIn at h
    split at h
    · next i l hn =>
      simp at h
      obtain ⟨rfl, rfl⟩ := h
      exact ⟨by simp, nonzero_cons hn, by rw [hn]; rfl⟩
    · obtain ⟨h1, h2⟩ := ih h
      exact ⟨by simp [h1], h2⟩

theorem findDataIn_unique {files : List (FileAccess V)} {t : Nat} {f : FileAccess V} (hf : f ∈ files) (ht : t ∈ f.trainIds)
    (hp : files.Pairwise (fun f g => t ∈ f.trainIds → t ∉ g.trainIds)) :
    ∃ pos, findDataIn files t = some (f, pos) := by
  induction files with
  | nil => simp at hf
  | cons g fs ih =>
    rw [List.pairwise_cons] at hp
    unfold findDataIn
    rcases List.mem_cons.1 hf with rfl | hf
    · cases hn : nonzero (f.trainIds.map (fun x => x == t)) with
      | nil => exact absurd ht (nonzero_eq_nil.1 hn)
      | cons i l => exact ⟨i, rfl⟩
    · rw [nonzero_eq_nil.2 (fun h => hp.1 f hf h ht)]
      exact ih hf hp.2

theorem sourceIndex_pairwise {c : DC V} (hc : NoConflict c.files) (source : Str) (t : Nat) :
    (c.sourceIndex source).Pairwise (fun f g => t ∈ f.trainIds → t ∉ g.trainIds) := by
  have hcp : (c.sourceIndex source).Pairwise Compatible := List.Pairwise.sublist List.filter_sublist hc
  refine hcp.imp_of_mem (fun {f g} hf hg h => ?_)
  exact h source t (mem_sourceIndex.1 hf).2 (mem_sourceIndex.1 hg).2

theorem findData_none {c : DC V} {source : Str} {t : Nat} : c.findData source t = none ↔ ¬ Covered c source t := by
  unfold DC.findData Covered
  rw [findDataIn_none]
  constructor
  · rintro h ⟨f, hf, hh, ht⟩; exact h f (mem_sourceIndex.2 ⟨hf, hh⟩) ht
  · intro h f hf ht; exact h ⟨f, (mem_sourceIndex.1 hf).1, (mem_sourceIndex.1 hf).2, ht⟩

theorem findData_some {c : DC V} {source : Str} {t pos : Nat} {f : FileAccess V} (h : c.findData source t = some (f, pos)) :
    f ∈ c.files ∧ Holds f source ∧ f.trainIds[pos]? = some t ∧
      (nonzero (f.trainIds.map (fun x => x == t))).head? = some pos := by
  obtain ⟨h1, h2, h3⟩ := findDataIn_some h
  exact ⟨(mem_sourceIndex.1 h1).1, (mem_sourceIndex.1 h1).2, h2, h3⟩

theorem findData_of_mem {c : DC V} (hc : NoConflict c.files) {source : Str} {t : Nat} {f : FileAccess V} (hf : f ∈ c.files)
    (hh : Holds f source) (ht : t ∈ f.trainIds) : ∃ pos, c.findData source t = some (f, pos) :=
  findDataIn_unique (mem_sourceIndex.2 ⟨hf, hh⟩) ht (sourceIndex_pairwise hc source t)

/-! ### The entries of one train -/

theorem filter_zip_unique {β : Type _} {ts : List Nat} {bs : List β} {pos t : Nat} (hn : ts.Nodup)
    (hp : ts[pos]? = some t) (hl : bs.length = ts.length) :
    ∃ b, bs[pos]? = some b ∧ (ts.zip bs).filter (fun x => x.1 = t) = [(t, b)] := by
  induction ts generalizing bs pos with
  | nil => simp at hp
  | cons x ts ih =>
    cases bs with
    | nil => simp at hl
    | cons b bs =>
      simp only [List.length_cons, Nat.add_right_cancel_iff] at hl
      rw [List.nodup_cons] at hn
      cases pos with
      | zero =>
        simp at hp; subst hp
        refine ⟨b, rfl, ?_⟩
        simp only [List.zip_cons_cons, List.filter_cons, decide_true, if_true]
        congr 1
        rw [List.filter_eq_nil_iff]
        rintro ⟨y, z⟩ hy
        simp only [decide_eq_true_eq]
        rintro rfl
        exact hn.1 (List.of_mem_zip hy).1
      | succ p =>
        rw [List.getElem?_cons_succ] at hp
        obtain ⟨b', h1, h2⟩ := ih hn.2 hp hl
        refine ⟨b', by simpa using h1, ?_⟩
        simp only [List.zip_cons_cons, List.filter_cons]
        rw [if_neg]
        · exact h2
        · simp only [decide_eq_true_eq]
          rintro rfl
          exact hn.1 (List.mem_of_getElem? hp)

theorem _root_.KD.Spec.ValidField.indexed {f : FileAccess V} {instr : Bool} {source key : Str}
    (h : ValidField f instr source key) : IndexedField f instr source key := by
  obtain ⟨firsts, counts, ds, h1, h2, h3, h4, -, h5⟩ := h.data
  exact ⟨h.trains.imp (fun h => Nat.ne_of_lt h), h.category, firsts, counts, ds, h1, h2, h3, h4, h5⟩

/-- The entries of the train at a position of a file. -/
theorem fileEntries_at {f : FileAccess V} {instr : Bool} {source key : Str} {pos t : Nat}
    (hv : IndexedField f instr source key) (hp : f.trainIds[pos]? = some t) :
    ∃ firsts counts ds a n, f.getIndex source (groupName instr key) = .ok (firsts, counts) ∧
      f.dataset (sectionName instr) source key = .ok ds ∧ firsts[pos]? = some a ∧ counts[pos]? = some n ∧
      a + n ≤ ds.rows.length ∧ fileEntries f instr source key t = slice ds.rows a n := by
  obtain ⟨firsts, counts, ds, h1, h2, h3, h4, h5⟩ := hv.data
  obtain ⟨⟨a, n⟩, h6, h7⟩ := filter_zip_unique (bs := firsts.zip counts) hv.trains hp (by simp; omega)
  have h8 := List.getElem?_zip_eq_some.1 h6
  refine ⟨firsts, counts, ds, a, n, h1, h2, h8.1, h8.2, h5 pos a n h8.1 h8.2, ?_⟩
  unfold fileEntries
  rw [h1, h2]
  simp only [indexEntries, h7, List.flatMap_cons, List.flatMap_nil, List.append_nil]

theorem shown_slice {rows : List V} {a n : Nat} (h : a + n ≤ rows.length) :
    shown (slice rows a n) = if n = 0 then none else if n = 1 then rows[a]?.map Entry.one
      else some (.many (slice rows a n)) := by
  have hl := slice_length h
  by_cases h0 : n = 0
  · subst h0; simp [slice, shown]
  · rw [if_neg h0]
    by_cases h1 : n = 1
    · subst h1
      rw [if_pos rfl]
      have : a < rows.length := by omega
      rw [List.getElem?_eq_getElem this]
      unfold slice
      rw [List.drop_eq_getElem_cons this]
      rfl
    · rw [if_neg h1]
      unfold shown
      split
      · next he => rw [he] at hl; simp at hl; omega
      · next v he => rw [he] at hl; simp at hl; omega
      · rfl

/-- In a list of pairs where all pairs with key `k` have the value `v`. -/
theorem get?_of_all {W : Type _} {l : Dict Str W} {k : Str} {v : W} (hm : (k, v) ∈ l) (h : ∀ w, (k, w) ∈ l → w = v) :
    Dict.get? l k = some v := by
  induction l with
  | nil => simp at hm
  | cons x l ih =>
    obtain ⟨k', v'⟩ := x
    rw [Dict.get?_cons]
    by_cases hk : k' = k
    · subst hk
      rw [if_pos rfl, h v' (by simp)]
    · rw [if_neg hk]
      refine ih ?_ (fun w hw => h w (by simp [hw]))
      rcases List.mem_cons.1 hm with he | hm
      · exact absurd (congrArg Prod.fst he).symm hk
      · exact hm

theorem get?_of_none {W : Type _} {l : Dict Str W} {k : Str} (h : ∀ w, (k, w) ∉ l) : Dict.get? l k = none := by
  rw [Dict.get?_none_iff]
  intro hk
  obtain ⟨⟨k', w⟩, hm, rfl⟩ := List.mem_map.1 hk
  exact h w hm

end KD
