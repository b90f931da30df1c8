/-
C144: what a union shows, compared with what the joined collections show.
-/
import Verif.Props.Parts

namespace KD

open Spec

variable {V W : Type}

/-- C144. Exactly what a union shows for a field and a train: the entries of any file of any of the joined collections which has the
source and the train, if the train is in one of them; else nothing. -/
theorem union_exact {order : List (FileAccess V) → List (FileAccess V)} (ho : IsOrder order) {c u : DC V}
    {others : List (DC V)} (hna : NamesAgree (c :: others)) (h : c.union order others = .ok u)
    {instr : Bool} {source key : Str} {roi : V → W} {b : LArr W}
    (hv : ∀ x ∈ c :: others, ValidIn x instr source key) (hb : u.getArray source key roi = .ok b) (t : Nat) :
    (∀ x ∈ c :: others, ∀ y ∈ c :: others, t ∈ x.trainIds → ∀ f ∈ y.files, Holds f source → t ∈ f.trainIds →
      labelled b t = (fileEntries f instr source key t).map roi) ∧
    ((∀ x ∈ c :: others, t ∉ x.trainIds) ∨ (∀ y ∈ c :: others, ¬ Covered y source t) → labelled b t = []) := by
  obtain ⟨-, u2, -, u4⟩ := union_trains_files ho hna h
  have hvu : ValidIn u instr source key := by
    intro f hf hh
    obtain ⟨x, hx, hfx⟩ := (u4 f).1 hf
    exact hv x hx f hfx hh
  obtain ⟨hnc, hd⟩ := union_ok_iff.1 h
  have hcu : NoConflict u.files := by rw [hd]; exact hnc
  obtain ⟨-, b1, b2⟩ := get_array_exact hcu hvu hb
  constructor
  · intro x hx y hy ht f hf hh htf
    exact b1 t ((u2 t).2 ⟨x, hx, ht⟩) f ((u4 f).2 ⟨y, hy, hf⟩) hh htf
  · rintro (hn | hn)
    · refine b2 t (Or.inl fun ht => ?_)
      obtain ⟨x, hx, htx⟩ := (u2 t).1 ht
      exact hn x hx htx
    · refine b2 t (Or.inr fun f hf hh htf => ?_)
      obtain ⟨y, hy, hfy⟩ := (u4 f).1 hf
      exact hn y hy ⟨f, hfy, hh, htf⟩

/-- A part which has the field, the train and the file shows what the union shows. -/
theorem part_shows {order : List (FileAccess V) → List (FileAccess V)} (ho : IsOrder order) {c u z : DC V}
    {others : List (DC V)} (hna : NamesAgree (c :: others)) (h : c.union order others = .ok u)
    {instr : Bool} {source key : Str} {roi : V → W} {b : LArr W}
    (hv : ∀ x ∈ c :: others, ValidIn x instr source key) (hb : u.getArray source key roi = .ok b) (hz : z ∈ c :: others)
    (hc : NoConflict z.files) (hav : Available z source key) {t : Nat} (ht : t ∈ z.trainIds) {f : FileAccess V} (hf : f ∈ z.files)
    (hh : Holds f source) (htf : t ∈ f.trainIds) : ∃ a, z.getArray source key roi = .ok a ∧ labelled a t = labelled b t := by
  obtain ⟨-, -, -, u4⟩ := union_trains_files ho hna h
  have hvu : ValidIn u instr source key := by
    intro f hf hh
    obtain ⟨x, hx, hfx⟩ := (u4 f).1 hf
    exact hv x hx f hfx hh
  obtain ⟨hnc, hd⟩ := union_ok_iff.1 h
  have hcu : NoConflict u.files := by rw [hd]; exact hnc
  have hac := checkField_ok.1 (getArray_ok hb).1
  have hmis : ¬ Mismatch z instr source key := by
    rintro ⟨f, hf, g, hg, h1, h2, x, y, h3, h4, h5⟩
    have := (get_array_refuses_mismatch roi hcu hvu hac).1
      ⟨f, (u4 f).2 ⟨z, hz, hf⟩, g, (u4 g).2 ⟨z, hz, hg⟩, h1, h2, x, y, h3, h4, h5⟩
    rw [hb] at this
    simp at this
  obtain ⟨a, ha, -⟩ := (get_array_refuses_mismatch roi hc (hv z hz) hav).2 hmis
  refine ⟨a, ha, ?_⟩
  obtain ⟨-, a1, -⟩ := get_array_exact hc (hv z hz) ha
  rw [a1 t ht f hf hh htf, (union_exact ho hna h hv hb t).1 z hz z hz ht f hf hh htf]

/-- C144. A union of collections which hide nothing of their files (as opened from files) shows nothing else than the joined
collections show. Partial: `union_no_more_wrong` shows that this fails for collections made with `select` and `select_trains`. -/
theorem union_no_more_partial {order : List (FileAccess V) → List (FileAccess V)} (ho : IsOrder order) {c u : DC V}
    {others : List (DC V)} (hna : NamesAgree (c :: others)) (h : c.union order others = .ok u)
    {instr : Bool} {source key : Str} {roi : V → W} {b : LArr W}
    (hv : ∀ x ∈ c :: others, ValidIn x instr source key) (hb : u.getArray source key roi = .ok b)
    (hc : ∀ x ∈ c :: others, NoConflict x.files)
    (hall : ∀ x ∈ c :: others, ∀ f ∈ x.files, Holds f source → Available x source key ∧ ∀ t ∈ f.trainIds, t ∈ x.trainIds)
    (t : Nat) : labelled b t = [] ∨ ∃ z ∈ c :: others, ∃ a, z.getArray source key roi = .ok a ∧ labelled a t = labelled b t := by
  by_cases hcov : ∃ y ∈ c :: others, Covered y source t
  · obtain ⟨y, hy, f, hf, hh, htf⟩ := hcov
    obtain ⟨h1, h2⟩ := hall y hy f hf hh
    exact Or.inr ⟨y, hy, part_shows ho hna h hv hb hy (hc y hy) h1 (h2 t htf) hf hh htf⟩
  · exact Or.inl ((union_exact ho hna h hv hb t).2 (Or.inr fun y hy hcy => hcov ⟨y, hy, hcy⟩))

/-- C144. The two uses in the documentation. Parts of one collection with the same trains (joining sources), or parts which all have
the field (further trains): the union shows nothing else than the parts. -/
theorem union_no_more_uses_partial {order : List (FileAccess V) → List (FileAccess V)} (ho : IsOrder order) {base c u : DC V}
    {others : List (DC V)} (hn : DifferentNames base) (hcb : NoConflict base.files) (hnar : ∀ x ∈ c :: others, Narrowed base x)
    (h : c.union order others = .ok u) {instr : Bool} {source key : Str} {roi : V → W} {b : LArr W}
    (hv : ValidIn base instr source key) (hb : u.getArray source key roi = .ok b)
    (huse : ((∀ x ∈ c :: others, ∀ y ∈ c :: others, ∀ t, t ∈ x.trainIds ↔ t ∈ y.trainIds) ∧ ∃ z ∈ c :: others, Available z source key) ∨
      ∀ z ∈ c :: others, Available z source key)
    (t : Nat) : labelled b t = [] ∨ ∃ z ∈ c :: others, ∃ a, z.getArray source key roi = .ok a ∧ labelled a t = labelled b t := by
  have hp : ∀ x ∈ c :: others, (∀ f ∈ x.files, f ∈ base.files) ∧ NoConflict x.files := by
    intro x hx
    obtain ⟨i1, -, -, i4⟩ := derived_parts hn hcb (hnar x hx).derived
    exact ⟨i1, i4⟩
  have hna : NamesAgree (c :: others) := by
    intro x hx y hy f hf g hg he
    exact List.inj_on_of_nodup_map hn ((hp x hx).1 f hf) ((hp y hy).1 g hg) he
  have hvx : ∀ x ∈ c :: others, ValidIn x instr source key := fun x hx f hf hh => hv f ((hp x hx).1 f hf) hh
  have hex := union_exact ho hna h hvx hb t
  by_cases htr : ∃ x ∈ c :: others, t ∈ x.trainIds
  · by_cases hcov : ∃ y ∈ c :: others, Covered y source t
    · obtain ⟨x, hx, ht⟩ := htr
      obtain ⟨y, hy, f, hf, hh, htf⟩ := hcov
      have hz : ∃ z ∈ c :: others, Available z source key ∧ t ∈ z.trainIds := by
        rcases huse with ⟨hs, z, hz, hav⟩ | hav
        · exact ⟨z, hz, hav, (hs x hx z hz t).1 ht⟩
        · exact ⟨x, hx, hav x hx, ht⟩
      obtain ⟨z, hz, hav, htz⟩ := hz
      have hsel : source ∈ z.selection.keys := (mem_allSources.1 hav.1).1
      have hfz := (narrowed_files hcb (hnar z hz)).2 source hsel t htz f ((hp y hy).1 f hf) hh htf
      exact Or.inr ⟨z, hz, part_shows ho hna h hvx hb hz (hp z hz).2 hav htz hfz hh htf⟩
    · exact Or.inl (hex.2 (Or.inr fun y hy hcy => hcov ⟨y, hy, hcy⟩))
  · exact Or.inl (hex.2 (Or.inl fun x hx htx => htr ⟨x, hx, htx⟩))

theorem open_paths_files_mem {opened : List (R (FileAccess V))} {c : DC V} (h : DC.fromPaths opened = .ok c) (f : FileAccess V) :
    f ∈ c.files ↔ (.ok f : R (FileAccess V)) ∈ opened := by
  obtain ⟨files, h1, h2⟩ := fromPaths_ok h
  obtain ⟨-, rfl⟩ := make_ok_iff.1 h2
  exact h1 f

/-- C144. Collections opened from files hide nothing: they meet the condition of `union_no_more_partial`, if the files which share
a source have the same keys. -/
theorem opened_hides_nothing {opened : List (R (FileAccess V))} {c : DC V} (h : DC.fromPaths opened = .ok c) (hk : SameKeys c.files)
    {source key : Str} {f : FileAccess V} (hf : f ∈ c.files) (hh : Holds f source) (hkey : FileHasKey f source key) :
    Available c source key ∧ ∀ t ∈ f.trainIds, t ∈ c.trainIds := by
  refine ⟨?_, fun t ht => (open_collection_train_ids h).2 t |>.2 ⟨f, ?_, ht⟩⟩
  · obtain ⟨files, -, h2⟩ := fromPaths_ok h
    obtain ⟨-, rfl⟩ := make_ok_iff.1 h2
    simp only [Option.getD_none] at hf hk ⊢
    obtain ⟨g, g1, g2, g3⟩ := head?_sourceIndex (c := (⟨files, defaultSelection files, sortedSet (files.flatMap (fun f => f.trainIds)), true⟩ : DC V))
      ⟨f, hf, hh⟩
    exact available_iff.2 ⟨none, (defaultSelection_get? files source).1 ⟨f, hf, hh⟩, Or.inl ⟨rfl, g, g1, (hk f hf g g2 source hh g3 key).1 hkey⟩⟩
  · exact (open_paths_files_mem h f).1 hf

/-- C144. In general a union shows more: the detector data of train 1 joined with the slow data of train 2 (both taken from one
collection) show the slow data of train 1, which neither of them shows. -/
theorem union_no_more_wrong : ∃ a b u, exHistA = .ok a ∧ exHistB = .ok b ∧ Narrowed exTrains a ∧ Narrowed exTrains b ∧
    a.union id [b] = .ok u ∧ (∃ arr, u.getArray (ch! "C") (ch! "x.value") id = .ok arr ∧ labelled arr 1 = [31]) ∧
    ∀ x ∈ [a, b], ∀ arr, x.getArray (ch! "C") (ch! "x.value") id = .ok arr → labelled arr 1 = [] := by
  have ha : ∃ a, exHistA = .ok a ∧ a.getArray (ch! "C") (ch! "x.value") id = .error .sourceName := ⟨_, rfl, by decide⟩
  have hb : ∃ b, exHistB = .ok b ∧ b.getArray (ch! "C") (ch! "x.value") id = .ok ⟨[32], some [2], [], 0⟩ := ⟨_, rfl, by decide⟩
  obtain ⟨-, -, -, u, hu, -, -, h5⟩ := union_of_parts_gap
  obtain ⟨a, ha1, ha2⟩ := ha
  obtain ⟨b, hb1, hb2⟩ := hb
  refine ⟨a, b, u, ha1, hb1, exHist_narrowed (Or.inl ha1), exHist_narrowed (Or.inr hb1), ?_, ⟨_, h5, by decide⟩, ?_⟩
  · unfold exHistU at hu
    rw [ha1, hb1] at hu
    exact hu
  · intro x hx arr harr
    simp only [List.mem_cons, List.not_mem_nil, or_false] at hx
    rcases hx with rfl | rfl
    · rw [ha2] at harr; simp at harr
    · rw [hb2] at harr
      obtain rfl := Except.ok.inj harr
      decide

/-- Two parts of one collection by trains meet the conditions of the second use, and their union has data. -/
example : ∃ a b u arr, exTrains.selectTrains (.idList [1]) = .ok a ∧ exTrains.selectTrains (.idList [2]) = .ok b ∧
    Narrowed exTrains a ∧ Narrowed exTrains b ∧ a.union id [b] = .ok u ∧
    (∀ z ∈ [a, b], Available z (ch! "D:o") (ch! "data.y")) ∧
    u.getArray (ch! "D:o") (ch! "data.y") id = .ok arr ∧ labelled arr 2 = [20] := by
  have h : ∃ a b u, exTrains.selectTrains (.idList [1]) = .ok a ∧ exTrains.selectTrains (.idList [2]) = .ok b ∧ a.union id [b] = .ok u ∧
      a.checkField (ch! "D:o") (ch! "data.y") = .ok () ∧ b.checkField (ch! "D:o") (ch! "data.y") = .ok () ∧
      u.getArray (ch! "D:o") (ch! "data.y") id = .ok ⟨[10, 11, 20], some [1, 1, 2], [], 0⟩ :=
    ⟨_, _, _, rfl, rfl, rfl, by decide, by decide, by decide⟩
  obtain ⟨a, b, u, h1, h2, h3, h4, h5, h6⟩ := h
  refine ⟨a, b, u, _, h1, h2, .selectTrains .same h1, .selectTrains .same h2, h3, ?_, h6, by decide⟩
  intro z hz
  simp only [List.mem_cons, List.not_mem_nil, or_false] at hz
  rcases hz with rfl | rfl
  · exact checkField_ok.1 h4
  · exact checkField_ok.1 h5

end KD
