/-
C107 and C144 for indexes with gaps: histories of selections and unions.
-/
import Verif.Props.DerivedGaps
import Verif.Props.History
import Verif.Props.UnionExact
import Verif.Props.AnyIndexArrays
import Verif.Props.SameData

namespace KD

open Spec

variable {V W : Type}

/-- C107 for indexes with gaps. After any number of `select`, `deselect` and `select_trains`, `get_array` gives exactly what the original
gives for the selected trains. -/
theorem narrowed_array_gaps {c d : DC V} {instr : Bool} {source key : Str} {roi : V → W} {a : LArr W} (hn : DifferentNames c)
    (hc : NoConflict c.files) (hv : FollowsIn c c.trainIds instr source key) (ha : c.getArray source key roi = .ok a)
    (h : Narrowed c d) (hvd : ∀ f ∈ d.files, Holds f source → FollowsOn f d.trainIds instr source key) (hav : Available d source key) :
    ∃ b, d.getArray source key roi = .ok b ∧ AllLabelled b ∧ (∀ t ∈ d.trainIds, labelled b t = labelled a t) ∧
      ∀ t, t ∉ d.trainIds → labelled b t = [] := by
  obtain ⟨b, h1, h2, h3, h4⟩ := derived_array_gaps hn hc hv ha h.derived hvd hav
  refine ⟨b, h1, h2, fun t ht => ?_, fun t ht => h4 t (Or.inl ht)⟩
  by_cases hcov : Covered d source t
  · exact h3 t ht hcov
  · rw [h4 t (Or.inr hcov)]
    rw [narrowed_covered hn hc h hav.1 ht] at hcov
    exact ((get_array_follows hc hv ha).2.2 t (Or.inr (fun f hf hh htf => hcov ⟨f, hf, hh, htf⟩))).symm

/-- C107 for any index within the data. The counts of a collection made by any number of `select`, `deselect` and `select_trains` are
those of the original for the selected trains. -/
theorem narrowed_counts_any {c d : DC V} {source key : Str} (hn : DifferentNames c) (hc : NoConflict c.files)
    (hv : IndexedIn c true source key) (hne : ∀ f ∈ c.files, Holds f source → f.trainIds ≠ []) (h : Narrowed c d)
    (hac : Available c source key) (had : Available d source key) :
    ∃ l l', c.getDataCounts source key = .ok l ∧ d.getDataCounts source key = .ok l' ∧
      ∀ t n, (t, n) ∈ l' ↔ t ∈ d.trainIds ∧ (t, n) ∈ l := by
  obtain ⟨i1, i2, -, i4⟩ := derived_parts hn hc h.derived
  obtain ⟨l, h1, -, h2⟩ := get_data_counts_indexed hc hv hne hac
  obtain ⟨l', h1', -, h2'⟩ := get_data_counts_indexed i4 (fun f hf => hv f (i1 f hf)) (fun f hf => hne f (i1 f hf)) had
  refine ⟨l, l', h1, h1', fun t n => ?_⟩
  rw [h2, h2']
  constructor
  · rintro ⟨ht, f, hf, hh, htf, rfl⟩
    exact ⟨ht, i2 t ht, f, i1 f hf, hh, htf, rfl⟩
  · rintro ⟨ht, -, f, hf, hh, htf, rfl⟩
    exact ⟨ht, f, (narrowed_files hc h).2 source (mem_allSources.1 had.1).1 t ht f hf hh htf, hh, htf, rfl⟩

/-- C144 for indexes with gaps. Exactly what a union shows for a field and a train: the entries of any file of any of the joined
collections which has the source and the train, if the train is in one of them; else nothing. -/
theorem union_exact_gaps {order : List (FileAccess V) → List (FileAccess V)} (ho : IsOrder order) {c u : DC V}
    {others : List (DC V)} (hna : NamesAgree (c :: others)) (h : c.union order others = .ok u)
    {instr : Bool} {source key : Str} {roi : V → W} {b : LArr W}
    (hv : FollowsIn u u.trainIds instr source key) (hb : u.getArray source key roi = .ok b) (t : Nat) :
    (∀ x ∈ c :: others, ∀ y ∈ c :: others, t ∈ x.trainIds → ∀ f ∈ y.files, Holds f source → t ∈ f.trainIds →
      labelled b t = (fileEntries f instr source key t).map roi) ∧
    ((∀ x ∈ c :: others, t ∉ x.trainIds) ∨ (∀ y ∈ c :: others, ¬ Covered y source t) → labelled b t = []) := by
  obtain ⟨-, u2, -, u4⟩ := union_trains_files ho hna h
  obtain ⟨hnc, hd⟩ := union_ok_iff.1 h
  have hcu : NoConflict u.files := by rw [hd]; exact hnc
  obtain ⟨-, b1, b2⟩ := get_array_follows hcu hv hb
  constructor
  · intro x hx y hy ht f hf hh htf
    exact b1 t ((u2 t).2 ⟨x, hx, ht⟩) f ((u4 f).2 ⟨y, hy, hf⟩) hh htf
  · rintro (hn | hn)
    · refine b2 t (Or.inl fun ht => ?_)
      obtain ⟨x, hx, htx⟩ := (u2 t).1 ht
      exact hn x hx htx
    · refine b2 t (Or.inr fun f hf hh htf => ?_)
      obtain ⟨y, hy, hfy⟩ := (u4 f).1 hf
      exact hn y hy ⟨f, hfy, hh, htf⟩

/-! ### Example -/

/-- Two rows before train 1, no entries in train 2 (which points at row 0), and one row which belongs to no train before those of
train 3. -/
def exHoles : FileAccess Nat := exInst (ch! "a") [1, 2, 3, 4] [2, 0, 5, 7] [2, 0, 2, 1] [0, 0, 10, 11, 0, 30, 31, 40]

def exHolesRun : DC Nat := ⟨[exHoles], [(ch! "D:o", none)], [1, 3, 4], true⟩

theorem exHoles_index : exHoles.getIndex (ch! "D:o") (groupName true (ch! "data.y")) = .ok ([2, 0, 5, 7], [2, 0, 2, 1]) := by decide

theorem exHoles_follows {T : List Nat} (hT : ∀ t ∈ T, t ∈ [1, 3, 4]) : FollowsOn exHoles T true (ch! "D:o") (ch! "data.y") := by
  intro firsts counts h i0 i a b n hs ha hb hn h0
  rw [exHoles_index] at h
  obtain ⟨rfl, rfl⟩ := Prod.mk.inj (Except.ok.inj h)
  have h2 : 2 ∉ T := fun h => absurd (hT 2 h) (by decide)
  have not1 : ¬ (i0 ≤ 1 ∧ 1 ≤ i) := by
    rintro ⟨p, q⟩
    obtain ⟨t, ht, hm⟩ := hs.2.1 1 p q
    have : t = 2 := (Option.some.inj ht).symm
    subst this
    exact h2 hm
  have hle := hs.1
  match i, i0 with
  | 0, 0 => simp at ha hb; subst ha hb; rfl
  | 0, i0 + 1 => omega
  | 1, _ => simp at hn; omega
  | 2, 2 => simp at ha hb; subst ha hb; rfl
  | 2, 0 | 2, 1 => omega
  | 2, i0 + 3 => omega
  | 3, 2 => simp at ha hb; subst ha hb; rfl
  | 3, 3 => simp at ha hb; subst ha hb; rfl
  | 3, 0 | 3, 1 => omega
  | 3, i0 + 4 => omega
  | i + 4, _ => simp at hn

theorem exHoles_in : DifferentNames exHolesRun ∧ NoConflict exHolesRun.files ∧
    FollowsIn exHolesRun exHolesRun.trainIds true (ch! "D:o") (ch! "data.y") := by
  refine ⟨by unfold DifferentNames; decide, hasConflicts_false.1 (by decide), fun f hf _ => ?_⟩
  obtain rfl := List.mem_singleton.1 hf
  refine ⟨by decide, by decide, ⟨by decide, by decide, _, _, ⟨[0, 0, 10, 11, 0, 30, 31, 40], [], 0⟩, exHoles_index, by decide, rfl, rfl, ?_⟩,
    exHoles_follows (fun t h => h)⟩
  exact inBounds_cons (by decide) (inBounds_cons (by decide) (inBounds_cons (by decide) (inBounds_cons (by decide) (inBounds_nil _))))

/-- The example meets the hypotheses: selecting trains 3 and 4 of it keeps their data and counts. -/
example : exHolesRun.getArray (ch! "D:o") (ch! "data.y") id = .ok ⟨[10, 11, 30, 31, 40], some [1, 1, 3, 3, 4], [], 0⟩ ∧
    ∃ d, exHolesRun.selectTrains (.idList [3, 4]) = .ok d ∧
      (∃ b, d.getArray (ch! "D:o") (ch! "data.y") id = .ok b ∧ labelled b 3 = [30, 31] ∧ labelled b 1 = []) ∧
      ∃ l, d.getDataCounts (ch! "D:o") (ch! "data.y") = .ok l ∧ (3, 2) ∈ l := by
  obtain ⟨h1, h2, h3⟩ := exHoles_in
  have ha : exHolesRun.getArray (ch! "D:o") (ch! "data.y") id = .ok ⟨[10, 11, 30, 31, 40], some [1, 1, 3, 3, 4], [], 0⟩ := by decide
  obtain ⟨d, hd, ht, hf, hs⟩ : ∃ d, exHolesRun.selectTrains (.idList [3, 4]) = .ok d ∧ d.trainIds = [3, 4] ∧ d.files = [exHoles] ∧
    d.selection = exHolesRun.selection := ⟨_, rfl, by decide, by decide, by decide⟩
  have hnar : Narrowed exHolesRun d := .selectTrains .same hd
  have hav0 : Available exHolesRun (ch! "D:o") (ch! "data.y") := ⟨by decide, [ch! "data.y"], by decide, by decide⟩
  have hav : Available d (ch! "D:o") (ch! "data.y") := by
    obtain ⟨fs, sel, ts, cl⟩ := d
    simp only at ht hf hs
    subst ht hf hs
    exact ⟨by show ch! "D:o" ∈ (DC.allSources _); cases cl <;> decide, [ch! "data.y"], by cases cl <;> decide, by decide⟩
  have hfo : ∀ f ∈ d.files, Holds f (ch! "D:o") → FollowsOn f d.trainIds true (ch! "D:o") (ch! "data.y") := by
    intro f hfm _
    rw [hf] at hfm
    obtain rfl := List.mem_singleton.1 hfm
    exact exHoles_follows (by rw [ht]; decide)
  refine ⟨ha, d, hd, ?_, ?_⟩
  · obtain ⟨b, b1, -, b3, b4⟩ := narrowed_array_gaps h1 h2 h3 ha hnar hfo hav
    refine ⟨b, b1, ?_, b4 1 (by rw [ht]; decide)⟩
    rw [b3 3 (by rw [ht]; decide)]
    decide
  · obtain ⟨l, l', e1, e2, e3⟩ := narrowed_counts_any h1 h2 (fun f hf hh => (h3 f hf hh).2.2.1) (fun f hf hh => (h3 f hf hh).2.1) hnar hav0 hav
    refine ⟨l', e2, (e3 3 2).2 ⟨by rw [ht]; decide, ?_⟩⟩
    have : exHolesRun.getDataCounts (ch! "D:o") (ch! "data.y") = .ok [(1, 2), (3, 2), (4, 1)] := by decide
    rw [this] at e1
    obtain rfl := Except.ok.inj e1
    decide

end KD
