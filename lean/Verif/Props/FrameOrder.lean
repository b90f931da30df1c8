/-
C130: the columns of `get_dataframe` do not depend on the order of files.
-/
import Verif.Props.FileOrder
import Mathlib.Data.List.Perm.Basic

namespace KD

open KD.Spec

variable {V : Type}

theorem columnName_unique {s k a b : Str} (ha : IsColumnName s k a) (hb : IsColumnName s k b) : a = b := by
  rcases ha with ⟨x, h1, h2⟩ | ⟨h1, h2⟩ <;> rcases hb with ⟨y, h3, h4⟩ | ⟨h3, h4⟩
  · rw [h1] at h3
    have := List.append_cancel_right h3
    subst this
    rw [h2, h4]
  · exact absurd ⟨x, h1⟩ h3
  · exact absurd ⟨y, h3⟩ h1
  · rw [h2, h4]

theorem forall₂_unique {α β : Type} {r : α → β → Prop} (hr : ∀ a b b', r a b → r a b' → b = b') {l : List α} {m m' : List β}
    (h : List.Forall₂ r l m) (h' : List.Forall₂ r l m') : m = m' := by
  induction h generalizing m' with
  | nil => cases h'; rfl
  | cons h1 _ ih =>
    cases h' with
    | cons h2 h3 => rw [hr _ _ _ h1 h2, ih h3]

theorem forall₂_left_mem {α β : Type} {r : α → β → Prop} {l : List α} {m : List β} (h : List.Forall₂ r l m) {a : α} (ha : a ∈ l) :
    ∃ b ∈ m, r a b := by
  induction h with
  | nil => simp at ha
  | @cons x y l m h1 _ ih =>
    rcases List.mem_cons.1 ha with rfl | ha
    · exact ⟨y, by simp, h1⟩
    · obtain ⟨b, hb, h⟩ := ih ha; exact ⟨b, List.mem_cons_of_mem _ hb, h⟩

theorem listsKeys_readable {c : DC V} (hl : ListsKeys c.files) : KeysReadable c := by
  intro s hs
  obtain ⟨h1, f, hf, hh⟩ := mem_allSources.1 hs
  obtain ⟨v, hv⟩ := Dict.mem_keys_iff.1 h1
  unfold DC.keysForSource
  rw [hv]
  cases v with
  | some ks => exact ⟨_, rfl⟩
  | none =>
    cases hi : c.sourceIndex s with
    | nil => have := mem_sourceIndex.2 ⟨hf, hh⟩; rw [hi] at this; simp at this
    | cons g l =>
      obtain ⟨h3, h4⟩ := mem_sourceIndex.1 (show g ∈ c.sourceIndex s by rw [hi]; simp)
      exact hl g h3 s h4

/-- C130. `get_dataframe` of the same files in another order has the same named columns, maybe in another order. -/
theorem same_columns {c d : DC V} (h : SameContents c d) (hc : NoConflict c.files) (hk : SameKeys c.files) (hl : ListsKeys c.files)
    {ts : Bool} {cols : List (Str × List (SeriesRow V))} (hcols : c.getDataframe ts = .ok cols) :
    ∃ cols', d.getDataframe ts = .ok cols' ∧ cols.Perm cols' := by
  obtain ⟨hne, pairs, hnd, hmem, hall⟩ := get_dataframe_columns hcols
  have hav := (same_available h hk).2.2
  have hser : ∀ s k, (s, k) ∈ pairs → ∃ l, c.getSeries s k = .ok l ∧ d.getSeries s k = .ok l := by
    intro s k hp
    obtain ⟨col, -, hcol⟩ := forall₂_left_mem hall hp
    exact ⟨col.2, hcol.2, same_series h hc hk hcol.2⟩
  have hkr : KeysReadable d := listsKeys_readable (listsKeys_perm h.files hl)
  obtain ⟨cols', hcols'⟩ := get_dataframe_succeeds (c := d) (ts := ts) hkr (fun s k h1 h2 => by
    obtain ⟨l, -, hl⟩ := hser s k ((hmem s k).2 ⟨(hav s k).2 h1, h2⟩)
    exact ⟨l, hl⟩) (by
    cases pairs with
    | nil => cases hall; exact absurd rfl hne
    | cons p ps =>
      obtain ⟨h1, h2⟩ := (hmem p.1 p.2).1 (by simp)
      exact ⟨p.1, p.2, (hav _ _).1 h1, h2⟩)
  refine ⟨cols', hcols', ?_⟩
  obtain ⟨-, pairs', hnd', hmem', hall'⟩ := get_dataframe_columns hcols'
  have hperm : pairs'.Perm pairs := by
    rw [List.perm_ext_iff_of_nodup hnd' hnd]
    rintro ⟨s, k⟩
    rw [hmem, hmem', hav]
  obtain ⟨m, hm1, hm2⟩ := List.perm_comp_forall₂ hperm hall
  have : m = cols' := by
    refine forall₂_unique (r := fun (p : Str × Str) (col : Str × List (SeriesRow V)) => IsColumnName p.1 p.2 col.1 ∧ d.getSeries p.1 p.2 = .ok col.2)
      ?_ (hm1.imp (fun p col hp => ⟨hp.1, same_series h hc hk hp.2⟩)) hall'
    rintro p ⟨a, x⟩ ⟨b, y⟩ ⟨h1, h2⟩ ⟨h3, h4⟩
    rw [h2] at h4
    obtain rfl := Except.ok.inj h4
    simp only at h1 h3
    rw [columnName_unique h1 h3]
  rw [← this]
  exact hm2.symm

/-- The table of the control data of the example, with the files in the opposite order. -/
example : ∃ d cols, exWriteRev.select (.globs [(ch! "C", ch! "*")]) = .ok d ∧ d.getDataframe false = .ok cols ∧
    cols.Perm [(ch! "C/x", [⟨1, none, 31⟩, ⟨2, none, 32⟩, ⟨3, none, 33⟩])] := by
  obtain ⟨h1, h2, h3⟩ := exWrite_files
  obtain ⟨c, hc, ec⟩ : ∃ c, exWrite.select (.globs [(ch! "C", ch! "*")]) = .ok c ∧
      c.getDataframe false = .ok [(ch! "C/x", [⟨1, none, 31⟩, ⟨2, none, 32⟩, ⟨3, none, 33⟩])] := ⟨_, rfl, by decide⟩
  obtain ⟨d, hd, hs⟩ := same_select exWriteRev_same h2 h3 hc
  obtain ⟨sel, -, hno, rfl⟩ := select_ok_iff.1 hc
  obtain ⟨cols, h4, h5⟩ := same_columns hs hno (fun f hf g hg => h2 f (mem_filesFor.1 hf).1 g (mem_filesFor.1 hg).1)
    (fun f hf => h3 f (mem_filesFor.1 hf).1) ec
  exact ⟨d, cols, hd, h4, h5.symm⟩

end KD
