/-
C04: `keys_for_source` of a collection: KeyError for sources which are not there, and otherwise the keys in a file which has the source.
-/
import Verif.Props.OpenUnion
import Verif.Props.SelectAll

namespace KD

open Spec

variable {V : Type}

theorem keysForSource_unselected {c : DC V} {source : Str} (h : source ∉ c.selection.keys) :
    c.keysForSource source = .error .key := by
  have hg : c.selection.get? source = none := by
    cases hg : c.selection.get? source with
    | none => rfl
    | some v => exact absurd (Dict.mem_keys_iff.2 ⟨v, hg⟩) h
  unfold DC.keysForSource
  rw [hg]

/-- C04: `keys_for_source` of opened files. A source the collection does not have raises KeyError; for one it has, the answer
(the keys, or an exception if the group of the source is missing) is that of a file which has the source. -/
theorem keys_for_source_opened {opened : List (R (FileAccess V))} {c : DC V} (h : DC.fromPaths opened = .ok c) (source : Str) :
    (source ∉ c.allSources → c.keysForSource source = .error .key) ∧
    (source ∈ c.allSources → ∃ f, .ok f ∈ opened ∧ Holds f source ∧ c.keysForSource source = f.getKeys source) := by
  obtain ⟨files, hfs, hm⟩ := fromPaths_ok h
  obtain ⟨-, rfl⟩ := make_ok_iff.1 hm
  constructor
  · intro hn
    refine keysForSource_unselected fun hk => hn ?_
    obtain ⟨v, hv⟩ := Dict.mem_keys_iff.1 hk
    exact mem_allSources.2 ⟨hk, (defaultSelection_none.1 hv).2⟩
  · intro hs
    obtain ⟨hk, f0, hf0, hh0⟩ := mem_allSources.1 hs
    obtain ⟨v, hv⟩ := Dict.mem_keys_iff.1 hk
    obtain rfl := (defaultSelection_none.1 hv).1
    unfold DC.keysForSource
    rw [hv]
    dsimp only
    split
    · next f hf =>
      obtain ⟨hf1, hf2⟩ := mem_sourceIndex.1 (List.mem_of_mem_head? hf)
      exact ⟨f, (hfs f).1 hf1, hf2, rfl⟩
    · next hf =>
      rw [List.head?_eq_none_iff] at hf
      have := mem_sourceIndex.2 ⟨hf0, hh0⟩
      rw [hf] at this
      simp at this

/-- C04: after `select`, on whatever collection, a source which is not there raises KeyError. -/
theorem keys_for_source_selected {c d : DC V} {sel : SelArg} (h : c.select sel = .ok d) {source : Str}
    (hs : source ∉ d.allSources) : d.keysForSource source = .error .key := by
  obtain ⟨selection, h1, -, rfl⟩ := select_ok_iff.1 h
  refine keysForSource_unselected fun hk => hs ?_
  obtain ⟨v, hv⟩ := Dict.mem_keys_iff.1 hk
  obtain ⟨-, f, hf, hh⟩ := mem_allSources.1 (expand_sources h1 hv)
  refine mem_allSources.2 ⟨hk, f, ?_, hh⟩
  refine List.mem_filter.2 ⟨hf, List.any_eq_true.2 ⟨source, ?_, decide_eq_true hk⟩⟩
  simpa [FileAccess.allSources, Holds] using hh

example : ∃ c d, DC.fromPaths [.ok (exInst (ch! "a") [1, 3] [0, 2] [2, 1] [10, 11, 12]), .error .os] = .ok c ∧
    c.keysForSource (ch! "D:o") = .ok [ch! "data.y"] ∧ c.keysForSource (ch! "D") = .error .key ∧
    c.select (.globs [(ch! "E*", ch! "*")]) = .error .value ∧ c.select (.globs [(ch! "D*", ch! "data.*")]) = .ok d ∧
    d.keysForSource (ch! "D:o") = .ok [ch! "data.y"] ∧ d.keysForSource (ch! "E") = .error .key :=
  ⟨_, _, rfl, by decide, by decide, by decide, rfl, by decide, by decide⟩

end KD
