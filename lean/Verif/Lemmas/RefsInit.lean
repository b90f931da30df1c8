/-
Selecting and finding the modules of a detector do not look at the values in datasets either.
-/
import Verif.Props.Links
import Verif.Lemmas.DetArray

namespace KD

variable {V : Type}

theorem refs_conflictIn : ∀ (fs : List (FileAccess V)) (got : List Nat),
    conflictIn got (fs.map FileAccess.refs) = conflictIn got fs
  | [], _ => rfl
  | f :: fs, got => by
    have h : f.refs.trainIds = f.trainIds := rfl
    simp only [List.map_cons, conflictIn, h, refs_conflictIn fs]

theorem refs_hasConflicts (fs : List (FileAccess V)) : hasConflicts (fs.map FileAccess.refs) = hasConflicts fs := by
  unfold hasConflicts
  rw [List.flatMap_map]
  have h1 : (fun f : FileAccess V => f.refs.controlSources ++ f.refs.instrumentSources) =
    fun f => f.controlSources ++ f.instrumentSources := rfl
  rw [h1]
  congr 1
  funext s
  rw [List.filter_map]
  exact refs_conflictIn _ _

theorem refs_make (fs : List (FileAccess V)) (sel : Selection) (T : List Nat) (x : Bool) :
    DC.make (fs.map FileAccess.refs) (some sel) (some T) x = (DC.make fs (some sel) (some T) x).map DC.refs := by
  unfold DC.make
  simp only [refs_hasConflicts]
  split <;> rfl

theorem refs_sourceIndex (c : DC V) (s : Str) : c.refs.sourceIndex s = (c.sourceIndex s).map FileAccess.refs := by
  unfold DC.sourceIndex DC.refs
  simp only [List.filter_map]
  rfl

theorem refs_checkField (c : DC V) (s k : Str) : c.refs.checkField s k = c.checkField s k := by
  unfold DC.checkField
  rw [refs_allSources, refs_keysForSource]

theorem refs_selectGlob (c : DC V) (a b : Str) : c.refs.selectGlob a b = c.selectGlob a b := by
  unfold DC.selectGlob
  have h : c.refs.globSource b = c.globSource b := by
    funext s
    unfold DC.globSource
    rw [refs_keysForSource, refs_controlSources]
  rw [h, refs_allSources]

theorem refs_select (c : DC V) (l : List (Str × Str)) : c.refs.select (.globs l) = (c.select (.globs l)).map DC.refs := by
  unfold DC.select DC.expandSelection
  simp only [refs_selectGlob]
  cases mapE (fun sk => c.selectGlob sk.1 sk.2) l with
  | error e => rfl
  | ok sels =>
    dsimp only
    have h : c.refs.filesFor (unionSelections sels) = (c.filesFor (unionSelections sels)).map FileAccess.refs := by
      unfold DC.filesFor DC.refs
      simp only [List.filter_map]
      rfl
    rw [h]
    exact refs_make _ _ _ _

theorem refs_selectTrains (c : DC V) (tr : TrainRange) : c.refs.selectTrains tr = (c.selectTrains tr).map DC.refs := by
  unfold DC.selectTrains
  have h1 : c.refs.trainIds = c.trainIds := rfl
  rw [h1]
  cases selectTrainIds c.trainIds tr with
  | error e => rfl
  | ok new =>
    dsimp only
    have h : c.refs.files.filter (fun f => f.trainIds.any (fun t => t ∈ new)) =
        (c.files.filter (fun f => f.trainIds.any (fun t => t ∈ new))).map FileAccess.refs := by
      unfold DC.refs
      simp only [List.filter_map]
      rfl
    rw [h]
    exact refs_make _ _ _ _

theorem refs_getDataCounts (c : DC V) (s k : Str) : c.refs.getDataCounts s k = c.getDataCounts s k := by
  unfold DC.getDataCounts
  rw [refs_checkField, refs_sourceIndex, mapE_map]
  have h : (fun f : FileAccess V => c.refs.countsOfFile s k f.refs) = c.countsOfFile s k := by
    funext f
    unfold DC.countsOfFile
    rw [refs_controlSources, refs_getIndex]
    rfl
  rw [h]
  rfl

/-- The detector found in a collection is the same with references in place of values. -/
theorem refs_init {kind : Option Str} {c : DC V} {name : Option Str} {modules : Option (List Nat)} {minModules : Int}
    {d : Det V} (h : Det.init kind c name modules minModules = .ok d) :
    Det.init kind c.refs name modules minModules = .ok d.refs := by
  have key : Det.init kind c.refs name modules minModules = (Det.init kind c name modules minModules).map Det.refs := by
    unfold Det.init
    have h1 : findDetectorName kind c.refs = findDetectorName kind c := by
      unfold findDetectorName; rw [refs_instrumentSources]
    have h2 : ∀ n, identifySources c.refs n modules = identifySources c n modules := by
      intro n; unfold identifySources; rw [refs_instrumentSources]
    simp only [h1, h2, refs_select]
    split
    · rfl
    · split
      · rfl
      · rename_i s2m _
        cases c.select (.globs (s2m.map (fun x => (x.1, ch! "*")))) with
        | error e => rfl
        | ok e =>
          simp only [Except.map, refs_getDataCounts]
          split
          · rfl
          · split
            · rfl
            · simp only [refs_selectTrains]
              split
              · rfl
              · cases e.selectTrains _ with
                | error x => rfl
                | ok e' =>
                  simp only [Except.map]
                  split <;> rfl
            · rfl
  rw [key, h]; rfl

end KD
