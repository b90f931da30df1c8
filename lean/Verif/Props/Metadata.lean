/-
C98 the metadata of a written file.
-/
import Verif.Props.Writer

namespace KD

open Spec

variable {V : Type}

theorem sources_nodup {T : List Nat} {D : Fld → Option (Dataset V × List Nat)} {Fs : List Fld} {w : WState V}
    (h : foldE (addFld T D) WState.new Fs = .ok w) : w.sources.Nodup := by
  refine foldE_inv (P := fun _ s => s.sources.Nodup) (done := []) (by simp [WState.new]) ?_ h
  intro done s F s' _ h1 h2
  unfold addFld at h2
  split at h2
  · obtain rfl := Except.ok.inj h2; exact h1
  next ds tids hD =>
  split at h2
  · simp at h2
  next w1 hw1 =>
  have e : w1.sources = s.sources := by
    unfold WState.create at hw1
    dsimp only at hw1
    split at hw1
    · simp at hw1
    · obtain rfl := Except.ok.inj hw1; rfl
  obtain ⟨-, ⟨ix, -, rfl⟩ | ⟨-, ix, -, -, h3⟩⟩ := makeIx_eq T w1 F tids s' h2
  · rw [e]; exact h1
  · rw [h3, e]
    unfold setAdd
    split
    · exact h1
    next hn => exact List.nodup_append.2 ⟨h1, List.nodup_singleton _, by
      intro a ha b hb e
      rw [List.mem_singleton.1 hb] at e
      exact hn (e ▸ ha)⟩

/-- C98. The metadata of a written file names each control source, and each instrument source with the first part of a key, once and
in order, and the datasets root and deviceId have the parts of the names before and after the first slash. -/
theorem metadata_written {c : DC V} {h : H5File V} (hn : WellNamed c) (hw : c.write = .ok h) :
    ∃ ids rows, h.sources05 = some ids ∧ writeMetadata ids = .ok rows ∧ rows.map Prod.fst = ids ∧ ids.Pairwise (· < ·) ∧
      (∀ id root device, (id, root, device) ∈ rows ↔ id = root ++ '/' :: device ∧
        ((root = ch! "CONTROL" ∧ ∃ k, HasField c false device k) ∨
         (root = ch! "INSTRUMENT" ∧ ∃ s k, HasField c true s k ∧ device = s ++ '/' :: groupName true k))) := by
  obtain ⟨Fs, w, hFs, hfold, hfin⟩ := write_ok hw
  have hi := winv_fold (fun F hF F' hF' => ixName_instr hn ((hFs F).1 hF) ((hFs F').1 hF')) hfold
  have h5 : h.sources05 = some (sortStrs w.sources) := by
    unfold WState.finish at hfin
    split at hfin
    · simp at hfin
    · obtain rfl := Except.ok.inj hfin; rfl
  have hperm : (sortStrs w.sources).Perm w.sources := List.perm_insertionSort _ _
  have hsort : (sortStrs w.sources).Pairwise (· < ·) := by
    have : IsTrans Str (fun a b => a ≤ b) := ⟨fun a b c h1 h2 => List.le_trans h1 h2⟩
    have : Std.Total (fun a b : Str => a ≤ b) := ⟨fun a b => List.le_total _ _⟩
    refine ((List.pairwise_insertionSort (fun a b : Str => a ≤ b) w.sources).and (hperm.nodup_iff.2 (sources_nodup hfold))).imp ?_
    rintro a b ⟨h1, h2⟩
    rcases List.le_iff_lt_or_eq.1 h1 with h | h
    · exact h
    · exact absurd h h2
  have hmem : ∀ id, id ∈ sortStrs w.sources ↔ ∃ F : Fld, HasField c F.1 F.2.1 F.2.2 ∧ srcId F = id := by
    intro id
    rw [hperm.mem_iff, hi.srcs]
    constructor
    · rintro ⟨F, h1, -, h2⟩; exact ⟨F, (hFs F).1 h1, h2⟩
    · rintro ⟨F, h1, h2⟩
      obtain ⟨x, hx, -⟩ := write_hasData hw h1
      exact ⟨F, (hFs F).2 h1, ⟨x, hx⟩, h2⟩
  have hparts : ∀ id ∈ sortStrs w.sources, metadataParts id = .ok (id, (partition '/' id).1, (partition '/' id).2) := by
    intro id hid
    obtain ⟨F, -, rfl⟩ := (hmem id).1 hid
    unfold metadataParts
    rw [if_pos]
    unfold srcId
    split <;> simp
  have hrows : writeMetadata (sortStrs w.sources) =
      .ok ((sortStrs w.sources).map (fun id => (id, (partition '/' id).1, (partition '/' id).2))) :=
    mapE_ok_of_forall hparts
  have hpart : ∀ F : Fld, (partition '/' (srcId F)) = (sectionName F.1, ixName F) := by
    intro F
    unfold srcId sectionName
    split <;> rfl
  refine ⟨_, _, h5, hrows, by simp [List.map_map, Function.comp_def], hsort, ?_⟩
  intro id root device
  simp only [List.mem_map, Prod.mk.injEq]
  constructor
  · rintro ⟨id', h1, rfl, rfl, rfl⟩
    obtain ⟨F, h2, rfl⟩ := (hmem id').1 h1
    obtain ⟨b, s, k⟩ := F
    rw [hpart]
    cases b with
    | true => exact ⟨rfl, Or.inr ⟨rfl, s, k, h2, by simp [ixName, groupName]⟩⟩
    | false => exact ⟨rfl, Or.inl ⟨rfl, k, h2⟩⟩
  · rintro ⟨rfl, ⟨rfl, k, h2⟩ | ⟨rfl, s, k, h2, rfl⟩⟩
    · refine ⟨_, (hmem _).2 ⟨(false, device, k), h2, rfl⟩, ?_⟩
      rw [hpart]; exact ⟨rfl, rfl, rfl⟩
    · refine ⟨_, (hmem _).2 ⟨(true, s, k), h2, rfl⟩, ?_⟩
      rw [hpart]
      simp [srcId, ixName, groupName, sectionName]

example : (exWrite.write).toOption.bind (fun h => h.sources05) = some [ch! "CONTROL/C", ch! "INSTRUMENT/D:o/data"] ∧
    writeMetadata [ch! "CONTROL/C", ch! "INSTRUMENT/D:o/data"] =
      .ok [(ch! "CONTROL/C", ch! "CONTROL", ch! "C"), (ch! "INSTRUMENT/D:o/data", ch! "INSTRUMENT", ch! "D:o/data")] :=
  ⟨by decide, by decide⟩

end KD
