/- A run whose index has gaps meets the hypotheses of the theorems about written files and copies. -/
import Verif.Props.HistoryGaps

namespace KD
open Spec

theorem exHolesRun_field {b : Bool} {s k : Str} (h : HasField exHolesRun b s k) : b = true ∧ s = ch! "D:o" ∧ k = ch! "data.y" := by
  obtain ⟨h1, ks, h2, h3⟩ := h
  cases b with
  | true =>
    have e : exHolesRun.instrumentSources = [ch! "D:o"] := by decide
    rw [if_pos rfl, e, List.mem_singleton] at h1
    subst h1
    have : exHolesRun.keysForSource (ch! "D:o") = .ok [ch! "data.y"] := by decide
    rw [this] at h2; obtain rfl := Except.ok.inj h2
    exact ⟨rfl, rfl, List.mem_singleton.1 h3⟩
  | false =>
    have e : exHolesRun.controlSources = [] := by decide
    rw [if_neg (by decide), e] at h1
    simp at h1

theorem exHolesRun_writable : Writable exHolesRun := by
  refine ⟨⟨hasConflicts_false.1 (by decide), by decide, by decide, ⟨by decide, ?_, ?_, ?_⟩, ?_⟩, fun b s k hF => inOrder_of_ranges b k ?_⟩
  · intro s hs
    have e : exHolesRun.instrumentSources = [ch! "D:o"] := by decide
    rw [e, List.mem_singleton] at hs
    exact ⟨ch! "D", ch! "o", ⟨by decide, by decide⟩, hs⟩
  · intro b s k h
    obtain ⟨-, -, rfl⟩ := exHolesRun_field h
    exact ⟨[ch! "data", ch! "y"], by decide, by decide, by decide⟩
  · intro b s k s' k' h h' _
    rw [(exHolesRun_field h).2.1, (exHolesRun_field h').2.1]
  · intro b s k h
    obtain ⟨rfl, rfl, rfl⟩ := exHolesRun_field h
    exact exHoles_in.2.2
  · intro f hf g hg _ _ hne
    rw [List.mem_singleton.1 hf, List.mem_singleton.1 hg] at hne
    exact absurd rfl hne

theorem exHolesRun_copyable : Copyable exHolesRun := by
  refine ⟨exHolesRun_writable, fun s hs => ?_, fun b s k hF => ?_, fun b s k hF => ?_⟩
  · have e : exHolesRun.allSources = [ch! "D:o"] := by decide
    have hs' := hs
    rw [e, List.mem_singleton] at hs'
    subst hs'
    exact ⟨ch! "data.y", hs, [ch! "data.y"], by decide, by decide⟩
  · rintro ⟨f, hf, g, hg, -, -, d, e, hd, he, h⟩
    rw [List.mem_singleton.1 hf] at hd
    rw [List.mem_singleton.1 hg, hd] at he
    obtain rfl := Except.ok.inj he
    rcases h with h | h <;> exact h rfl
  · obtain ⟨rfl, rfl, rfl⟩ := exHolesRun_field hF
    exact ⟨1, by decide, exHoles, List.mem_cons_self, .inr (by decide), by decide⟩

/-- The index of the example is not contiguous. All its copies give the same array; a file written by `write` has the same entries
in each train. -/
example : ¬ ValidIn exHolesRun true (ch! "D:o") (ch! "data.y") ∧
    (∀ e, CopyOf exHolesRun e → e.getArray (ch! "D:o") (ch! "data.y") id = .ok ⟨[10, 11, 30, 31, 40], some [1, 1, 3, 3, 4], [], 0⟩) ∧
    (∃ h, exHolesRun.write = .ok h) ∧
    (readBack exHolesRun).map (fun f => [1, 3, 4].map (fun t => fileEntries f true (ch! "D:o") (ch! "data.y") t)) = .ok [[10, 11], [30, 31], [40]] := by
  refine ⟨fun hv => ?_, fun e he => ?_, ⟨_, rfl⟩, by decide⟩
  · obtain ⟨firsts, counts, ds, h1, -, -, -, h2, -⟩ := (hv exHoles List.mem_cons_self (.inr (by decide))).data
    rw [exHoles_index] at h1
    obtain ⟨rfl, rfl⟩ := Prod.mk.inj (Except.ok.inj h1)
    have := h2 0 2 2 0 rfl rfl rfl
    omega
  · obtain ⟨a, h1, h2⟩ := (copies_same exHolesRun_copyable he).2.2.2.2.2 (ch! "D:o") (ch! "data.y")
      ⟨by decide, [ch! "data.y"], by decide, by decide⟩ Nat id
    rw [h2, ← h1]
    decide

end KD
