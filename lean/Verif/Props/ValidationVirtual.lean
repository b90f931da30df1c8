/- Property C40 for virtual files: files written by `write_virtual` pass validation. -/
import Verif.Props.Validation

namespace KD
open Spec

variable {V : Type}

/-- A file with increasing trains whose instrument fields are valid and start at 0 passes validation. -/
theorem good_file_valid {f : FileAccess V} (ht : f.file.trainId = some f.trainIds) (hnz : 0 ∉ f.trainIds)
    (hinc : f.trainIds.Pairwise (· < ·))
    (hkeys : ∀ s ∈ f.instrumentSources, ∃ ks, f.getKeys s = .ok ks ∧ ks ≠ [] ∧
      ∀ k ∈ ks, ValidField f true s k ∧ StartsAtZero f true s k)
    (hsize : ∀ p ∈ f.file.datasets, p.2.rows.length < 2 ^ 53) : f.runChecks = .ok [] := by
  obtain ⟨qs, t1, t2, -⟩ := train_id_check_exact ht
  have hq : qs = [] := t2.2 ⟨⟨f.trainIds, 0, by simp, hnz⟩, hinc.filter _⟩
  subst hq
  have hci : f.checkIndices = .ok [] := by
    by_cases hne : f.trainIds = []
    · have : f.instrumentSources = [] := by
        rw [List.eq_nil_iff_forall_not_mem]
        intro s hs
        obtain ⟨ks, -, h2, h3⟩ := hkeys s hs
        obtain ⟨k, hk⟩ := List.exists_mem_of_ne_nil ks h2
        exact (h3 k hk).1.someTrain hne
      unfold FileAccess.checkIndices
      rw [this]; rfl
    · have hparts : ∀ s ∈ f.instrumentSources, ∀ keys, f.getKeys s = .ok keys → ∀ k ∈ keys,
          ∃ firsts counts size, FieldParts f s k firsts counts size ∧
          firsts.length = f.trainIds.length ∧ counts.length = f.trainIds.length ∧ size < 2 ^ 53 ∧
          GoodIndex firsts counts size := by
        intro s hs keys hk k hkey
        obtain ⟨ks, k1, -, k3⟩ := hkeys s hs
        rw [hk] at k1
        obtain rfl := Except.ok.inj k1
        obtain ⟨hv, hz⟩ := k3 k hkey
        obtain ⟨firsts, counts, ds, d1, d2, d3, d4, d5, d6⟩ := hv.data
        obtain ⟨firsts', counts', z1, z2⟩ := hz
        rw [d1] at z1
        obtain ⟨rfl, rfl⟩ := Prod.mk.inj (Except.ok.inj z1)
        refine ⟨firsts, counts, _, ⟨d1, ds, d2, rfl⟩, d3, d4, ?_, ⟨z2, d5, d6⟩⟩
        unfold FileAccess.dataset need at d2
        split at d2
        next a ha =>
          obtain rfl := Except.ok.inj d2
          exact hsize _ (Dict.mem_of_get? ha)
        · simp at d2
      have huniq : ∀ {s k firsts counts size firsts' counts' size'}, FieldParts f s k firsts counts size →
          FieldParts f s k firsts' counts' size' → firsts' = firsts ∧ counts' = counts ∧ size' = size := by
        rintro s k firsts counts size firsts' counts' size' ⟨e1, ds, e2, e3⟩ ⟨e1', ds', e2', e3'⟩
        rw [e1] at e1'; rw [e2] at e2'
        obtain ⟨rfl, rfl⟩ := Prod.mk.inj (Except.ok.inj e1')
        obtain rfl := Except.ok.inj e2'
        exact ⟨rfl, rfl, e3'.symm.trans e3⟩
      obtain ⟨ps, c1, c2⟩ := index_validation_partial (f := f) (fun s hs => by
        obtain ⟨ks, g1, -, -⟩ := hkeys s hs
        refine ⟨ks, g1, fun k hk => ?_⟩
        obtain ⟨a, b, d, e1, e2, e3, -⟩ := hparts s hs ks g1 k hk
        exact ⟨a, b, d, e1, e2, e3⟩) hne (fun s hs keys hk k hkey firsts counts size hp => by
        obtain ⟨a, b, d, e1, e2, e3, e4, e5⟩ := hparts s hs keys hk k hkey
        obtain ⟨rfl, rfl, rfl⟩ := huniq e1 hp
        refine ⟨e4, fun i a n ha hn => ?_⟩
        have := e5.inBounds i a n ha hn
        omega)
      have : ps = [] := c2.2 (fun s hs keys hk k hkey firsts counts size hp => by
        obtain ⟨a, b, d, e1, e2, e3, e4, e5⟩ := hparts s hs keys hk k hkey
        obtain ⟨rfl, rfl, rfl⟩ := huniq e1 hp
        exact e5)
      rw [c1, this]
  unfold FileAccess.runChecks
  rw [hci]
  simp only
  rw [t1]
  rfl

/-- C40. Files written by `write_virtual`, from files whose datasets agree on types and shapes, pass validation too. -/
theorem virtual_file_valid {c : DC V} {h : H5File V} (name : Str) (hw : Writable c)
    (hm : ∀ b s k, HasField c b s k → ¬ Mismatch c b s k) (hwr : c.writeVirtual = .ok h)
    (hsize : ∀ p ∈ h.datasets, p.2.rows.length < 2 ^ 53) :
    ∃ f, FileAccess.init name h none = .ok f ∧ f.runChecks = .ok [] ∧ f.validate = .ok none := by
  obtain ⟨f, h1, h2, h3, h4, h5, h6⟩ := virtual_read_partial name hw hm hwr
    (fun p hp => by have := hsize p hp; omega)
  have hf : f.file = h := by
    unfold FileAccess.init at h1
    simp only at h1
    split at h1
    · simp at h1
    split at h1
    · simp at h1
    obtain rfl := Except.ok.inj h1
    rfl
  have htid : h.trainId = some c.trainIds := by
    obtain ⟨Fs, w, -, -, hfin⟩ := writeVirtual_ok hwr
    unfold WState.finish at hfin
    split at hfin
    · simp at hfin
    · obtain rfl := Except.ok.inj hfin; rfl
  have hrun : f.runChecks = .ok [] := by
    refine good_file_valid (by rw [hf, h2]; exact htid) (by rw [h2]; exact hw.nonzero) (by rw [h2]; exact hw.trains) ?_
      (by rw [hf]; exact hsize)
    intro s hs
    obtain ⟨k0, hF, hD⟩ := (h4 s).1 hs
    obtain ⟨ks, g1, -, g3⟩ := h5 true s k0 hF hD
    refine ⟨ks, g1, List.ne_nil_of_mem ((g3 k0).2 ⟨hF, hD⟩), fun k hk => ?_⟩
    obtain ⟨hF', hD'⟩ := (g3 k).1 hk
    obtain ⟨a, b, -, -⟩ := h6 true s k hF' hD'
    exact ⟨a, b⟩
  refine ⟨f, h1, hrun, ?_⟩
  unfold FileAccess.validate
  rw [hrun]

example : (match exWrite.writeVirtual with
    | .ok h => (match FileAccess.init (ch! "v.h5") h none with | .ok f => f.validate | .error e => .error e)
    | .error e => .error e) = .ok none := by decide

end KD
