/- Property C107 for indexes with gaps: data of collections made by any history of selections and unions. -/
import Verif.Props.OrderGaps
import Verif.Props.History

namespace KD
open Spec

variable {V W : Type}

/-- C107 for indexes with gaps. Whatever was done, `get_array` works for a field which is still available, and gives for each train what
the original gives, or nothing, if in both the entries of selected trains which are next to each other follow each other; nothing only if
the train is not selected or the collection has no file with the source for it. -/
theorem derived_array_gaps {c d : DC V} {instr : Bool} {source key : Str} {roi : V → W} {a : LArr W} (hn : DifferentNames c)
    (hc : NoConflict c.files) (hv : FollowsIn c c.trainIds instr source key) (ha : c.getArray source key roi = .ok a)
    (h : Derived c d) (hvd : ∀ f ∈ d.files, Holds f source → FollowsOn f d.trainIds instr source key) (hav : Available d source key) :
    ∃ b, d.getArray source key roi = .ok b ∧ AllLabelled b ∧
      (∀ t ∈ d.trainIds, Covered d source t → labelled b t = labelled a t) ∧
      ∀ t, t ∉ d.trainIds ∨ ¬ Covered d source t → labelled b t = [] := by
  obtain ⟨i1, i2, -, i4⟩ := derived_parts hn hc h
  have hvd : FollowsIn d d.trainIds instr source key := fun f hf hh =>
    ⟨(hv f (i1 f hf) hh).1, (hv f (i1 f hf) hh).2.1, (hv f (i1 f hf) hh).2.2.1, hvd f hf hh⟩
  have hac := checkField_ok.1 (getArray_ok ha).1
  have hmis : ¬ Mismatch d instr source key := by
    rintro ⟨f, hf, g, hg, h1, h2, x, y, h3, h4, h5⟩
    have := (get_array_mismatch_gaps roi hc hv hac).1 ⟨f, i1 f hf, g, i1 g hg, h1, h2, x, y, h3, h4, h5⟩
    rw [ha] at this
    simp at this
  obtain ⟨b, hb, -⟩ := (get_array_mismatch_gaps roi i4 hvd hav).2 hmis
  obtain ⟨-, a1, a2⟩ := get_array_follows hc hv ha
  obtain ⟨b0, b1, b2⟩ := get_array_follows i4 hvd hb
  refine ⟨b, hb, b0, fun t ht hcov => ?_, fun t ht => ?_⟩
  · obtain ⟨f, hf, hh, htf⟩ := hcov
    rw [b1 t ht f hf hh htf, a1 t (i2 t ht) f (i1 f hf) hh htf]
  · rcases ht with ht | ht
    · exact b2 t (Or.inl ht)
    · exact b2 t (Or.inr (fun f hf hh htf => ht ⟨f, hf, hh, htf⟩))

end KD
