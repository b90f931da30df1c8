/- C29: for which keys there is something when iterating over trains. -/
import Verif.Props.Iterate
import Verif.Spec.History

namespace KD

open KD.Spec

variable {V : Type}

theorem pureKey_some {c : DC V} {entry : FileAccess V × Nat × Dataset V → Str → R (Entry V)} {s k : Str} {t : Nat}
    {o : Option (Str × Entry V)} (h : pureKey c entry s t k = .ok o) :
    (Covered c s t → ∃ e, o = some (k, e)) ∧ (¬ Covered c s t → o = none) := by
  unfold pureKey pureFind at h
  cases hf : c.findData s t with
  | none =>
    rw [hf] at h
    simp only [Except.ok.injEq] at h
    exact ⟨fun hc => absurd hc (findData_none.1 hf), fun _ => h.symm⟩
  | some fp =>
    obtain ⟨f, pos⟩ := fp
    rw [hf] at h
    obtain ⟨h1, h2, h3, -⟩ := findData_some hf
    refine ⟨fun _ => ?_, fun hn => absurd ⟨f, h1, h2, List.mem_of_getElem? h3⟩ hn⟩
    cases hds : f.dataset (iterSection c s) s k with
    | error e => simp [hds] at h
    | ok ds =>
      simp only [hds] at h
      cases he : entry (f, pos, ds) k with
      | error e => simp [he] at h
      | ok v =>
        simp only [he, Except.ok.injEq] at h
        exact ⟨v, h.symm⟩

theorem pureSource_keys {c : DC V} {entry : Str → FileAccess V × Nat × Dataset V → Str → R (Entry V)} {t : Nat} {s s' : Str}
    {sd : SourceData V} (hs : s ∈ c.allSources) (h : pureSource c entry t s = .ok (s', sd)) (k : Str) :
    sd.data.get? k ≠ none ↔ Available c s k ∧ Covered c s t := by
  unfold pureSource at h
  split at h
  · simp at h
  · next ks hks =>
    split at h
    · simp at h
    · next items hit =>
      rw [Except.ok.injEq, Prod.mk.injEq] at h
      obtain ⟨rfl, rfl⟩ := h
      rw [← available_keys hs hks]
      show Dict.get? (items.filterMap id) k ≠ none ↔ _
      rw [ne_eq, Dict.get?_none_iff, not_not]
      simp only [Dict.keys, List.mem_map, List.mem_filterMap, id_eq]
      constructor
      · rintro ⟨⟨k', e⟩, ⟨o, ho, rfl⟩, rfl⟩
        obtain ⟨k'', hk, hp⟩ := (mapE_mem hit).1 ho
        by_cases hcov : Covered c s t
        · obtain ⟨e', he'⟩ := (pureKey_some hp).1 hcov
          obtain ⟨rfl, -⟩ := Prod.mk.inj (Option.some.inj he')
          exact ⟨hk, hcov⟩
        · have := (pureKey_some hp).2 hcov
          simp at this
      · rintro ⟨hk, hcov⟩
        obtain ⟨o, ho, hp⟩ := mapE_ok_all hit hk
        obtain ⟨e, rfl⟩ := (pureKey_some hp).1 hcov
        exact ⟨(k, e), ⟨_, ho, rfl⟩, rfl⟩

/-- C29. When iterating, there is something for a source and key (perhaps an empty array) exactly if the key is selected and a file has
the source and the train. -/
theorem trains_shows {c : DC V} (hc : NoConflict c.files) {req : Bool} {l : List (Nat × Dict Str (SourceData V))}
    (h : c.trains none none req = .ok l) {t : Nat} {d : Dict Str (SourceData V)} (hm : (t, d) ∈ l) (s k : Str) :
    shownAt d s k ≠ none ↔ Available c s k ∧ Covered c s t := by
  rw [trains_pure hc] at h
  cases hs : mapE (pureStep c req) c.trainIds with
  | error e => simp [hs, Except.map] at h
  | ok items =>
    simp only [hs, Except.map, Except.ok.injEq] at h
    subst h
    obtain ⟨x, hx, hxe⟩ := List.mem_filterMap.1 hm
    obtain rfl : x = some (t, d) := hxe
    obtain ⟨t', -, hst⟩ := (mapE_mem hs).1 hx
    have hd : pureAssemble c t = .ok d := by
      unfold pureStep at hst
      split at hst
      · simp at hst
      · simp at hst
      · split at hst
        · simp at hst
        · next d0 hd =>
          simp at hst
          obtain ⟨rfl, rfl⟩ := hst
          exact hd
    unfold pureAssemble at hd
    split at hd
    · simp at hd
    · next ctrl hctrl =>
      split at hd
      · simp at hd
      · next inst hinst =>
        simp only [Except.ok.injEq] at hd
        subst hd
        have hfst : ∀ (entry : Str → FileAccess V × Nat × Dataset V → Str → R (Entry V)) a v, pureSource c entry t a = .ok v → v.1 = a := by
          intro entry a v hv
          unfold pureSource at hv
          split at hv
          · simp at hv
          · split at hv
            · simp at hv
            · simp at hv; subst hv; rfl
        obtain ⟨k1, k2⟩ := mapE_keyed (hfst _) hinst
        obtain ⟨k3, k4⟩ := mapE_keyed (hfst _) hctrl
        have nd1 : (ctrl.map Prod.fst).Nodup := by rw [k3]; exact List.nodup_dedup _
        have nd2 : (inst.map Prod.fst).Nodup := by rw [k1]; exact List.nodup_dedup _
        have hall : s ∈ c.allSources ↔ s ∈ c.controlSources ∨ s ∈ c.instrumentSources := by unfold DC.allSources; simp
        unfold shownAt
        by_cases hi : s ∈ c.instrumentSources
        · obtain ⟨w, hw, hm'⟩ := k2 s hi
          rw [Dict.get?_update_mem nd2 hm']
          exact pureSource_keys (hall.2 (.inr hi)) hw k
        · rw [Dict.get?_update_notMem (by rw [k1]; exact hi)]
          by_cases hcs : s ∈ c.controlSources
          · obtain ⟨w, hw, hm'⟩ := k4 s hcs
            rw [Dict.get?_update_mem nd1 hm']
            exact pureSource_keys (hall.2 (.inl hcs)) hw k
          · rw [Dict.get?_update_notMem (by rw [k3]; exact hcs)]
            simp only [Dict.get?_nil, ne_eq, not_true, false_iff]
            rintro ⟨hav, -⟩
            rcases hall.1 hav.1 with h1 | h1
            · exact hcs h1
            · exact hi h1

end KD
