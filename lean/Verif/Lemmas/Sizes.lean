/- Joining of array shapes. -/
import Verif.Model.Components

namespace KD

theorem sizesAgree_iff : ∀ {s t : List Nat}, sizesAgree s t = true ↔ s <+: t ∨ t <+: s := by
  intro s
  induction s with
  | nil => intro t; simp [sizesAgree]
  | cons a s ih =>
    intro t
    cases t with
    | nil => simp [sizesAgree]
    | cons b t =>
      simp only [sizesAgree, Bool.and_eq_true, decide_eq_true_eq, ih, List.cons_prefix_cons]
      constructor
      · rintro ⟨rfl, h | h⟩
        · exact Or.inl ⟨rfl, h⟩
        · exact Or.inr ⟨rfl, h⟩
      · rintro (⟨rfl, h⟩ | ⟨rfl, h⟩)
        · exact ⟨rfl, Or.inl h⟩
        · exact ⟨rfl, Or.inr h⟩

theorem joinSizes_ok : ∀ {l : List (List Nat)} {t : List Nat}, joinSizes l = .ok t → (∀ s ∈ l, s <+: t) ∧ (l ≠ [] → t ∈ l) := by
  intro l
  induction l with
  | nil => intro t _; simp
  | cons s l ih =>
    intro t h
    unfold joinSizes at h
    split at h
    · simp at h
    · next u hu =>
      obtain ⟨i1, i2⟩ := ih hu
      split at h
      · next ha =>
        have h := Except.ok.inj h
        rw [sizesAgree_iff] at ha
        by_cases hl : s.length < u.length
        · rw [if_pos hl] at h
          subst h
          have hs : s <+: u := by
            rcases ha with ha | ha
            · exact ha
            · have := ha.length_le; omega
          refine ⟨fun r hr => ?_, fun _ => ?_⟩
          · rcases List.mem_cons.1 hr with rfl | hr
            · exact hs
            · exact i1 r hr
          · have : l ≠ [] := by
              rintro rfl
              simp only [joinSizes, Except.ok.injEq] at hu
              subst hu
              simp at hl
            exact List.mem_cons_of_mem _ (i2 this)
        · rw [if_neg hl] at h
          subst h
          have hs : u <+: s := by
            rcases ha with ha | ha
            · rw [ha.eq_of_length_le (by omega)]; exact List.prefix_refl _
            · exact ha
          refine ⟨fun r hr => ?_, fun _ => by simp⟩
          rcases List.mem_cons.1 hr with rfl | hr
          · exact List.prefix_refl _
          · exact (i1 r hr).trans hs
      · simp at h

theorem joinSizes_exists : ∀ {l : List (List Nat)} {u : List Nat}, (∀ s ∈ l, s <+: u) → ∃ t, joinSizes l = .ok t ∧ t <+: u := by
  intro l
  induction l with
  | nil => intro u _; exact ⟨[], rfl, List.nil_prefix⟩
  | cons s l ih =>
    intro u h
    obtain ⟨t, ht, htu⟩ := ih (fun r hr => h r (by simp [hr]))
    have hs := h s (by simp)
    unfold joinSizes
    rw [ht]
    simp only
    rw [if_pos (sizesAgree_iff.2 (List.prefix_or_prefix_of_prefix hs htu))]
    refine ⟨_, rfl, ?_⟩
    split <;> assumption

theorem joinSizes_same {l : List (List Nat)} {s : List Nat} (h : ∀ a ∈ l, a = s) (hne : l ≠ []) : joinSizes l = .ok s := by
  obtain ⟨t, ht, -⟩ := joinSizes_exists (l := l) (u := s) (fun a ha => by rw [h a ha]; exact List.prefix_refl _)
  rw [ht, h t ((joinSizes_ok ht).2 hne)]

theorem joinImageSizes_ok {l : List (List Nat)} {t : List Nat} (h : joinImageSizes l = .ok t) :
    (∀ s ∈ l, s <:+ t) ∧ (l ≠ [] → t ∈ l) := by
  unfold joinImageSizes at h
  split at h
  · simp at h
  · next u hu =>
    obtain rfl := Except.ok.inj h
    obtain ⟨h1, h2⟩ := joinSizes_ok hu
    refine ⟨fun s hs => ?_, fun hne => ?_⟩
    · have := h1 s.reverse (List.mem_map.2 ⟨s, hs, rfl⟩)
      rw [← List.reverse_prefix, List.reverse_reverse]
      exact this
    · obtain ⟨s, hs, rfl⟩ := List.mem_map.1 (h2 (by simpa using hne))
      rwa [List.reverse_reverse]

theorem joinImageSizes_exists {l : List (List Nat)} {u : List Nat} (h : ∀ s ∈ l, s <:+ u) : ∃ t, joinImageSizes l = .ok t := by
  obtain ⟨t, ht, -⟩ := joinSizes_exists (l := l.map List.reverse) (u := u.reverse) (by
    intro s hs
    obtain ⟨r, hr, rfl⟩ := List.mem_map.1 hs
    rw [List.reverse_prefix]
    exact h r hr)
  unfold joinImageSizes
  rw [ht]
  exact ⟨_, rfl⟩

theorem joinImageSizes_same {l : List (List Nat)} {s : List Nat} (h : ∀ a ∈ l, a = s) (hne : l ≠ []) : joinImageSizes l = .ok s := by
  obtain ⟨t, ht⟩ := joinImageSizes_exists (l := l) (u := s) (fun a ha => by rw [h a ha]; exact List.suffix_refl _)
  rw [ht, h t ((joinImageSizes_ok ht).2 hne)]

end KD
