/- Helper lemmas for `contiguousRegions`. -/
import Verif.Model.ReadMachinery
import Verif.Lemmas.Basic
import Verif.Spec.Regions

namespace KD

open Spec

/-- Positions where the value differs from the one before (`p` before the start, `false` after the end). -/
def toggles : Bool → Nat → List Bool → List Nat
  | p, o, [] => if p then [o] else []
  | p, o, b :: l => if b != p then o :: toggles b (o + 1) l else toggles b (o + 1) l

/-- Maximal runs, scanning with the start of the run we are in. -/
def runs : Option Nat → Nat → List Bool → List (Nat × Nat)
  | none, _, [] => []
  | some a, o, [] => [(a, o)]
  | none, o, b :: l => if b then runs (some o) (o + 1) l else runs none (o + 1) l
  | some a, o, b :: l => if b then runs (some a) (o + 1) l else (a, o) :: runs none (o + 1) l

theorem reshape2_toggles (l : List Bool) : ∀ o,
    reshape2 (toggles false o l) = .ok (runs none o l) ∧
    ∀ a, reshape2 (a :: toggles true o l) = .ok (runs (some a) o l) := by
  induction l with
  | nil => intro o; simp [toggles, runs, reshape2]
  | cons b l ih =>
    intro o
    obtain ⟨h1, h2⟩ := ih (o + 1)
    cases b
    · simp [toggles, runs, h1, reshape2]
    · simp [toggles, runs, h2]

theorem zip_toggles (l : List Bool) : ∀ (c : Bool) (o : Nat),
    (nonzeroFrom o (List.zipWith (fun a b => a != b) (c :: l) l)).map (· + 1) ++
      (if (c :: l).getLast (by simp) then [o + 1 + l.length] else []) = toggles c (o + 1) l := by
  induction l with
  | nil => intro c o; cases c <;> simp [nonzeroFrom, toggles]
  | cons b l ih =>
    intro c o
    have := ih b (o + 1)
    simp only [List.zipWith_cons_cons, nonzeroFrom, toggles]
    rw [← this]
    have e : (c :: b :: l).getLast (by simp) = (b :: l).getLast (by simp) := by simp
    rw [e]
    cases hb : (c != b)
    · have : (b != c) = false := by cases c <;> cases b <;> simp_all
      simp only [Bool.false_eq_true, if_false, this, List.length_cons]
      congr 2; congr 1; omega
    · have : (b != c) = true := by cases c <;> cases b <;> simp_all
      simp only [if_true, this, List.length_cons, List.map_cons, List.cons_append]
      congr 3; congr 1; omega

theorem contiguousRegions_eq_runs (m : List Bool) (hm : m ≠ []) :
    contiguousRegions m = .ok (runs none 0 m) := by
  cases m with
  | nil => exact absurd rfl hm
  | cons c l =>
    have hz := zip_toggles l c 0
    have h2 := (reshape2_toggles (c :: l) 0).1
    rw [← h2]
    unfold contiguousRegions
    simp only [List.head?_cons, List.getLast?_eq_some_getLast (List.cons_ne_nil c l), List.tail_cons,
      List.length_cons]
    congr 1
    have ht : toggles false 0 (c :: l) = (if c then [0] else []) ++ toggles c 1 l := by
      cases c <;> simp [toggles]
    rw [ht, ← hz]
    unfold nonzero
    cases c <;> cases h3 : (_ :: l).getLast (by simp) <;> simp [Nat.add_comm]

theorem drop_cons {α : Type _} {m : List α} {o : Nat} {b : α} {l : List α} (h : m.drop o = b :: l) :
    m[o]? = some b ∧ m.drop (o + 1) = l ∧ o < m.length := by
  have h1 : o < m.length := by
    rcases Nat.lt_or_ge o m.length with h' | h'
    · exact h'
    · rw [List.drop_eq_nil_of_le h'] at h; simp at h
  rw [List.drop_eq_getElem_cons h1] at h
  simp only [List.cons.injEq] at h
  exact ⟨by rw [List.getElem?_eq_getElem h1, h.1], h.2, h1⟩

theorem mem_runs (m : List Bool) (l : List Bool) : ∀ o, o ≤ m.length → m.drop o = l →
    ((o = 0 ∨ m[o - 1]? = some false) → ∀ a b, (a, b) ∈ runs none o l ↔ IsMaximalRun m a b ∧ o ≤ a) ∧
    (∀ s, s < o → (s = 0 ∨ m[s - 1]? = some false) → (∀ i, s ≤ i → i < o → m[i]? = some true) →
      ∀ a b, (a, b) ∈ runs (some s) o l ↔ IsMaximalRun m a b ∧ s ≤ a) := by
  induction l with
  | nil =>
    intro o ho hl
    have hlen : o = m.length := by
      have : m.length - o = 0 := by simpa using congrArg List.length hl
      omega
    refine ⟨fun _ a b => ?_, fun s hs h0 hall a b => ?_⟩
    · simp only [runs, List.not_mem_nil, false_iff]
      rintro ⟨⟨h1, h2, -⟩, h3⟩; omega
    · simp only [runs, List.mem_singleton, Prod.mk.injEq]
      constructor
      · rintro ⟨rfl, rfl⟩
        exact ⟨⟨hs, ho, hall, h0, .inl hlen⟩, Nat.le_refl _⟩
      · rintro ⟨⟨h1, h2, h3, h4, h5⟩, h6⟩
        have ha : a = s := by
          by_contra hne
          rcases h4 with h4 | h4
          · omega
          · have := hall (a - 1) (by omega) (by omega); simp_all
        subst ha
        refine ⟨rfl, ?_⟩
        rcases h5 with h5 | h5
        · omega
        · by_contra hne
          have := hall b (by omega) (by omega); simp_all
  | cons v l ih =>
    intro o ho hl
    obtain ⟨hv, hl', hlt⟩ := drop_cons hl
    obtain ⟨ih1, ih2⟩ := ih (o + 1) hlt hl'
    refine ⟨fun h0 a b => ?_, fun s hs h0 hall a b => ?_⟩
    · cases v
      · simp only [runs, Bool.false_eq_true, if_false]
        rw [ih1 (.inr (by simpa using hv))]
        refine ⟨fun h => ⟨h.1, by omega⟩, fun h => ⟨h.1, ?_⟩⟩
        by_contra hne
        have : a = o := by omega
        subst this
        have := h.1.2.2.1 a (Nat.le_refl _) h.1.1
        simp_all
      · simp only [runs, if_true]
        exact ih2 o (by omega) h0 (fun i h1 h2 => by
          have : i = o := by omega
          subst this; exact hv) a b
    · cases v
      · simp only [runs, Bool.false_eq_true, if_false, List.mem_cons, Prod.mk.injEq]
        rw [ih1 (.inr (by simpa using hv))]
        constructor
        · rintro (⟨rfl, rfl⟩ | h)
          · exact ⟨⟨hs, ho, hall, h0, .inr hv⟩, Nat.le_refl _⟩
          · exact ⟨h.1, by omega⟩
        · rintro ⟨⟨h1, h2, h3, h4, h5⟩, h6⟩
          by_cases ha : a = s
          · subst ha
            left
            refine ⟨rfl, ?_⟩
            have hbo : b ≤ o := by
              by_contra hne
              have := h3 o (by omega) (by omega); simp_all
            rcases h5 with h5 | h5
            · omega
            · by_contra hne
              have := hall b (by omega) (by omega); simp_all
          · right
            refine ⟨⟨h1, h2, h3, h4, h5⟩, ?_⟩
            by_contra hne
            have h7 : a = o ∨ a < o := by omega
            rcases h7 with rfl | h7
            · have := h3 a (Nat.le_refl _) h1; simp_all
            · rcases h4 with h4 | h4
              · omega
              · have := hall (a - 1) (by omega) (by omega); simp_all
      · simp only [runs, if_true]
        exact ih2 s (by omega) h0 (fun i h1 h2 => by
          by_cases h : i < o
          · exact hall i h1 h
          · have : i = o := by omega
            subst this; exact hv) a b

theorem runs_bounds (l : List Bool) : ∀ o,
    (∀ r ∈ runs none o l, o ≤ r.1) ∧ (∀ s, s ≤ o → ∀ r ∈ runs (some s) o l, s ≤ r.1) := by
  induction l with
  | nil => intro o; simp [runs]
  | cons b l ih =>
    intro o
    obtain ⟨h1, h2⟩ := ih (o + 1)
    cases b
    · refine ⟨fun r hr => ?_, fun s hs r hr => ?_⟩
      · have := h1 r (by simpa [runs] using hr); omega
      · simp only [runs, Bool.false_eq_true, if_false, List.mem_cons] at hr
        rcases hr with rfl | hr
        · simp
        · have := h1 r hr; omega
    · refine ⟨fun r hr => ?_, fun s hs r hr => ?_⟩
      · have := h2 o (by omega) r (by simpa [runs] using hr); omega
      · exact h2 s (by omega) r (by simpa [runs] using hr)

theorem runs_pairwise (l : List Bool) : ∀ o,
    (runs none o l).Pairwise (fun r s => r.2 < s.1) ∧
    ∀ s, (runs (some s) o l).Pairwise (fun r s => r.2 < s.1) := by
  induction l with
  | nil => intro o; simp [runs]
  | cons b l ih =>
    intro o
    obtain ⟨h1, h2⟩ := ih (o + 1)
    cases b
    · refine ⟨by simpa [runs] using h1, fun s => ?_⟩
      simp only [runs, Bool.false_eq_true, if_false, List.pairwise_cons]
      exact ⟨fun r hr => (runs_bounds l (o + 1)).1 r hr, h1⟩
    · exact ⟨by simpa [runs] using h2 o, fun s => by simpa [runs] using h2 s⟩

end KD
