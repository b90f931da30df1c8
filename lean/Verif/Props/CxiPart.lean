/-
C119: what is in a CXI file whose writing was interrupted.
-/
import Verif.Props.CxiDisk

namespace KD

open Spec

variable {V : Type}

theorem runSteps_append : ∀ {as bs : List (CxiFile V → R (CxiFile V))} {x z : CxiFile V}, z ∈ (runSteps x (as ++ bs)).1 →
    z ∈ (runSteps x as).1 ∨ ∃ y, doAll x as = .ok y ∧ z ∈ (runSteps y bs).1
  | [], bs, x, z, h => Or.inr ⟨x, rfl, h⟩
  | a :: as, bs, x, z, h => by
    rw [List.cons_append, runSteps] at h
    rw [runSteps]
    unfold doAll
    rw [foldE]
    cases ha : a x with
    | error e => rw [ha] at h; exact Or.inl h
    | ok y =>
      rw [ha] at h
      simp only [List.mem_cons] at h ⊢
      rcases h with rfl | h
      · exact Or.inl (Or.inl rfl)
      · rcases runSteps_append h with h | h
        · exact Or.inl (Or.inr h)
        · exact Or.inr h

theorem runSteps_layouts {d : Det V} : ∀ {ps : List (Plan V)} {x z : CxiFile V}, z ∈ (runSteps x (ps.map (addLayout d))).1 →
    ∃ ls, z = { x with layouts := x.layouts ++ ls } ∧ ∀ l ∈ ls, ∃ p ∈ ps, d.realise p = .ok l
  | [], x, z, h => by
    rw [List.map_nil, runSteps] at h
    obtain rfl := List.mem_singleton.1 h
    exact ⟨[], by simp, by simp⟩
  | p :: ps, x, z, h => by
    rw [List.map_cons, runSteps] at h
    cases hp : d.realise p with
    | error e =>
      simp only [addLayout, hp, List.mem_singleton] at h
      exact ⟨[], by simp [h], by simp⟩
    | ok l =>
      simp only [addLayout, hp, List.mem_cons] at h
      rcases h with rfl | h
      · exact ⟨[], by simp, by simp⟩
      · obtain ⟨ls, rfl, h2⟩ := runSteps_layouts h
        refine ⟨l :: ls, by simp, ?_⟩
        intro m hm
        rcases List.mem_cons.1 hm with rfl | hm
        · exact ⟨p, by simp, hp⟩
        · obtain ⟨q, hq, hr⟩ := h2 m hm
          exact ⟨q, by simp [hq], hr⟩

/-- C119. The first thing which happens to the target is that it is emptied. -/
theorem cxi_emptied_first {s : CxiStore V} {d : Det V} {num : V → Nat} {moduleShape : List Nat} {name : Str} (ho : CanOpen s d name)
    {x : Cxi V} (hx : d.writeVirtualCxi num moduleShape = .ok x) :
    ∃ s' y, (s.writeCxi d num moduleShape name).1.head? = some s' ∧ s'.disk name = some (.cxi y) ∧ EmptyCxi y := by
  obtain ⟨ids, plans, y, h1, h2, h3, h4⟩ := written_iff.1 hx
  unfold CxiStore.writeCxi
  rw [h1]
  simp only [h2]
  rw [if_neg (canOpen_iff.1 ho)]
  simp only [List.head?_map, runSteps_ne, Option.map_some]
  exact ⟨_, CxiFile.blank, rfl, by simp [CxiStore.put], ⟨rfl, rfl, rfl, rfl, rfl, rfl, rfl⟩⟩

/-- C119. Wherever writing is interrupted, what is in the file is right. -/
theorem cxi_interrupted_datasets {s s' : CxiStore V} {d : Det V} {num : V → Nat} {moduleShape : List Nat} {name : Str} (ho : CanOpen s d name)
    {x : Cxi V} (hx : d.writeVirtualCxi num moduleShape = .ok x) (h : s' ∈ (s.writeCxi d num moduleShape name).1) :
    ∃ y, s'.disk name = some (.cxi y) ∧ PartCxi x y := by
  obtain ⟨ids, plans, w, h1, h2, h3, h4⟩ := written_iff.1 hx
  unfold CxiStore.writeCxi at h
  rw [h1] at h
  simp only [h2] at h
  rw [if_neg (canOpen_iff.1 ho)] at h
  obtain ⟨y, hy, rfl⟩ := List.mem_map.1 h
  refine ⟨y, by simp [CxiStore.put], ?_⟩
  obtain ⟨ls1, ls2, p, rest, dg, k1, k2, hpl, hdg, rfl⟩ := doAll_actions.1 h3
  obtain ⟨-, e1, e2, e3, e4, e5, e6⟩ := h4
  have e1 := Option.some.inj e1
  have e2 := Option.some.inj e2
  have e3 := Option.some.inj e3
  have e6 := Option.some.inj e6
  simp only at e4 e5
  have hcell : ∀ q ∈ cellPlans plans, ∀ l, d.realise q = .ok l → l ∈ x.layouts := fun q hq l hl =>
    e5.subset (List.mem_append.2 (.inl ((mapE_mem k1).2 ⟨q, hq, hl⟩)))
  have himg : ∀ q ∈ imagePlans plans, ∀ l, d.realise q = .ok l → l ∈ x.layouts := fun q hq l hl =>
    e5.subset (List.mem_append.2 (.inr ((mapE_mem k2).2 ⟨q, hq, hl⟩)))
  have hls1 : ∀ l ∈ ls1, l ∈ x.layouts := fun l hl => e5.subset (List.mem_append.2 (.inl hl))
  have hls2 : ∀ l ∈ ls2, l ∈ x.layouts := fun l hl => e5.subset (List.mem_append.2 (.inr hl))
  have part : ∀ (g : Option (List Str)) (L : List (Layout V)) (m : Option (List Nat)),
      (g = none ∨ ∃ l, dg = some l ∧ (g = some (l.map (fun _ => [])) ∨ g = some l)) → (∀ l ∈ L, l ∈ x.layouts) →
      (m = none ∨ m = some x.modules) → PartCxi x ⟨true, some (List.zipWith (fun t p => natStr t ++ ch! ":" ++ natStr p) d.tidsPerFrame ids),
        some ids, some d.tidsPerFrame, g, L, m⟩ := by
    intro g L m hg hL hm
    exact ⟨fun h => by simp at h, .inr (.inr (by rw [← e1])), .inr (by rw [← e2]), .inr (by rw [← e3]), by rw [← e4]; exact hg, hL,
      fun _ => ⟨by rw [← e1], by rw [← e2], by rw [← e3]⟩, hm⟩
  have hgain : (dg = none ∨ ∃ l, dg = some l ∧ (dg = some (l.map (fun _ => [])) ∨ dg = some l)) := by
    cases dg with
    | none => exact .inl rfl
    | some l => exact .inr ⟨l, rfl, .inr rfl⟩
  have mid : ∀ z1 z2 z3 : CxiFile V, z1 = ⟨true, some (List.zipWith (fun t p => natStr t ++ ch! ":" ++ natStr p) d.tidsPerFrame ids),
        some ids, some d.tidsPerFrame, none, [], none⟩ → doAll z1 ((cellPlans plans).map (addLayout d)) = .ok z2 →
      doAll z2 [makeDataGain plans, fillDataGain plans] = .ok z3 →
      z3 = ⟨true, some (List.zipWith (fun t p => natStr t ++ ch! ":" ++ natStr p) d.tidsPerFrame ids),
        some ids, some d.tidsPerFrame, dg, ls1, none⟩ := by
    rintro z1 z2 z3 rfl hz2 hz3
    obtain ⟨ls, j1, rfl⟩ := doAll_layouts.1 hz2
    rw [k1] at j1
    obtain rfl := Except.ok.inj j1
    subst hpl
    simp only [doAll, foldE, makeDataGain, fillDataGain, hdg] at hz3
    cases dg with
    | none =>
      simp only at hz3
      obtain rfl := Except.ok.inj hz3
      rfl
    | some l =>
      simp only at hz3
      obtain rfl := Except.ok.inj hz3
      rfl
  unfold Det.cxiActions at hy
  rcases runSteps_append hy with hy | ⟨z4, hz4, hy⟩
  · rcases runSteps_append hy with hy | ⟨z3, hz3, hy⟩
    · rcases runSteps_append hy with hy | ⟨z2, hz2, hy⟩
      · rcases runSteps_append hy with hy | ⟨z1, hz1, hy⟩
        · simp only [runSteps, List.mem_cons, List.not_mem_nil, or_false] at hy
          rcases hy with rfl | rfl | rfl | rfl | rfl | rfl <;>
            (refine ⟨?_, ?_, ?_, ?_, ?_, ?_, ?_, ?_⟩ <;> simp [CxiFile.blank, ← e1, ← e2, ← e3])
          exact ⟨rfl, rfl, rfl, rfl, rfl, rfl, rfl⟩
        · obtain rfl := Except.ok.inj hz1
          obtain ⟨ls, rfl, hl⟩ := runSteps_layouts hy
          exact part none _ none (.inl rfl) (fun l h => by
            obtain ⟨q, hq, hr⟩ := hl l (by simpa [CxiFile.blank] using h)
            exact hcell q hq l hr) (.inl rfl)
      · rw [doAll_append] at hz2
        obtain ⟨z1, hz1, hz2⟩ := hz2
        obtain rfl := Except.ok.inj hz1
        obtain ⟨ls, j1, rfl⟩ := doAll_layouts.1 hz2
        rw [k1] at j1
        obtain rfl := Except.ok.inj j1
        subst hpl
        simp only [runSteps, makeDataGain, fillDataGain, hdg] at hy
        have hL : ∀ l ∈ [] ++ ls1, l ∈ x.layouts := by simpa using hls1
        cases dg with
        | none =>
          simp only [List.mem_cons, List.not_mem_nil, or_false, or_self] at hy
          subst hy
          exact part none _ none (.inl rfl) hL (.inl rfl)
        | some l =>
          simp only [List.mem_cons, List.not_mem_nil, or_false] at hy
          rcases hy with rfl | rfl | rfl
          · exact part none _ none (.inl rfl) hL (.inl rfl)
          · exact part _ _ none (.inr ⟨l, rfl, .inl rfl⟩) hL (.inl rfl)
          · exact part _ _ none (.inr ⟨l, rfl, .inr rfl⟩) hL (.inl rfl)
    · rw [doAll_append] at hz3
      obtain ⟨z2, hz2, hz3⟩ := hz3
      rw [doAll_append] at hz2
      obtain ⟨z1, hz1, hz2⟩ := hz2
      obtain rfl := mid z1 z2 z3 (Except.ok.inj hz1).symm hz2 hz3
      obtain ⟨ls, rfl, hl⟩ := runSteps_layouts hy
      refine part dg _ none hgain (fun l h => ?_) (.inl rfl)
      rcases List.mem_append.1 h with h | h
      · exact hls1 l h
      · obtain ⟨q, hq, hr⟩ := hl l h
        exact himg q hq l hr
  · rw [doAll_append] at hz4
    obtain ⟨z3, hz3, hz4⟩ := hz4
    rw [doAll_append] at hz3
    obtain ⟨z2, hz2, hz3⟩ := hz3
    rw [doAll_append] at hz2
    obtain ⟨z1, hz1, hz2⟩ := hz2
    obtain rfl := mid z1 z2 z3 (Except.ok.inj hz1).symm hz2 hz3
    obtain ⟨ls, j2, rfl⟩ := doAll_layouts.1 hz4
    rw [k2] at j2
    obtain rfl := Except.ok.inj j2
    have hL : ∀ l ∈ ls1 ++ ls2, l ∈ x.layouts := fun l h => (List.mem_append.1 h).elim (hls1 l) (hls2 l)
    simp only [runSteps, List.mem_cons, List.not_mem_nil, or_false] at hy
    rcases hy with rfl | rfl
    · exact part dg _ none hgain hL (.inl rfl)
    · exact part dg _ _ hgain hL (.inr (by rw [← e6]))

/-- A case: writing over an old file, with eleven points at which it can be interrupted. At each of them what is in the file is right. -/
example : ∃ x, exDet.writeVirtualCxi id [2, 2] = .ok x ∧
    ((exCxiStore exDetData.files).writeCxi exDet id [2, 2] (ch! "old.cxi")).1.length = 11 ∧
    ∀ s' ∈ ((exCxiStore exDetData.files).writeCxi exDet id [2, 2] (ch! "old.cxi")).1,
      ∃ y, s'.disk (ch! "old.cxi") = some (.cxi y) ∧ PartCxi x y := by
  have ho : CanOpen (exCxiStore exDetData.files) exDet (ch! "old.cxi") := by rw [canOpen_iff]; decide
  have hw : ((exCxiStore exDetData.files).writeCxi exDet id [2, 2] (ch! "old.cxi")).2 = .ok () := by decide +kernel
  obtain ⟨-, x, hx⟩ := cxi_complete.1.1 hw
  exact ⟨x, hx, by decide +kernel, fun s' h => cxi_interrupted_datasets ho hx h⟩

end KD
