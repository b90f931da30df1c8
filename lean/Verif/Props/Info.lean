/- Property C87: what `info`, `train_info` and `detector_info` report. -/
import Verif.Props.OneTrain
import Verif.Spec.Detector

set_option linter.unusedSimpArgs false

namespace KD
open Spec

variable {V W : Type}

theorem takeWhile_digits {n rest : Str} (h : ∀ c ∈ n, c.isDigit = true) :
    (n ++ 'C' :: rest).takeWhile Char.isDigit = n := by
  induction n with
  | nil => simp
  | cons x n ih =>
    simp only [List.cons_append, List.takeWhile_cons, h x (by simp), if_true]
    rw [ih (fun c hc => h c (by simp [hc]))]

theorem mem_takeWhile_prop {p : Char → Bool} {l : Str} {c : Char} (h : c ∈ l.takeWhile p) : p c = true := by
  have := List.all_takeWhile (p := p) (l := l)
  exact List.all_eq_true.1 this c h

theorem dropWhile_eq_drop (p : Char → Bool) (l : Str) : l.dropWhile p = l.drop (l.takeWhile p).length := by
  induction l with
  | nil => rfl
  | cons x l ih =>
    by_cases h : p x = true
    · simp [List.dropWhile_cons, List.takeWhile_cons, h, ih]
    · simp [List.dropWhile_cons, List.takeWhile_cons, h]

theorem detHere_iff (s : Str) :
    (startsWith s (ch! "/DET/") = true ∧ (s.drop 5).takeWhile Char.isDigit ≠ [] ∧
      startsWith ((s.drop 5).drop ((s.drop 5).takeWhile Char.isDigit).length) (ch! "CH") = true) ↔
    DetHere s ((s.drop 5).takeWhile Char.isDigit) := by
  unfold startsWith DetHere
  constructor
  · rintro ⟨h1, h2, h3⟩
    obtain ⟨r, rfl⟩ := List.isPrefixOf_iff_prefix.1 h1
    obtain ⟨t, ht⟩ := List.isPrefixOf_iff_prefix.1 h3
    refine ⟨h2, fun c hc => mem_takeWhile_prop hc, t, ?_⟩
    have e : ((ch! "/DET/") ++ r).drop 5 = r := by simp
    rw [e] at ht ⊢
    have : r = r.takeWhile Char.isDigit ++ r.drop (r.takeWhile Char.isDigit).length := by
      rw [← dropWhile_eq_drop, List.takeWhile_append_dropWhile]
    conv_lhs => rw [this, ← ht]
    simp
  · rintro ⟨h1, h2, t, ht⟩
    generalize hn : (s.drop 5).takeWhile Char.isDigit = n at h1 h2 ht
    refine ⟨?_, h1, ?_⟩
    · rw [ht]; exact List.isPrefixOf_iff_prefix.2 ⟨n ++ ch! "CH" ++ t, by simp⟩
    · rw [ht]; exact List.isPrefixOf_iff_prefix.2 ⟨t, by simp⟩

theorem detHere_unique {s n : Str} (h : DetHere s n) : n = (s.drop 5).takeWhile Char.isDigit := by
  obtain ⟨-, h2, t, rfl⟩ := h
  have : ((ch! "/DET/") ++ n ++ (ch! "CH") ++ t).drop 5 = n ++ 'C' :: 'H' :: t := by simp
  rw [this, takeWhile_digits h2]

theorem splitAtDet_spec (rest : Str) : ∀ before,
    (∀ d n, splitAtDet before rest = some (d, n) → ∃ a b, rest = a ++ b ∧ d = before ++ a ∧ d ≠ [] ∧ DetHere b n ∧
      ∀ a' b' n', rest = a' ++ b' → before ++ a' ≠ [] → DetHere b' n' → a'.length ≤ a.length) ∧
    (splitAtDet before rest = none → ∀ a b n, rest = a ++ b → before ++ a ≠ [] → ¬ DetHere b n) := by
  induction rest with
  | nil =>
    intro before
    refine ⟨fun d n h => by simp [splitAtDet] at h, fun _ a b n hab _ hd => ?_⟩
    obtain ⟨-, -, t, ht⟩ := hd
    have : b = [] := by
      have := hab.symm
      simp at this
      exact this.2
    rw [this] at ht
    simp at ht
  | cons c rest ih =>
    intro before
    obtain ⟨i1, i2⟩ := ih (before ++ [c])
    unfold splitAtDet
    cases hr : splitAtDet (before ++ [c]) rest with
    | some r =>
      simp only
      refine ⟨fun d n h => ?_, fun h => by simp at h⟩
      obtain ⟨a, b, h1, h2, h3, h4, h5⟩ := i1 d n (by rw [hr]; exact h)
      refine ⟨c :: a, b, by simp [h1], by simp [h2], h3, h4, fun a' b' n' h6 h7 h8 => ?_⟩
      cases a' with
      | nil => simp
      | cons x a' =>
        simp only [List.cons_append, List.cons.injEq] at h6
        have := h5 a' b' n' h6.2 (by simp) h8
        simp; omega
    | none =>
      have i2 := i2 hr
      have hrest : ∀ a b n, c :: rest = a ++ b → before ++ a ≠ [] → DetHere b n → a = [] := by
        intro a b n hab hne hd
        cases a with
        | nil => rfl
        | cons x a =>
          simp only [List.cons_append, List.cons.injEq] at hab
          exact absurd hd (i2 a b n hab.2 (by simp))
      simp only
      have hcond := detHere_iff (c :: rest)
      by_cases hb : before ≠ [] ∧ startsWith (c :: rest) (ch! "/DET/")
      · rw [if_pos hb]
        by_cases hd : ((c :: rest).drop 5).takeWhile Char.isDigit ≠ [] ∧
            startsWith (((c :: rest).drop 5).drop (((c :: rest).drop 5).takeWhile Char.isDigit).length) (ch! "CH")
        · rw [if_pos hd]
          have hdet := hcond.1 ⟨hb.2, hd⟩
          refine ⟨fun d n h => ?_, fun h => by simp at h⟩
          simp only [Option.some.injEq, Prod.mk.injEq] at h
          obtain ⟨rfl, rfl⟩ := h
          refine ⟨[], c :: rest, rfl, by simp, hb.1, hdet, fun a' b' n' h6 h7 h8 => ?_⟩
          rw [hrest a' b' n' h6 h7 h8]
        · rw [if_neg hd]
          refine ⟨fun d n h => by simp at h, fun _ a b n hab hne hdet => ?_⟩
          obtain rfl := hrest a b n hab hne hdet
          simp only [List.nil_append] at hab
          subst hab
          rw [detHere_unique hdet] at hdet
          exact hd (hcond.2 hdet).2
      · rw [if_neg hb]
        refine ⟨fun d n h => by simp at h, fun _ a b n hab hne hdet => ?_⟩
        obtain rfl := hrest a b n hab hne hdet
        simp only [List.nil_append] at hab
        subst hab
        rw [detHere_unique hdet] at hdet
        exact hb ⟨by simpa using hne, (hcond.2 hdet).1⟩

/-- The match of a detector name: everything before the last `/DET/<digits>CH`, and the digits. -/
theorem detector_match (s : Str) :
    (detectorMatch s = none ↔ ¬ DetectorName s) ∧
    ∀ d n, detectorMatch s = some (d, n) ↔ d ≠ [] ∧ (∃ r, s = d ++ r ∧ DetHere r n) ∧
      ∀ d' n' r', s = d' ++ r' → d' ≠ [] → DetHere r' n' → d'.length ≤ d.length := by
  obtain ⟨h1, h2⟩ := splitAtDet_spec s []
  have hsome : ∀ d n, detectorMatch s = some (d, n) → d ≠ [] ∧ (∃ r, s = d ++ r ∧ DetHere r n) ∧
      ∀ d' n' r', s = d' ++ r' → d' ≠ [] → DetHere r' n' → d'.length ≤ d.length := by
    intro d n h
    obtain ⟨a, b, g1, g2, g3, g4, g5⟩ := h1 d n h
    simp only [List.nil_append] at g2
    subst g2
    exact ⟨g3, ⟨b, g1, g4⟩, fun d' n' r' e hne hd => g5 d' r' n' e (by simpa using hne) hd⟩
  have hnone : detectorMatch s = none → ¬ DetectorName s := by
    rintro h ⟨d, n, r, e, hne, hd⟩
    exact h2 h d r n e (by simpa using hne) hd
  refine ⟨⟨hnone, fun h => ?_⟩, fun d n => ⟨hsome d n, ?_⟩⟩
  · cases hm : detectorMatch s with
    | none => rfl
    | some x =>
      obtain ⟨d, n⟩ := x
      obtain ⟨g1, ⟨r, g2, g3⟩, -⟩ := hsome d n hm
      exact absurd ⟨d, n, r, g2, g1, g3⟩ h
  · rintro ⟨hne, ⟨r, hs, hd⟩, hmax⟩
    cases hm : detectorMatch s with
    | none => exact absurd ⟨d, n, r, hs, hne, hd⟩ (hnone hm)
    | some x =>
      obtain ⟨d', n'⟩ := x
      obtain ⟨g1, ⟨r', g2, g3⟩, g4⟩ := hsome d' n' hm
      have hl : d.length = d'.length := Nat.le_antisymm (g4 d n r hs hne hd) (hmax d' n' r' g2 g1 g3)
      have e : d = d' := List.append_inj_left (hs.symm.trans g2) hl
      subst e
      have e2 : r = r' := by
        rw [hs] at g2
        exact List.append_cancel_left g2
      subst e2
      rw [detHere_unique hd, detHere_unique g3]

example : detectorMatch (ch! "A/DET/3CH/DET/14CH0:xtdf") = some (ch! "A/DET/3CH", ch! "14") ∧
    detectorMatch (ch! "/DET/3CH0") = none ∧ detectorMatch (ch! "A/DET/CH0") = none := ⟨by decide, by decide, by decide⟩

theorem mem_detectorModules {l : List Str} {m : Str × Str} {s : Str} :
    (m, s) ∈ detectorModules l ↔ s ∈ l ∧ detectorMatch s = some m := by
  unfold detectorModules
  rw [List.mem_filterMap]
  constructor
  · rintro ⟨a, h1, h2⟩
    rw [Option.map_eq_some_iff] at h2
    obtain ⟨m', h3, h4⟩ := h2
    simp only [Prod.mk.injEq] at h4
    obtain ⟨rfl, rfl⟩ := h4
    exact ⟨h1, h3⟩
  · rintro ⟨h1, h2⟩
    exact ⟨s, h1, by rw [h2]; rfl⟩

/-- The order of pairs of strings: by the first, and by the second if these are equal. -/
def PairLt (x y : Str × Str) : Prop := x.1 < y.1 ∨ (x.1 = y.1 ∧ x.2 < y.2)

theorem modLt_iff {x y : Str × Str} : modLt x y = true ↔ PairLt x y := by
  unfold modLt PairLt; simp

theorem not_pairLt_trans {x y z : Str × Str} (h1 : ¬ PairLt x y) (h2 : ¬ PairLt y z) : ¬ PairLt x z := by
  unfold PairLt at *
  push Not at *
  obtain ⟨a1, a2⟩ := h1
  obtain ⟨b1, b2⟩ := h2
  have a1 := List.not_lt.1 a1
  have b1 := List.not_lt.1 b1
  refine ⟨List.not_lt.2 (List.le_trans b1 a1), fun e => ?_⟩
  have e1 : z.1 = y.1 := List.le_antisymm b1 (e ▸ a1)
  exact List.not_lt.2 (List.le_trans (List.not_lt.1 (b2 e1.symm)) (List.not_lt.1 (a2 (e.trans e1))))

theorem pairLt_asymm {x y : Str × Str} (h : PairLt x y) : ¬ PairLt y x := by
  rintro (h' | ⟨e, h'⟩) <;> rcases h with h | ⟨e2, h⟩
  · exact List.lt_asymm h h'
  · rw [e2] at h'; exact List.lt_irrefl _ h'
  · rw [e] at h; exact List.lt_irrefl _ h
  · exact List.lt_asymm h h'

theorem leastModule_spec : ∀ l : List ((Str × Str) × Str), (leastModule l = none ↔ l = []) ∧
    ∀ m, leastModule l = some m → m ∈ l ∧ ∀ n ∈ l, ¬ PairLt n.1 m.1 := by
  intro l
  induction l with
  | nil => simp [leastModule]
  | cons a l ih =>
    obtain ⟨i1, i2⟩ := ih
    simp only [leastModule]
    cases hl : leastModule l with
    | none =>
      obtain rfl := i1.1 hl
      simp only [reduceCtorEq, false_iff, List.cons_ne_nil, not_false_eq_true, Option.some.injEq, true_and]
      rintro m rfl
      refine ⟨by simp, fun n hn => ?_⟩
      obtain rfl := List.mem_singleton.1 hn
      exact fun h => pairLt_asymm h h
    | some b =>
      obtain ⟨j1, j2⟩ := i2 b hl
      simp only
      split
      · next h =>
        have h := modLt_iff.1 h
        refine ⟨by simp, fun m hm => ?_⟩
        obtain rfl := Option.some.inj hm
        refine ⟨by simp, fun n hn => ?_⟩
        rcases List.mem_cons.1 hn with rfl | hn
        · exact fun h => pairLt_asymm h h
        · exact not_pairLt_trans (j2 n hn) (pairLt_asymm h)
      · next h =>
        have h : ¬ PairLt a.1 b.1 := fun h' => h (modLt_iff.2 h')
        refine ⟨by simp, fun m hm => ?_⟩
        obtain rfl := Option.some.inj hm
        refine ⟨by simp [j1], fun n hn => ?_⟩
        rcases List.mem_cons.1 hn with rfl | hn
        · exact h
        · exact j2 n hn

theorem mem_detectorSources {c : DC V} {s : Str} :
    s ∈ c.detectorSources ↔ s ∈ c.instrumentSources ∧ DetectorName s := by
  unfold DC.detectorSources
  rw [List.mem_filter]
  have := (detector_match s).1
  cases hd : detectorMatch s with
  | none => simp [this.1 hd]
  | some x =>
    have : DetectorName s := by
      by_contra h
      rw [this.2 h] at hd; simp at hd
    simp [this]

/-- C87. What `info` reports: the number of trains, the smallest and the largest train ID and the time
between them, in tenths of a second; all the control sources, and the instrument sources divided into detector modules
and others, in order; the names of detectors; and as an example the module with the least name and number, with what
`detector_info` says about it. -/
theorem info_exact {c : DC V} {pick : List Nat → Nat} (hinc : c.trainIds.Pairwise (· < ·)) (h64 : ∀ t ∈ c.trainIds, t < 2 ^ 64)
    {o : InfoOut} (h : c.info pick = .ok o) :
    o.trains = c.trainIds.length ∧
    (o.first ∈ c.trainIds ∧ ∀ t ∈ c.trainIds, o.first ≤ t) ∧
    (o.last ∈ c.trainIds ∧ ∀ t ∈ c.trainIds, t ≤ o.last) ∧
    o.first + o.span = o.last ∧
    (o.control.Perm c.controlSources ∧ o.control.Pairwise (· ≤ ·)) ∧
    (∀ s, s ∈ o.instrument ↔ s ∈ c.instrumentSources ∧ ¬ DetectorName s) ∧ o.instrument.Pairwise (· ≤ ·) ∧
    o.detectorSources + o.instrument.length = c.instrumentSources.length ∧
    (∀ n, n ∈ o.detectorNames ↔ ∃ s ∈ c.instrumentSources, ∃ k, detectorMatch s = some (n, k)) ∧
    o.detectorNames.Pairwise (· ≤ ·) ∧ o.detectorNames.Nodup ∧
    (o.module = none ↔ ∀ s ∈ c.instrumentSources, ¬ DetectorName s) ∧
    (∀ m s d, o.module = some (m, s, d) → s ∈ c.instrumentSources ∧ detectorMatch s = some m ∧
      c.detectorInfo pick s = .ok d ∧
      ∀ s' ∈ c.instrumentSources, ∀ m', detectorMatch s' = some m' → ¬ PairLt m' m) := by
  unfold DC.info at h
  split at h
  next first last hf hl =>
    have hlen : 0 < c.trainIds.length := by
      rcases Nat.eq_zero_or_pos c.trainIds.length with h0 | h0
      · rw [List.eq_nil_of_length_eq_zero h0] at hf; simp [nth] at hf
      · exact h0
    have hlast : pyIndex c.trainIds (-1) = .ok (c.trainIds[c.trainIds.length - 1]'(by omega)) := by
      rw [pyIndex_ok_iff]
      have : fromEnd c.trainIds.length (-1) = ((c.trainIds.length - 1 : Nat) : Int) := by unfold fromEnd; split <;> omega
      rw [this]
      exact ⟨by omega, by simp⟩
    rw [hlast] at hl
    rw [nth_ok_of_lt hlen] at hf
    obtain rfl := Except.ok.inj hf
    obtain rfl := Except.ok.inj hl
    have hmin : ∀ t ∈ c.trainIds, c.trainIds[0] ≤ t := by
      intro t ht
      obtain ⟨i, hi, rfl⟩ := List.getElem_of_mem ht
      rcases Nat.eq_zero_or_pos i with rfl | h0
      · exact Nat.le_refl _
      · exact Nat.le_of_lt (List.pairwise_iff_getElem.1 hinc 0 i hlen hi h0)
    have hmax : ∀ t ∈ c.trainIds, t ≤ c.trainIds[c.trainIds.length - 1] := by
      intro t ht
      obtain ⟨i, hi, rfl⟩ := List.getElem_of_mem ht
      rcases Nat.lt_or_ge i (c.trainIds.length - 1) with h0 | h0
      · exact Nat.le_of_lt (List.pairwise_iff_getElem.1 hinc i _ hi (by omega) h0)
      · have : i = c.trainIds.length - 1 := by omega
        subst this; exact Nat.le_refl _
    simp only at h
    split at h
    · simp at h
    split at h
    · simp at h
    next hnov m hm =>
    obtain rfl := Except.ok.inj h
    have hinst : ∀ s, s ∈ c.instrumentSources.filter (fun s => decide (s ∉ c.detectorSources)) ↔
        s ∈ c.instrumentSources ∧ ¬ DetectorName s := by
      intro s
      rw [List.mem_filter, decide_eq_true_eq, mem_detectorSources]
      tauto
    have hmods : ∀ m s, (m, s) ∈ detectorModules c.detectorSources ↔ s ∈ c.instrumentSources ∧ detectorMatch s = some m := by
      intro m s
      rw [mem_detectorModules, mem_detectorSources]
      constructor
      · rintro ⟨⟨h1, -⟩, h2⟩; exact ⟨h1, h2⟩
      · rintro ⟨h1, h2⟩
        refine ⟨⟨h1, ?_⟩, h2⟩
        by_contra h3
        rw [(detector_match s).1.2 h3] at h2; simp at h2
    obtain ⟨l1, l2⟩ := leastModule_spec (detectorModules c.detectorSources)
    refine ⟨rfl, ⟨List.getElem_mem _, hmin⟩, ⟨List.getElem_mem _, hmax⟩, ?_, ⟨List.perm_insertionSort _ _, ?_⟩, fun s => ?_, ?_, ?_,
      fun n => ?_, ?_, ?_, ?_, ?_⟩
    · show c.trainIds[0] + trainSpan c.trainIds[0] c.trainIds[c.trainIds.length - 1] = c.trainIds[c.trainIds.length - 1]
      have h1 := hmin _ (List.getElem_mem (show c.trainIds.length - 1 < c.trainIds.length by omega))
      have h2 := h64 _ (List.getElem_mem (show c.trainIds.length - 1 < c.trainIds.length by omega))
      unfold trainSpan
      omega
    · exact List.pairwise_insertionSort _ _
    · rw [(List.perm_insertionSort _ _).mem_iff, hinst]
    · exact List.pairwise_insertionSort _ _
    · show c.detectorSources.length + ((c.instrumentSources.filter (fun s => decide (s ∉ c.detectorSources))).insertionSort (· ≤ ·)).length = _
      rw [List.length_insertionSort]
      have : c.instrumentSources.filter (fun s => decide (s ∉ c.detectorSources)) =
          c.instrumentSources.filter (fun s => !(detectorMatch s).isSome) := by
        apply List.filter_congr
        intro s hs
        cases hd : detectorMatch s <;> simp [DC.detectorSources, hs, hd]
      rw [this]
      unfold DC.detectorSources
      rw [← List.countP_eq_length_filter, ← List.countP_eq_length_filter]
      rw [Nat.add_comm, List.length_eq_countP_add_countP (fun s => (detectorMatch s).isSome), Nat.add_comm]
      congr 1
      apply List.countP_congr
      intro s _
      simp
    · rw [(List.perm_insertionSort _ _).mem_iff, List.mem_dedup, List.mem_map]
      constructor
      · rintro ⟨⟨⟨n', k⟩, s⟩, h1, rfl⟩
        obtain ⟨h2, h3⟩ := (hmods _ _).1 h1
        exact ⟨s, h2, k, h3⟩
      · rintro ⟨s, h1, k, h2⟩
        exact ⟨((n, k), s), (hmods _ _).2 ⟨h1, h2⟩, rfl⟩
    · exact List.pairwise_insertionSort _ _
    · exact (List.perm_insertionSort _ _).nodup_iff.2 (List.nodup_dedup _)
    · show m = none ↔ _
      unfold DC.infoModule at hm
      split at hm
      · next hn =>
        obtain rfl := Except.ok.inj hm
        simp only [true_iff]
        intro s hs hd
        have hne : detectorMatch s ≠ none := fun h => (detector_match s).1.1 h hd
        obtain ⟨x, hx⟩ := Option.ne_none_iff_exists'.1 hne
        have := (hmods x s).2 ⟨hs, hx⟩
        rw [l1.1 hn] at this; simp at this
      · next x s hx =>
        split at hm
        · simp at hm
        obtain rfl := Except.ok.inj hm
        simp only [reduceCtorEq, false_iff, not_forall, not_not]
        obtain ⟨h1, -⟩ := l2 _ hx
        obtain ⟨h2, h3⟩ := (hmods _ _).1 h1
        refine ⟨s, h2, ?_⟩
        by_contra h4
        rw [(detector_match s).1.2 h4] at h3; simp at h3
    · intro m' s d hmod
      have hmod : m = some (m', s, d) := hmod
      unfold DC.infoModule at hm
      split at hm
      · obtain rfl := Except.ok.inj hm; simp at hmod
      · next x s' hx =>
        split at hm
        · simp at hm
        next d' hd' =>
        obtain rfl := Except.ok.inj hm
        simp only [Option.some.injEq, Prod.mk.injEq] at hmod
        obtain ⟨rfl, rfl, rfl⟩ := hmod
        obtain ⟨h1, h2⟩ := l2 _ hx
        obtain ⟨h3, h4⟩ := (hmods _ _).1 h1
        exact ⟨h3, h4, hd', fun s'' hs'' m'' hm'' => h2 (m'', s'') ((hmods _ _).2 ⟨hs'', hm''⟩)⟩
  · simp at h
  · simp at h

/-- C87. `info` gives an answer for a collection with trains in order, spanning less than 10^9 days, if the detector
modules can be examined; it fails with IndexError if there are no trains. -/
theorem info_answers {c : DC V} {pick : List Nat → Nat} :
    (c.trainIds = [] → c.info pick = .error .index) ∧
    (c.trainIds ≠ [] → c.trainIds.Pairwise (· < ·) → (∀ t ∈ c.trainIds, t < 2 ^ 64) →
      (∀ t ∈ c.trainIds, ∀ u ∈ c.trainIds, u < t + 10 * 86400 * 10 ^ 9) →
      (∀ s ∈ c.instrumentSources, DetectorName s → ∃ d, c.detectorInfo pick s = .ok d) → ∃ o, c.info pick = .ok o) := by
  constructor
  · intro h
    unfold DC.info
    rw [h]
    rfl
  · intro h hinc h64 hspan hdet
    have hlen : 0 < c.trainIds.length := List.length_pos_iff.2 h
    have hlast : pyIndex c.trainIds (-1) = .ok (c.trainIds[c.trainIds.length - 1]'(by omega)) := by
      rw [pyIndex_ok_iff]
      have : fromEnd c.trainIds.length (-1) = ((c.trainIds.length - 1 : Nat) : Int) := by unfold fromEnd; split <;> omega
      rw [this]
      exact ⟨by omega, by simp⟩
    unfold DC.info
    rw [hlast, nth_ok_of_lt hlen]
    simp only
    have hsp : ¬ trainSpan c.trainIds[0] c.trainIds[c.trainIds.length - 1] ≥ 864 * 10 ^ 12 := by
      have h1 : c.trainIds[0] ≤ c.trainIds[c.trainIds.length - 1] := by
        rcases Nat.eq_zero_or_pos (c.trainIds.length - 1) with h0 | h0
        · simp only [h0]; exact Nat.le_refl _
        · exact Nat.le_of_lt (List.pairwise_iff_getElem.1 hinc 0 _ hlen (by omega) h0)
      have h2 := h64 _ (List.getElem_mem (show c.trainIds.length - 1 < c.trainIds.length by omega))
      have h3 := hspan _ (List.getElem_mem hlen) _ (List.getElem_mem (show c.trainIds.length - 1 < c.trainIds.length by omega))
      unfold trainSpan
      omega
    rw [if_neg hsp]
    have : ∃ m, c.infoModule pick = .ok m := by
      unfold DC.infoModule
      split
      · exact ⟨_, rfl⟩
      · next m s hm =>
        obtain ⟨h1, -⟩ := (leastModule_spec _).2 _ hm
        obtain ⟨h2, h3⟩ := mem_detectorModules.1 h1
        obtain ⟨h4, h5⟩ := mem_detectorSources.1 h2
        obtain ⟨d, hd⟩ := hdet s h4 h5
        rw [hd]
        exact ⟨_, rfl⟩
    obtain ⟨m, hm⟩ := this
    rw [hm]
    exact ⟨_, rfl⟩

/-- C87 is false for trains in another order: after `select_trains(by_index[::-1])`, the difference of the unsigned
numbers wraps around and `info` fails. -/
theorem info_reversed_wrong :
    let c : DC Nat := ⟨[exInst (ch! "a") [1, 2, 3] [0, 2, 2] [2, 0, 1] [10, 11, 12]], [(ch! "D:o", none)], [1, 2, 3], true⟩
    c.selectTrains (.indexSlice none none (some (-1))) = .ok { c with trainIds := [3, 2, 1], ctxCloses := false } ∧
    (c.info (fun l => l.headD 0)) = .ok ⟨3, 1, 3, 2, 0, [], none, [ch! "D:o"], []⟩ ∧
    { c with trainIds := [3, 2, 1] }.info (fun l => l.headD 0) = .error .overflow := by decide

/-- C87. `train_info` fails exactly for trains which are not in the collection. What it lists are the sources of the
files with the train. -/
theorem train_info_partial (c : DC V) (t : Nat) :
    (t ∉ c.trainIds → c.trainInfo t = .error .value) ∧
    (t ∈ c.trainIds → ∃ inst ctrl, c.trainInfo t = .ok (inst, ctrl) ∧ inst.Nodup ∧ ctrl.Nodup ∧
      (∀ s, s ∈ inst ↔ ∃ f ∈ c.files, t ∈ f.trainIds ∧ s ∈ f.instrumentSources) ∧
      (∀ s, s ∈ ctrl ↔ ∃ f ∈ c.files, t ∈ f.trainIds ∧ s ∈ f.controlSources)) := by
  unfold DC.trainInfo
  refine ⟨fun h => by simp [h], fun h => ?_⟩
  rw [if_neg (not_not.2 h)]
  refine ⟨_, _, rfl, List.nodup_dedup _, List.nodup_dedup _, fun s => ?_, fun s => ?_⟩
  · simp [List.mem_dedup, and_assoc]
  · simp [List.mem_dedup, and_assoc]

/-- C87. In a newly opened collection (all sources selected) these are the sources of the collection which cover the
train. -/
theorem train_info_all {c : DC V} {t : Nat} (hsel : ∀ f ∈ c.files, ∀ s, Holds f s → s ∈ c.allSources) {inst ctrl : List Str}
    (h : c.trainInfo t = .ok (inst, ctrl)) (s : Str) : s ∈ inst ++ ctrl ↔ s ∈ c.allSources ∧ Covered c s t := by
  by_cases ht : t ∈ c.trainIds
  · obtain ⟨inst', ctrl', h1, -, -, h2, h3⟩ := (train_info_partial c t).2 ht
    rw [h] at h1
    simp at h1
    obtain ⟨rfl, rfl⟩ := h1
    rw [List.mem_append, h2, h3]
    constructor
    · rintro (⟨f, hf, htf, hs⟩ | ⟨f, hf, htf, hs⟩)
      · exact ⟨hsel f hf s (Or.inr hs), f, hf, Or.inr hs, htf⟩
      · exact ⟨hsel f hf s (Or.inl hs), f, hf, Or.inl hs, htf⟩
    · rintro ⟨-, f, hf, hh, htf⟩
      rcases hh with hh | hh
      · exact Or.inr ⟨f, hf, htf, hh⟩
      · exact Or.inl ⟨f, hf, htf, hh⟩
  · rw [(train_info_partial c t).1 ht] at h; simp at h

/-- C87 is false after a selection: a file with two sources shows both, although only one is selected. -/
theorem train_info_unselected :
    let f := { exInst (ch! "a") [1] [0] [1] [10] with instrumentSources := [ch! "D:o", ch! "E:o"] }
    let c : DC Nat := ⟨[f], [(ch! "D:o", none), (ch! "E:o", none)], [1], true⟩
    (c.select (.dict [(ch! "D:o", [ch! "data.y"])])).map (fun d => d.instrumentSources) = .ok [ch! "D:o"] ∧
    (c.select (.dict [(ch! "D:o", [ch! "data.y"])])).map (fun d => d.trainInfo 1) = .ok (.ok ([ch! "D:o", ch! "E:o"], [])) := by decide

theorem firstByName_mem : ∀ {l : List (FileAccess V)} {f : FileAccess V}, firstByName l = .ok f → f ∈ l
  | [], f, h => by simp [firstByName] at h
  | g :: l, f, h => by
    unfold firstByName at h
    split at h
    · simp at h; simp [h]
    · next g' hg' =>
      split at h
      · simp at h; subst h; exact List.mem_cons_of_mem _ (firstByName_mem hg')
      · simp at h; simp [h]

theorem firstByName_min : ∀ {l : List (FileAccess V)} {f : FileAccess V}, firstByName l = .ok f →
    ∀ g ∈ l, ¬ g.filename < f.filename
  | [], f, h => by simp [firstByName] at h
  | g :: l, f, h => by
    unfold firstByName at h
    split at h
    · next e he =>
      simp at h; subst h
      intro x hx
      rcases List.mem_cons.1 hx with rfl | hx
      · exact List.lt_irrefl _
      · cases l with
        | nil => simp at hx
        | cons y l =>
          unfold firstByName at he
          split at he
          · simp at he
          · split at he <;> simp at he
    · next g' hg' =>
      have ih := firstByName_min hg'
      split at h
      · next hlt =>
        simp at h; subst h
        intro x hx
        rcases List.mem_cons.1 hx with rfl | hx
        · exact List.lt_asymm hlt
        · exact ih x hx
      · next hlt =>
        simp at h; subst h
        intro x hx
        rcases List.mem_cons.1 hx with rfl | hx
        · exact List.lt_irrefl _
        · exact List.not_lt.2 (List.le_trans (List.not_lt.1 hlt) (List.not_lt.1 (ih x hx)))

/-- C87. `detector_info`: the number of frames is that of some train with frames in the first file (by name) of the module,
or 0 if that file has no frames; the total is as if all trains had that number. -/
theorem detector_info_exact {c : DC V} {pick : List Nat → Nat} (hpick : ∀ l, l ≠ [] → pick l ∈ l) {source : Str}
    {dims : List Nat} {fpt total : Nat} (h : c.detectorInfo pick source = .ok (dims, fpt, total)) :
    total = fpt * c.trainIds.length ∧ ∃ f ∈ c.files, Holds f source ∧
      (∀ g ∈ c.files, Holds g source → ¬ g.filename < f.filename) ∧ ∃ firsts counts ds,
      f.getIndex source (ch! "image") = .ok (firsts, counts) ∧
      f.dataset (ch! "INSTRUMENT") source (ch! "image.data") = .ok ds ∧
      (dims <:+ ds.rows.length :: ds.rowShape ∧ dims.length = min 2 (ds.rowShape.length + 1)) ∧
      ((fpt ≠ 0 ∧ fpt ∈ counts) ∨ (fpt = 0 ∧ ∀ n ∈ counts, n = 0)) := by
  unfold DC.detectorInfo at h
  split at h
  · simp at h
  · next f hf =>
    have hm := mem_sourceIndex.1 (firstByName_mem hf)
    split at h
    · simp at h
    · next firsts counts hix =>
      simp only at h
      split at h
      · simp at h
      · next ds hds =>
        simp only [Except.ok.injEq, Prod.mk.injEq] at h
        obtain ⟨rfl, rfl, rfl⟩ := h
        refine ⟨rfl, f, hm.1, hm.2, fun g hg hh => firstByName_min hf g (mem_sourceIndex.2 ⟨hg, hh⟩), firsts, counts, ds, hix, hds, ⟨List.drop_suffix _ _, by simp; omega⟩, ?_⟩
        split
        · next he =>
          right
          refine ⟨rfl, fun n hn => ?_⟩
          by_contra h0
          have : n ∈ (counts.filter (fun n => n != 0)).dedup := by
            rw [List.mem_dedup, List.mem_filter]; exact ⟨hn, by simpa using h0⟩
          rw [List.isEmpty_iff.1 he] at this; simp at this
        · next he =>
          left
          have := hpick _ (fun h => he (List.isEmpty_iff.2 h))
          rw [List.mem_dedup, List.mem_filter] at this
          exact ⟨by simpa using this.2, this.1⟩

end KD
