/-
Property C156: the text printed by `info`.
-/
import Verif.Spec.InfoText
import Verif.Props.Info
import Verif.Props.DetArray
import Verif.Lemmas.Strings

set_option linter.unusedSimpArgs false

namespace KD
open Spec

variable {V W : Type}

/-! ### Durations -/

theorem natStr_length_one : ∀ a, a < 10 → (natStr a).length = 1 := by decide

theorem pad2_two : ∀ n, n < 60 → pad2 n = natStr (n / 10) ++ natStr (n % 10) := by decide

theorem twoDigits_length {s : Str} {n : Nat} (h : TwoDigits s n) : s.length = 2 := by
  obtain ⟨a, b, ha, hb, -, rfl⟩ := h
  rw [List.length_append, natStr_length_one a ha, natStr_length_one b hb]

theorem twoDigits_unique {s : Str} {n n' : Nat} (h : TwoDigits s n) (h' : TwoDigits s n') : n = n' := by
  obtain ⟨a, b, ha, hb, rfl, rfl⟩ := h
  obtain ⟨a', b', ha', hb', rfl, e⟩ := h'
  obtain ⟨e1, e2⟩ := List.append_inj e (by rw [natStr_length_one a ha, natStr_length_one a' ha'])
  rw [natStr_inj e1, natStr_inj e2]

/-- The duration which is printed reads as the number of tenths of a second. -/
theorem duration_says (t : Nat) : DurationSays (durationText t) t := by
  have key : ∀ n, n < 60 → TwoDigits (pad2 n) n := fun n hn =>
    ⟨n / 10, n % 10, by omega, by omega, by omega, pad2_two n hn⟩
  refine ⟨if t / 10 / 86400 = 0 then [] else
      natStr (t / 10 / 86400) ++ ch! " day" ++ (if t / 10 / 86400 = 1 then [] else ch! "s") ++ ch! ", ",
    pad2 (t / 10 % 86400 / 60 % 60), pad2 (t / 10 % 86400 % 60),
    if t % 10 = 0 then [] else ch! "." ++ natStr (t % 10) ++ ch! "00000", t / 10 / 86400, t / 10 % 86400 / 60 / 60, t / 10 % 86400 / 60 % 60, t / 10 % 86400 % 60, t % 10,
    ?_, by omega, key _ (by omega), by omega, key _ (by omega), by omega, ?_, ?_, by omega⟩
  · unfold DaysSay
    by_cases h0 : t / 10 / 86400 = 0
    · exact .inl ⟨h0, by rw [if_pos h0]⟩
    · by_cases h1 : t / 10 / 86400 = 1
      · exact .inr (.inl ⟨h1, by rw [h1]; decide⟩)
      · exact .inr (.inr ⟨by omega, by rw [if_neg h0, if_neg h1]; simp⟩)
  · unfold TenthsSay
    by_cases h0 : t % 10 = 0
    · exact .inl ⟨h0, by rw [if_pos h0]⟩
    · exact .inr ⟨by omega, by omega, by rw [if_neg h0]⟩
  · simp only [durationText, List.append_assoc]

theorem daysSay_shape {s : Str} {d : Nat} (h : DaysSay s d) :
    (d = 0 ∧ s = []) ∨ ∃ r, s = natStr d ++ ' ' :: (r ++ ch! ", ") ∧ r = (if d = 1 then ch! "day" else ch! "days") := by
  rcases h with h | ⟨rfl, rfl⟩ | ⟨hd, rfl⟩
  · exact .inl h
  · exact .inr ⟨_, by decide, rfl⟩
  · exact .inr ⟨_, by rw [if_neg (by omega)]; simp, rfl⟩

/-- A text reads as at most one duration. -/
theorem durationSays_unique {x : Str} {t t' : Nat} (h : DurationSays x t) (h' : DurationSays x t') : t = t' := by
  obtain ⟨ds, ms, ss, fs, d, hh, m, s, f, hd, -, hm, -, hs, -, hf, rfl, rfl⟩ := h
  obtain ⟨ds', ms', ss', fs', d', hh', m', s', f', hd', -, hm', -, hs', -, hf', e, rfl⟩ := h'
  have key : d = d' ∧ natStr hh ++ ':' :: (ms ++ ':' :: (ss ++ fs)) = natStr hh' ++ ':' :: (ms' ++ ':' :: (ss' ++ fs')) := by
    simp only [List.append_assoc, List.cons_append, List.nil_append] at e
    rcases daysSay_shape hd with ⟨rfl, rfl⟩ | ⟨r, rfl, hr⟩ <;> rcases daysSay_shape hd' with ⟨rfl, rfl⟩ | ⟨r', rfl, hr'⟩
    · exact ⟨rfl, by simpa using e⟩
    · simp only [List.append_assoc, List.cons_append, List.nil_append] at e
      obtain ⟨-, e, -⟩ := num_split (by decide) (by decide) e
      exact absurd e (by decide)
    · simp only [List.append_assoc, List.cons_append, List.nil_append] at e
      obtain ⟨-, e, -⟩ := num_split (by decide) (by decide) e
      exact absurd e (by decide)
    · simp only [List.append_assoc, List.cons_append, List.nil_append] at e
      obtain ⟨rfl, -, e⟩ := num_split (by decide) (by decide) e
      refine ⟨rfl, ?_⟩
      rw [hr, hr'] at e
      simpa using e
  clear e
  obtain ⟨rfl, e1⟩ := key
  obtain ⟨rfl, -, e2⟩ := num_split (by decide) (by decide) e1
  clear e1
  obtain ⟨e3, e4⟩ := List.append_inj e2 (by rw [twoDigits_length hm, twoDigits_length hm'])
  obtain ⟨e5, e⟩ := List.append_inj (List.cons.inj e4).2 (by rw [twoDigits_length hs, twoDigits_length hs'])
  clear e2 e4
  subst e3 e5
  rw [twoDigits_unique hm hm', twoDigits_unique hs hs']
  rcases hf with ⟨rfl, rfl⟩ | ⟨-, -, rfl⟩ <;> rcases hf' with ⟨rfl, rfl⟩ | ⟨-, -, rfl⟩
  · rfl
  · simp at e
  · simp at e
  · rw [natStr_inj (List.append_cancel_left (List.append_cancel_right e))]

example : durationText 5 = ch! "0:00:00.500000" ∧ durationText 36610 = ch! "1:01:01" ∧
    durationText 864009 = ch! "1 day, 0:00:00.900000" ∧ durationText 1765990 = ch! "2 days, 1:03:19" := by decide

theorem durationText_inj {t t' : Nat} (h : durationText t = durationText t') : t = t' :=
  durationSays_unique (duration_says t) (h ▸ duration_says t')

theorem durationText_chars {t : Nat} : '\n' ∉ durationText t := by
  intro h
  have hn : ∀ n, '\n' ∉ natStr n := fun n hc => absurd (natStr_digit hc) (by decide)
  have hp : ∀ n, '\n' ∉ pad2 n := by
    intro n hc
    unfold pad2 at hc
    split at hc
    · simp [hn] at hc
    · exact hn _ hc
  unfold durationText at h
  simp only [List.mem_append, hn, hp, List.mem_cons, List.not_mem_nil, or_false, false_or] at h
  split at h <;> split at h <;> (try split at h) <;> simp [hn] at h

/-! ### Lines -/

theorem printLines_inj {l l' : List Str} (h : ∀ x ∈ l, '\n' ∉ x) (h' : ∀ x ∈ l', '\n' ∉ x)
    (e : printLines l = printLines l') : l = l' := by
  have cut : ∀ {a b r s : Str}, '\n' ∉ a → '\n' ∉ b → a ++ '\n' :: r = b ++ '\n' :: s → a = b ∧ r = s := by
    intro a
    induction a with
    | nil =>
      intro b r s _ hb e
      cases b with
      | nil => exact ⟨rfl, by simpa using e⟩
      | cons y b =>
        simp only [List.nil_append, List.cons_append, List.cons.injEq] at e
        exact absurd (List.mem_cons.2 (.inl e.1)) hb
    | cons x a ih =>
      intro b r s ha hb e
      cases b with
      | nil => simp only [List.nil_append, List.cons_append, List.cons.injEq] at e; exact absurd (by simp [e.1]) ha
      | cons y b =>
        simp only [List.cons_append, List.cons.injEq] at e
        obtain ⟨e1, e2⟩ := ih (fun hc => ha (by simp [hc])) (fun hc => hb (by simp [hc])) e.2
        exact ⟨by rw [e.1, e1], e2⟩
  induction l generalizing l' with
  | nil => cases l' with
    | nil => rfl
    | cons y l' => simp [printLines] at e
  | cons x l ih => cases l' with
    | nil => simp [printLines] at e
    | cons y l' =>
      simp only [printLines, List.flatMap_cons, List.append_assoc, List.cons_append, List.nil_append] at e
      obtain ⟨e1, e2⟩ := cut (h x (by simp)) (h' y (by simp)) e
      rw [e1, ih (l' := l') (fun z hz => h z (by simp [hz])) (fun z hz => h' z (by simp [hz])) e2]

theorem splitCh_printLines {l : List Str} (h : ∀ x ∈ l, '\n' ∉ x) : splitCh '\n' (printLines l) = l ++ [[]] := by
  have e : printLines l = joinCh '\n' (l ++ [[]]) := by
    induction l with
    | nil => rfl
    | cons x l ih =>
      have := ih (fun z hz => h z (by simp [hz]))
      cases l with
      | nil => simp [printLines, joinCh]
      | cons y l =>
        simp only [printLines, List.flatMap_cons, List.append_assoc, List.cons_append, List.nil_append, joinCh] at this ⊢
        rw [this]
  rw [e]
  refine splitCh_joinCh (by simp) ?_
  intro p hp
  rcases List.mem_append.1 hp with hp | hp
  · exact h p hp
  · rw [List.mem_singleton.1 hp]; simp

/-- A first empty line is the same one in two equal lists. -/
theorem cut_empty {a b r s : List Str} (ha : [] ∉ a) (hb : [] ∉ b) (e : a ++ [] :: r = b ++ [] :: s) : a = b ∧ r = s := by
  induction a generalizing b with
  | nil => cases b with
    | nil => exact ⟨rfl, by simpa using e⟩
    | cons y b => simp only [List.nil_append, List.cons_append, List.cons.injEq] at e; exact absurd (by simp [e.1]) hb
  | cons x a ih => cases b with
    | nil => simp only [List.nil_append, List.cons_append, List.cons.injEq] at e; exact absurd (by simp [e.1]) ha
    | cons y b =>
      simp only [List.cons_append, List.cons.injEq] at e
      obtain ⟨e1, e2⟩ := ih (fun hc => ha (by simp [hc])) (fun hc => hb (by simp [hc])) e.2
      exact ⟨by rw [e.1, e1], e2⟩

theorem dims_inj {l l' : List Nat} (h : joinText ch! " x " (l.map natStr) = joinText ch! " x " (l'.map natStr)) : l = l' := by
  have hne : ∀ n, natStr n ≠ [] := fun _ => Nat.toDigits_ne_nil
  have hsp : ∀ (n m : Nat) (r : Str), natStr n ≠ natStr m ++ ' ' :: r := by
    intro n m r e
    have : ' ' ∈ natStr n := by rw [e]; simp
    exact absurd (natStr_digit this) (by decide)
  induction l generalizing l' with
  | nil =>
    match l', h with
    | [], _ => rfl
    | [a], h => exact absurd h.symm (hne a)
    | a :: b :: l', h => simp [joinText, hne] at h
  | cons a l ih =>
    match l, l', h with
    | [], [], h => exact absurd h (hne a)
    | [], [b], h => rw [natStr_inj h]
    | [], b :: c :: l', h =>
      simp only [List.map_cons, List.map_nil, joinText, List.append_assoc, List.cons_append] at h
      exact absurd h (hsp _ _ _)
    | c :: l, [], h => simp [joinText, hne] at h
    | c :: l, [b], h =>
      simp only [List.map_cons, List.map_nil, joinText, List.append_assoc, List.cons_append] at h
      exact absurd h.symm (hsp _ _ _)
    | c :: l, b :: d :: l', h =>
      simp only [List.map_cons, joinText, List.append_assoc, List.cons_append, List.nil_append] at h
      obtain ⟨rfl, -, e⟩ := num_split (by decide) (by decide) h
      simp only [List.cons.injEq, true_and] at e
      rw [ih (l' := d :: l') (by simpa only [List.map_cons] using e)]

theorem names_inj {l l' : List Str} (h : ∀ s ∈ l, s ≠ [] ∧ ',' ∉ s) (h' : ∀ s ∈ l', s ≠ [] ∧ ',' ∉ s)
    (e : joinCh ',' l = joinCh ',' l') : l = l' := by
  have key : ∀ {k : List Str}, (∀ s ∈ k, s ≠ [] ∧ ',' ∉ s) → k ≠ [] → joinCh ',' k ≠ [] := by
    intro k hk hne hj
    match k, hne with
    | [s], _ => exact (hk s (by simp)).1 hj
    | s :: t :: k, _ => simp [joinCh] at hj
  by_cases hl : l = []
  · by_cases hl' : l' = []
    · rw [hl, hl']
    · rw [hl] at e; exact absurd e.symm (key h' hl')
  · by_cases hl' : l' = []
    · rw [hl'] at e; exact absurd e (key h hl)
    · rw [← splitCh_joinCh hl (fun p hp => (h p hp).2), e, splitCh_joinCh hl' (fun p hp => (h' p hp).2)]

theorem items_inj {l l' : List Str} (e : l.map itemLine = l'.map itemLine) : l = l' :=
  List.map_injective_iff.2 (fun _ _ h => List.append_cancel_left h) e

theorem items_empty (l : List Str) : [] ∉ l.map itemLine := by
  simp [itemLine]

/-! ### The text -/

/-- What `info` gives for a collection whose names stand on one line. -/
structure Showable (o : InfoOut) : Prop where
  names : ∀ s ∈ o.detectorNames, s ≠ [] ∧ NameLine s
  instrument : ∀ s ∈ o.instrument, NameLine s
  control : ∀ s ∈ o.control, NameLine s
  module : ∀ m s d, o.module = some (m, s, d) → detectorMatch s = some m ∧ NameLine s ∧ NameLine m.1 ∧ '\n' ∉ m.2

theorem natStr_nl (n : Nat) : '\n' ∉ natStr n := fun h => absurd (natStr_digit h) (by decide)

theorem joinText_nl {l : List Nat} : '\n' ∉ joinText ch! " x " (l.map natStr) := by
  induction l with
  | nil => simp [joinText]
  | cons a l ih => cases l with
    | nil => exact natStr_nl a
    | cons b l =>
      simp only [List.map_cons, joinText, List.mem_append, not_or] at ih ⊢
      exact ⟨⟨natStr_nl a, by decide⟩, ih⟩

theorem moduleLines_nl {o : InfoOut} (h : Showable o) : ∀ x ∈ moduleLines o.module, '\n' ∉ x := by
  have := h.module
  match hm : o.module with
  | none => simp [moduleLines]
  | some ((a, b), s, dims, f, t) =>
    obtain ⟨-, hs, hn, hb⟩ := this _ _ _ hm
    intro x hx
    simp only [moduleLines, List.mem_cons, List.not_mem_nil, or_false] at hx
    rcases hx with rfl | rfl | rfl
    · simp only [List.mem_append, not_or]
      exact ⟨⟨⟨⟨by decide, ⟨hn.1, by decide⟩, hb⟩, by decide⟩, joinText_nl⟩, by decide⟩
    · simp [hs.1]
    · simp [natStr_nl]

theorem moduleLines_empty (m : Option ((Str × Str) × Str × List Nat × Nat × Nat)) : [] ∉ moduleLines m := by
  match m with
  | none => simp [moduleLines]
  | some ((a, b), s, dims, f, t) => simp [moduleLines]

theorem infoLines_nl {o : InfoOut} (h : Showable o) : ∀ x ∈ infoLines o, '\n' ∉ x := by
  intro x hx
  simp only [infoLines, List.mem_append, List.mem_cons, List.not_mem_nil, or_false, List.mem_map] at hx
  have hj : '\n' ∉ joinCh ',' o.detectorNames := by
    intro hc
    rcases mem_joinCh hc with hc | ⟨p, hp, hc⟩
    · exact absurd hc (by decide)
    · exact (h.names p hp).2.1 hc
  rcases hx with (((((hx | hx) | hx) | ⟨d, hd, rfl⟩) | hx) | ⟨d, hd, rfl⟩) | rfl
  · rcases hx with rfl | rfl | rfl | rfl | rfl | rfl <;> simp [natStr_nl, hj, durationText_chars]
  · exact moduleLines_nl h x hx
  · rcases hx with rfl | rfl <;> simp [natStr_nl]
  · simp [itemLine, (h.instrument d hd).1]
  · rcases hx with rfl | rfl <;> simp [natStr_nl]
  · simp [itemLine, (h.control d hd).1]
  · simp

theorem moduleLines_inj {o o' : InfoOut} (h : Showable o) (h' : Showable o')
    (e : moduleLines o.module = moduleLines o'.module) : o.module = o'.module := by
  have h1 := h.module
  have h2 := h'.module
  match hm : o.module, hm' : o'.module with
  | none, none => rfl
  | none, some ((a, b), s, dims, f, t) => rw [hm, hm'] at e; simp [moduleLines] at e
  | some ((a, b), s, dims, f, t), none => rw [hm, hm'] at e; simp [moduleLines] at e
  | some ((a, b), s, dims, f, t), some ((a', b'), s', dims', f', t') =>
    obtain ⟨k1, -⟩ := h1 _ _ _ hm
    obtain ⟨k2, -⟩ := h2 _ _ _ hm'
    rw [hm, hm'] at e
    simp only [moduleLines, List.cons.injEq, and_true] at e
    obtain ⟨e1, e2, e3⟩ := e
    obtain rfl := List.append_cancel_left e2
    rw [k1] at k2
    simp only [Option.some.injEq, Prod.mk.injEq] at k2
    obtain ⟨rfl, rfl⟩ := k2
    obtain rfl := dims_inj (List.append_cancel_left (List.append_cancel_right e1))
    simp only [List.append_assoc] at e3
    obtain ⟨rfl, -, e4⟩ := num_split (c := ' ') (c' := ' ') (by decide) (by decide) (List.append_cancel_left e3)
    have e5 := List.append_cancel_left e4
    rw [natStr_inj (List.append_cancel_right e5)]

theorem infoLines_inj {o o' : InfoOut} (h : Showable o) (h' : Showable o') (e : infoLines o = infoLines o') : o = o' := by
  simp only [infoLines, List.append_assoc, List.cons_append, List.nil_append, List.cons.injEq, true_and] at e
  obtain ⟨e1, e2, e3, e4, e5, e⟩ := e
  obtain ⟨e6, e⟩ := cut_empty (moduleLines_empty _) (moduleLines_empty _) e
  obtain ⟨e7, e⟩ := cut_empty (items_empty _) (items_empty _) (List.cons.inj e).2
  obtain ⟨e8, -⟩ := cut_empty (items_empty _) (items_empty _) (List.cons.inj e).2
  have f1 := natStr_inj e1
  have f2 := durationText_inj e2
  have f3 := natStr_inj e3
  have f4 := natStr_inj e4
  obtain ⟨f5, -, e5⟩ := num_split (c := ' ') (c' := ' ') (by decide) (by decide) e5
  simp only [List.cons.injEq, true_and] at e5
  have f6 := names_inj (fun s hs => ⟨(h.names s hs).1, (h.names s hs).2.2⟩)
    (fun s hs => ⟨(h'.names s hs).1, (h'.names s hs).2.2⟩) (List.append_cancel_right e5)
  have f7 := moduleLines_inj h h' e6
  have f8 := items_inj e7
  have f9 := items_inj e8
  cases o; cases o'
  simp only at f1 f2 f3 f4 f5 f6 f7 f8 f9
  rw [f1, f2, f3, f4, f5, f6, f7, f8, f9]

theorem info_showable {c : DC V} {pick : List Nat → Nat} (hinc : c.trainIds.Pairwise (· < ·)) (h64 : ∀ t ∈ c.trainIds, t < 2 ^ 64)
    (hi : ∀ s ∈ c.instrumentSources, NameLine s) (hc : ∀ s ∈ c.controlSources, NameLine s)
    {o : InfoOut} (h : c.info pick = .ok o) : Showable o := by
  obtain ⟨-, -, -, -, hctl, hins, -, -, hnames, -, -, -, hmod⟩ := info_exact hinc h64 h
  have key : ∀ s ∈ c.instrumentSources, ∀ n k, detectorMatch s = some (n, k) → n ≠ [] ∧ NameLine n ∧ '\n' ∉ k := by
    intro s hs n k hm
    obtain ⟨h1, ⟨r, e, hr⟩, -⟩ := ((detector_match s).2 n k).1 hm
    have := hi s hs
    refine ⟨h1, ⟨fun hx => this.1 (by rw [e]; simp [hx]), fun hx => this.2 (by rw [e]; simp [hx])⟩, ?_⟩
    intro hx
    obtain ⟨-, hdig, -⟩ := hr
    exact absurd (hdig _ hx) (by decide)
  refine ⟨?_, fun s hs => hi s ((hins s).1 hs).1, fun s hs => hc s (hctl.1.mem_iff.1 hs), ?_⟩
  · intro n hn
    obtain ⟨s, hs, k, hm⟩ := (hnames n).1 hn
    exact ⟨(key s hs n k hm).1, (key s hs n k hm).2.1⟩
  · intro m s d hm
    obtain ⟨hs, hd, -⟩ := hmod m s d hm
    exact ⟨hd, hi s hs, (key s hs m.1 m.2 hd).2⟩

/-- C156: what `info` prints determines everything it found. Two collections with plain source names for which the same
text is printed have the same numbers and the same sources in it. -/
theorem info_text_injective {c : DC V} {c' : DC W} {pick pick' : List Nat → Nat}
    (hinc : c.trainIds.Pairwise (· < ·)) (h64 : ∀ t ∈ c.trainIds, t < 2 ^ 64)
    (hinc' : c'.trainIds.Pairwise (· < ·)) (h64' : ∀ t ∈ c'.trainIds, t < 2 ^ 64)
    (hi : ∀ s ∈ c.instrumentSources, NameLine s) (hc : ∀ s ∈ c.controlSources, NameLine s)
    (hi' : ∀ s ∈ c'.instrumentSources, NameLine s) (hc' : ∀ s ∈ c'.controlSources, NameLine s)
    {text : Str} (h : c.printInfo pick = .ok text) (h' : c'.printInfo pick' = .ok text) :
    ∃ o, c.info pick = .ok o ∧ c'.info pick' = .ok o := by
  unfold DC.printInfo at h h'
  split at h
  · cases h
  · next o ho =>
    split at h'
    · cases h'
    · next o' ho' =>
      have e := (Except.ok.inj h).trans (Except.ok.inj h').symm
      have s := info_showable hinc h64 hi hc ho
      have s' := info_showable hinc' h64' hi' hc' ho'
      have := infoLines_inj s s' (printLines_inj (infoLines_nl s) (infoLines_nl s') e)
      exact ⟨o, ho, by rw [ho', this]⟩

/-- C156: the lines which are printed, in order: the number of trains, a text which reads as the time from the first to the
last train, the smallest and the largest train ID, the detector modules, the other instrument sources and the control
sources, each list with its length and sorted. -/
theorem info_lines {c : DC V} {pick : List Nat → Nat} (hinc : c.trainIds.Pairwise (· < ·)) (h64 : ∀ t ∈ c.trainIds, t < 2 ^ 64)
    (hi : ∀ s ∈ c.instrumentSources, NameLine s) (hc : ∀ s ∈ c.controlSources, NameLine s)
    {text : Str} (h : c.printInfo pick = .ok text) :
    ∃ (first last : Nat) (duration : Str) (names : List Str) (nd : Nat) (mods inst ctl : List Str),
      splitCh '\n' text =
        [ch! "# of trains:    " ++ natStr c.trainIds.length, ch! "Duration:       " ++ duration,
          ch! "First train ID: " ++ natStr first, ch! "Last train ID:  " ++ natStr last, [],
          natStr nd ++ ch! " detector modules (" ++ joinCh ',' names ++ ch! ")"] ++ mods ++
        [[], natStr (inst.length) ++ ch! " instrument sources (excluding detectors):"] ++
          inst.map (fun s => ch! "  - " ++ s) ++
        [[], natStr c.controlSources.length ++ ch! " control sources:"] ++ ctl.map (fun s => ch! "  - " ++ s) ++ [[], []] ∧
      (first ∈ c.trainIds ∧ ∀ t ∈ c.trainIds, first ≤ t) ∧ (last ∈ c.trainIds ∧ ∀ t ∈ c.trainIds, t ≤ last) ∧
      DurationSays duration (last - first) ∧
      nd + inst.length = c.instrumentSources.length ∧
      (∀ n, n ∈ names ↔ ∃ s ∈ c.instrumentSources, ∃ k, detectorMatch s = some (n, k)) ∧ names.Nodup ∧
      (∀ s, s ∈ inst ↔ s ∈ c.instrumentSources ∧ ¬ DetectorName s) ∧ inst.Pairwise (· ≤ ·) ∧
      ctl.Perm c.controlSources ∧ ctl.Pairwise (· ≤ ·) ∧
      ((∀ s ∈ c.instrumentSources, ¬ DetectorName s) ∧ mods = [] ∨
        ∃ name modno s h w fpt total, s ∈ c.instrumentSources ∧ detectorMatch s = some (name, modno) ∧
          (∀ s' ∈ c.instrumentSources, ∀ m', detectorMatch s' = some m' → ¬ PairLt m' (name, modno)) ∧
          c.detectorInfo pick s = .ok (h, fpt, total) ∧
          (∀ a b, h = [a, b] → w = natStr a ++ ch! " x " ++ natStr b) ∧
          mods = [ch! "  e.g. module " ++ name ++ ch! " " ++ modno ++ ch! " : " ++ w ++ ch! " pixels", ch! "  " ++ s,
            ch! "  " ++ natStr fpt ++ ch! " frames per train, up to " ++ natStr total ++ ch! " frames total"]) := by
  unfold DC.printInfo at h
  split at h
  · cases h
  · next o ho =>
    obtain rfl := Except.ok.inj h
    have s := info_showable hinc h64 hi hc ho
    obtain ⟨h1, h2, h3, h4, hctl, hins, hinsp, hlen, hnames, -, hnd, hnone, hmod⟩ := info_exact hinc h64 ho
    refine ⟨o.first, o.last, durationText o.span, o.detectorNames, o.detectorSources, moduleLines o.module, o.instrument,
      o.control, ?_, h2, h3, ?_, hlen, hnames, hnd, hins, hinsp, hctl.1, hctl.2, ?_⟩
    · rw [splitCh_printLines (infoLines_nl s), ← h1, ← hctl.1.length_eq]
      simp only [infoLines, List.append_assoc, List.cons_append, List.nil_append, itemLine]
      rfl
    · have : o.last - o.first = o.span := by omega
      rw [this]; exact duration_says _
    · match hm : o.module with
      | none => exact .inl ⟨hnone.1 hm, rfl⟩
      | some ((name, modno), src, dims, fpt, total) =>
        obtain ⟨k1, k2, k3, k4⟩ := hmod _ _ _ hm
        refine .inr ⟨name, modno, src, dims, joinText ch! " x " (dims.map natStr), fpt, total, k1, k2, k4, k3, ?_, ?_⟩
        · rintro a b rfl; rfl
        · simp only [moduleLines, List.append_assoc]

/-- C156: when `info` fails, either nothing was printed: there are no trains, or they span 10^9 days; or the statistics of
the example module could not be read, and the lines before it were printed, with the first and last train as in the
collection. -/
theorem info_screen {c : DC V} {pick : List Nat → Nat} :
    (∀ text, c.infoScreen pick = (text, none) ↔ c.printInfo pick = .ok text) ∧
    ∀ text e, c.infoScreen pick = (text, some e) → c.printInfo pick = .error e ∧
      ((text = [] ∧ (c.trainIds = [] ∧ e = .index ∨
          e = .overflow ∧ ∃ a ∈ c.trainIds, ∃ b ∈ c.trainIds, 864000000000000 ≤ trainSpan a b)) ∨
        ∃ first last names, c.trainIds.head? = some first ∧ c.trainIds.getLast? = some last ∧
          text = printLines [ch! "# of trains:    " ++ natStr c.trainIds.length,
            ch! "Duration:       " ++ durationText (trainSpan first last), ch! "First train ID: " ++ natStr first,
            ch! "Last train ID:  " ++ natStr last, [],
            natStr c.detectorSources.length ++ ch! " detector modules (" ++ joinCh ',' names ++ ch! ")"] ∧
          (∀ n, n ∈ names ↔ ∃ s ∈ c.instrumentSources, ∃ k, detectorMatch s = some (n, k)) ∧
          ∃ s ∈ c.instrumentSources, DetectorName s ∧ c.detectorInfo pick s = .error e) := by
  have hnth : ∀ {a}, nth c.trainIds 0 = .ok a → a ∈ c.trainIds := by
    intro a h
    match ht : c.trainIds with
    | [] => rw [ht] at h; simp [nth] at h
    | x :: l => rw [ht] at h; simp [nth] at h; simp [h]
  have hidx : ∀ {b}, pyIndex c.trainIds (-1) = .ok b → b ∈ c.trainIds := by
    intro b h
    obtain ⟨-, h⟩ := pyIndex_ok_iff.1 h
    exact List.mem_of_getElem? h
  have hhead : ∀ {a}, nth c.trainIds 0 = .ok a → c.trainIds.head? = some a := by
    intro a h
    match ht : c.trainIds with
    | [] => rw [ht] at h; simp [nth] at h
    | x :: l => rw [ht] at h; simp [nth] at h; simp [h]
  have hlast : ∀ {b}, pyIndex c.trainIds (-1) = .ok b → c.trainIds.getLast? = some b := by
    intro b h
    have hm := hidx h
    have hpos : 0 < c.trainIds.length := List.length_pos_of_mem hm
    obtain ⟨-, h⟩ := pyIndex_ok_iff.1 h
    have : fromEnd c.trainIds.length (-1) = ((c.trainIds.length - 1 : Nat) : Int) := by unfold fromEnd; split <;> omega
    rw [this] at h
    rw [List.getLast?_eq_getElem?]
    simpa using h
  have hboth : ∀ {e}, nth c.trainIds 0 = .error e ∨ pyIndex c.trainIds (-1) = .error e → c.trainIds = [] ∧ e = .index := by
    intro e h
    match ht : c.trainIds with
    | [] =>
      rw [ht] at h
      have e1 : nth ([] : List Nat) 0 = .error .index := by decide
      have e2 : pyIndex ([] : List Nat) (-1) = .error .index := by decide
      rw [e1, e2] at h
      rcases h with h | h <;> exact ⟨rfl, (Except.error.inj h).symm⟩
    | x :: l =>
      rw [ht] at h
      rcases h with h | h
      · simp [nth] at h
      · exfalso
        have : pyIndex (x :: l) (-1) = .ok ((x :: l)[(x :: l).length - 1]) := by
          rw [pyIndex_ok_iff]
          have : fromEnd (x :: l).length (-1) = (((x :: l).length - 1 : Nat) : Int) := by unfold fromEnd; split <;> simp at *
          rw [this]
          exact ⟨by simp, by simp⟩
        rw [this] at h
        simp at h
  match h1 : nth c.trainIds 0, h2 : pyIndex c.trainIds (-1) with
  | .error e, _ =>
    have hi : c.info pick = .error e := by unfold DC.info; rw [h1]
    have hp : c.printInfo pick = .error e := by unfold DC.printInfo; rw [hi]
    have hs : c.infoScreen pick = ([], some e) := by unfold DC.infoScreen DC.infoHead; rw [h1]
    refine ⟨fun text => by rw [hs, hp]; simp, fun text e' h => ?_⟩
    rw [hs] at h
    simp only [Prod.mk.injEq, Option.some.injEq] at h
    obtain ⟨rfl, rfl⟩ := h
    exact ⟨hp, .inl ⟨rfl, .inl (hboth (.inl h1))⟩⟩
  | .ok a, .error e =>
    have hi : c.info pick = .error e := by unfold DC.info; rw [h1, h2]
    have hp : c.printInfo pick = .error e := by unfold DC.printInfo; rw [hi]
    have hs : c.infoScreen pick = ([], some e) := by unfold DC.infoScreen DC.infoHead; rw [h1, h2]
    refine ⟨fun text => by rw [hs, hp]; simp, fun text e' h => ?_⟩
    rw [hs] at h
    simp only [Prod.mk.injEq, Option.some.injEq] at h
    obtain ⟨rfl, rfl⟩ := h
    exact ⟨hp, .inl ⟨rfl, .inl (hboth (.inr h2))⟩⟩
  | .ok a, .ok b =>
    by_cases hsp : 864000000000000 ≤ trainSpan a b
    · have hi : c.info pick = .error .overflow := by
        unfold DC.info; rw [h1, h2]; simp only
        split
        · rfl
        · omega
      have hp : c.printInfo pick = .error .overflow := by unfold DC.printInfo; rw [hi]
      have hs : c.infoScreen pick = ([], some .overflow) := by
        have : c.infoHead = .error .overflow := by
          unfold DC.infoHead; rw [h1, h2]; simp only
          split
          · rfl
          · omega
        unfold DC.infoScreen; rw [this]
      refine ⟨fun text => by rw [hs, hp]; simp, fun text e' h => ?_⟩
      rw [hs] at h
      simp only [Prod.mk.injEq, Option.some.injEq] at h
      obtain ⟨rfl, rfl⟩ := h
      exact ⟨hp, .inl ⟨rfl, .inr ⟨rfl, a, hnth h1, b, hidx h2, hsp⟩⟩⟩
    · have hs : c.infoScreen pick = match c.printInfo pick with
          | .error e => (printLines [ch! "# of trains:    " ++ natStr c.trainIds.length,
              ch! "Duration:       " ++ durationText (trainSpan a b), ch! "First train ID: " ++ natStr a,
              ch! "Last train ID:  " ++ natStr b, [],
              natStr c.detectorSources.length ++ ch! " detector modules (" ++
                joinCh ',' (((detectorModules c.detectorSources).map (fun x => x.1.1)).dedup.insertionSort (· ≤ ·)) ++ ch! ")"], some e)
          | .ok text => (text, none) := by
        unfold DC.infoScreen DC.infoHead; rw [h1, h2]; simp only
        split
        · next hx =>
          split at hx
          · omega
          · simp at hx
        · next hx =>
          split at hx
          · simp at hx
          · rw [← Except.ok.inj hx]
            cases c.printInfo pick <;> rfl
      rw [hs]
      match hp : c.printInfo pick with
      | .ok t => exact ⟨fun text => by simp, fun text e h => by simp at h⟩
      | .error e =>
        refine ⟨fun text => by simp, fun text e' h => ?_⟩
        simp only [Prod.mk.injEq, Option.some.injEq] at h
        obtain ⟨rfl, rfl⟩ := h
        refine ⟨rfl, .inr ⟨a, b, _, hhead h1, hlast h2, rfl, fun n => ?_, ?_⟩⟩
        · rw [(List.perm_insertionSort _ _).mem_iff, List.mem_dedup, List.mem_map]
          constructor
          · rintro ⟨⟨⟨n', k⟩, s⟩, hx, rfl⟩
            obtain ⟨hx1, hx2⟩ := mem_detectorModules.1 hx
            exact ⟨s, (mem_detectorSources.1 hx1).1, k, hx2⟩
          · rintro ⟨s, hx1, k, hx2⟩
            refine ⟨((n, k), s), mem_detectorModules.2 ⟨mem_detectorSources.2 ⟨hx1, ?_⟩, hx2⟩, rfl⟩
            by_contra hd
            rw [(detector_match s).1.2 hd] at hx2; simp at hx2
        · have hi : c.info pick = .error e := by
            unfold DC.printInfo at hp
            split at hp
            · next e' he => rw [he]; exact congrArg _ (Except.error.inj hp)
            · simp at hp
          unfold DC.info at hi
          rw [h1, h2] at hi
          simp only at hi
          split at hi
          · omega
          split at hi
          · next e' he =>
            obtain rfl := Except.error.inj hi
            unfold DC.infoModule at he
            split at he
            · simp at he
            · next m s hm =>
              split at he
              · next e'' hd =>
                obtain rfl := Except.error.inj he
                obtain ⟨k1, -⟩ := (leastModule_spec _).2 _ hm
                obtain ⟨k2, -⟩ := mem_detectorModules.1 k1
                obtain ⟨k3, k4⟩ := mem_detectorSources.1 k2
                exact ⟨s, k3, k4, hd⟩
              · simp at he
          · simp at hi

/-- A detector module whose index cannot be read: six lines are printed before the exception. -/
example : let c : DC Nat := { exDetData with files := exDetData.files.map (fun f => { f with file := { f.file with datasets := [] } }) }
    (c.infoScreen (fun l => l.headD 0)).2 = some .key ∧ splitCh '\n' (c.infoScreen (fun l => l.headD 0)).1 =
    [ch! "# of trains:    3", ch! "Duration:       0:00:00.200000", ch! "First train ID: 10", ch! "Last train ID:  12", [],
     ch! "2 detector modules (X_AGIPD1M-1)", []] := by decide +kernel

/-- Two modules of a detector and three trains. -/
example : ∃ text, exDetData.printInfo (fun l => l.headD 0) = .ok text ∧ splitCh '\n' text =
    [ch! "# of trains:    3", ch! "Duration:       0:00:00.200000", ch! "First train ID: 10", ch! "Last train ID:  12", [],
     ch! "2 detector modules (X_AGIPD1M-1)", ch! "  e.g. module X_AGIPD1M-1 0 : 2 x 2 pixels", ch! "  X_AGIPD1M-1/DET/0CH0:xtdf",
     ch! "  2 frames per train, up to 6 frames total", [], ch! "0 instrument sources (excluding detectors):", [],
     ch! "0 control sources:", [], []] := ⟨_, rfl, by decide +kernel⟩

/-- The conditions of `info_lines` and `info_text_injective` hold for it. -/
example : exDetData.trainIds.Pairwise (· < ·) ∧ (∀ t ∈ exDetData.trainIds, t < 2 ^ 64) ∧
    (∀ s ∈ exDetData.instrumentSources, '\n' ∉ s ∧ ',' ∉ s) ∧ (∀ s ∈ exDetData.controlSources, '\n' ∉ s ∧ ',' ∉ s) := by
  decide +kernel

end KD
