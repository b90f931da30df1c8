/- Properties C59 and C61: chunks of consecutive trains; which sources and modules a detector object has. -/
import Verif.Props.PulseSelection
import Verif.Props.Info
import Verif.Props.Glob
import Verif.Props.SelectData

set_option linter.unusedSimpArgs false

namespace KD
open Spec

variable {V : Type}

/-! ### C59 -/

/-- C59. The train IDs are cut into maximal runs of consecutive numbers. -/
theorem train_chunks_runs (l : List Nat) (h : l ≠ []) : RunsOf l (trainChunks l) := trainChunks_runs h

example : RunsOf [10, 11, 12, 20, 22, 23] [[10, 11, 12], [20], [22, 23]] :=
  train_chunks_runs [10, 11, 12, 20, 22, 23] (by simp)

/-- C59. There is only one way to do that. -/
theorem runs_unique {l : List Nat} : ∀ {r s : List (List Nat)}, RunsOf l r → RunsOf l s → r = s := by
  have step : ∀ {a : List Nat} {r : List (List Nat)} {l : List Nat}, RunsOf l (a :: r) → RunsOf (l.drop a.length) r := by
    intro a r l h
    refine ⟨?_, fun x hx => h.nonempty x (by simp [hx]), fun x hx => h.consecutive x (by simp [hx]), ?_⟩
    · rw [← h.all]; simp
    · intro i x y u v e1 e2
      exact h.maximal (i + 1) x y u v (by simpa using e1) (by simpa using e2)
  have first : ∀ {a b : List Nat} {r s : List (List Nat)} {l : List Nat}, RunsOf l (a :: r) → RunsOf l (b :: s) →
      b.length ≤ a.length := by
    intro a b r s l h h'
    by_contra hlt
    have hane := h.nonempty a (by simp)
    have halen : 0 < a.length := List.length_pos_of_ne_nil hane
    -- the element after a is in b, and follows the last one of a
    have hl1 : l = a ++ r.flatten := by rw [← h.all]; simp
    have hl2 : l = b ++ s.flatten := by rw [← h'.all]; simp
    have hb1 : b[a.length - 1]? = l[a.length - 1]? := by rw [hl2, List.getElem?_append_left (by omega)]
    have hb2 : b[a.length]? = l[a.length]? := by rw [hl2, List.getElem?_append_left (by omega)]
    have ha1 : l[a.length - 1]? = a.getLast? := by
      rw [hl1, List.getElem?_append_left (by omega), List.getLast?_eq_getElem?]
    cases r with
    | nil =>
      simp only [List.flatten_nil, List.append_nil] at hl1
      subst hl1
      have := congrArg List.length hl2
      simp at this
      omega
    | cons c r =>
      have hcne := h.nonempty c (by simp)
      obtain ⟨y, c', rfl⟩ := List.exists_cons_of_ne_nil hcne
      have ha2 : l[a.length]? = some y := by
        rw [hl1, List.getElem?_append_right (by omega)]
        simp
      obtain ⟨x, hx⟩ : ∃ x, a.getLast? = some x := by
        cases ha : a.getLast? with
        | none => simp at ha; exact absurd ha hane
        | some x => exact ⟨x, rfl⟩
      have e1 := h'.consecutive b (by simp) (a.length - 1) x y (by rw [hb1, ha1, hx])
        (by rw [show a.length - 1 + 1 = a.length by omega, hb2, ha2])
      exact h.maximal 0 a (y :: c') x y rfl rfl hx rfl e1
  intro r
  induction r generalizing l with
  | nil =>
    intro s h h'
    cases s with
    | nil => rfl
    | cons b s =>
      have e := h.all
      simp at e
      subst e
      have e' := h'.all
      have := h'.nonempty b (by simp)
      simp at e'
      exact absurd e'.1 this
  | cons a r ih =>
    intro s h h'
    cases s with
    | nil =>
      have e := h'.all
      simp at e
      subst e
      have e' := h.all
      have := h.nonempty a (by simp)
      simp at e'
      exact absurd e'.1 this
    | cons b s =>
      have hlen : a.length = b.length := Nat.le_antisymm (first h' h) (first h h')
      have hab : a = b := by
        have h1 := h.all
        have h2 := h'.all
        simp only [List.flatten_cons] at h1 h2
        exact List.append_inj_left (h1.trans h2.symm) hlen
      subst hab
      rw [ih (step h) (step h')]

/-! ### C61 -/

theorem moduleNumber_iff (name source : Str) (n : Nat) : moduleNumber name source = some n ↔ ModuleNo name source n := by
  have hsplit : startsWith source (name ++ ch! "/DET/") = true ↔ ∃ rest, source = name ++ rest ∧ startsWith rest (ch! "/DET/") = true := by
    unfold startsWith
    rw [List.isPrefixOf_iff_prefix]
    constructor
    · rintro ⟨r, rfl⟩
      refine ⟨ch! "/DET/" ++ r, by simp, ?_⟩
      rw [List.isPrefixOf_iff_prefix]
      exact ⟨r, rfl⟩
    · rintro ⟨rest, rfl, h⟩
      rw [List.isPrefixOf_iff_prefix] at h
      obtain ⟨r, rfl⟩ := h
      exact ⟨r, by simp⟩
  unfold moduleNumber ModuleNo
  constructor
  · intro h
    split at h
    · rename_i hs
      obtain ⟨rest, rfl, hr⟩ := hsplit.1 hs
      simp only at h
      have e : (name ++ rest).drop (name.length + 5) = rest.drop 5 := by simp [List.drop_append]
      rw [e] at h
      split at h
      · rename_i hd
        have hdet := (detHere_iff rest).1 ⟨hr, hd.1, hd.2⟩
        exact ⟨rest, _, rfl, hdet, by rw [← parseNat_eq]; exact (Option.some.inj h).symm⟩
      · simp at h
    · simp at h
  · rintro ⟨rest, digits, rfl, hdet, rfl⟩
    have hu := detHere_unique hdet
    rw [hu] at hdet
    obtain ⟨h1, h2, h3⟩ := (detHere_iff rest).2 hdet
    rw [if_pos (hsplit.2 ⟨rest, rfl, h1⟩)]
    have e : (name ++ rest).drop (name.length + 5) = rest.drop 5 := by simp [List.drop_append]
    simp only [e]
    rw [if_pos ⟨h2, h3⟩, parseNat_eq, ← hu]

/-- The module numbers wanted include `n`. -/
def Spec.Wanted (modules : Option (List Nat)) (n : Nat) : Prop := ∀ ms, modules = some ms → n ∈ ms

theorem wantedModule_iff (name : Str) (modules : Option (List Nat)) (source : Str) (x : Str × Nat) :
    wantedModule name modules source = some x ↔ x.1 = source ∧ ModuleNo name source x.2 ∧ Wanted modules x.2 := by
  unfold wantedModule Wanted
  rw [← moduleNumber_iff]
  cases h : moduleNumber name source with
  | none => simp
  | some n =>
    cases modules with
    | none =>
      simp only [Option.some.injEq, reduceCtorEq, false_implies, implies_true, and_true]
      constructor
      · rintro rfl; exact ⟨rfl, rfl⟩
      · rintro ⟨rfl, rfl⟩; rfl
    | some ms =>
      simp only [Option.some.injEq, forall_eq']
      split
      · rename_i hm
        simp only [Option.some.injEq]
        constructor
        · rintro rfl; exact ⟨rfl, rfl, hm⟩
        · rintro ⟨rfl, rfl, _⟩; rfl
      · rename_i hm
        simp only [reduceCtorEq, false_iff]
        rintro ⟨_, rfl, h2⟩
        exact hm h2

/-- C61. The sources of the detector: those instrument sources named after it whose module number is wanted; SourceNameError
if there are none. -/
theorem identify_sources (c : DC V) (name : Str) (modules : Option (List Nat)) :
    (identifySources c name modules = .error .sourceName ↔
      ∀ source ∈ c.instrumentSources, ∀ n, ModuleNo name source n → ¬ Wanted modules n) ∧
    (∀ e, identifySources c name modules = .error e → e = .sourceName) ∧
    ∀ d, identifySources c name modules = .ok d → ∀ source n,
      (source, n) ∈ d ↔ source ∈ c.instrumentSources ∧ ModuleNo name source n ∧ Wanted modules n := by
  unfold identifySources
  have hmem : ∀ x, x ∈ c.instrumentSources.filterMap (wantedModule name modules) ↔
      x.1 ∈ c.instrumentSources ∧ ModuleNo name x.1 x.2 ∧ Wanted modules x.2 := by
    intro x
    rw [List.mem_filterMap]
    constructor
    · rintro ⟨s, hs, hx⟩
      obtain ⟨rfl, h1⟩ := (wantedModule_iff _ _ _ _).1 hx
      exact ⟨hs, h1⟩
    · rintro ⟨h1, h2⟩
      exact ⟨x.1, h1, (wantedModule_iff _ _ _ _).2 ⟨rfl, h2⟩⟩
  split
  · rename_i hnil
    rw [hnil] at hmem
    refine ⟨⟨fun _ s hs n h1 h2 => ?_, fun _ => rfl⟩, fun e he => (Except.error.inj he).symm, fun d hd => by simp at hd⟩
    have := (hmem (s, n)).2 ⟨hs, h1, h2⟩
    simp at this
  · rename_i l hne
    refine ⟨⟨fun h => by simp at h, fun h => ?_⟩, fun e he => by simp at he, fun d hd => ?_⟩
    · exfalso
      apply hne
      rw [List.eq_nil_iff_forall_not_mem]
      intro x hx
      obtain ⟨h1, h2, h3⟩ := (hmem x).1 hx
      exact h x.1 h1 x.2 h2 h3
    · obtain rfl := Except.ok.inj hd
      intro s n
      exact hmem (s, n)

theorem set_length {K W : Type} [DecidableEq K] (d : Dict K W) (k : K) (v : W) :
    (d.set k v).length = if k ∈ d.keys then d.length else d.length + 1 := by
  have h := congrArg List.length (Dict.keys_set d k v)
  have e : (d.set k v).keys.length = (d.set k v).length := by simp [Dict.keys]
  rw [e] at h
  rw [h]
  by_cases hk : k ∈ d.keys
  · rw [if_pos hk, if_pos hk]; simp [Dict.keys]
  · rw [if_neg hk, if_neg hk]; simp [Dict.keys]

theorem set_new {K W : Type} [DecidableEq K] {d : Dict K W} {k : K} (h : k ∉ d.keys) (v : W) : d.set k v = d ++ [(k, v)] := by
  induction d with
  | nil => rfl
  | cons x d ih =>
    obtain ⟨k', v'⟩ := x
    simp only [Dict.keys, List.map_cons, List.mem_cons, not_or] at h
    simp only [Dict.set]
    rw [if_neg (fun hc => h.1 hc.symm), ih h.2]
    rfl

theorem invert_foldl_length (l : Dict Str Nat) : ∀ r : Dict Nat Str,
    (l.foldl (fun r x => r.set x.2 x.1) r).length ≤ r.length + l.length := by
  induction l with
  | nil => intro r; simp
  | cons x l ih =>
    intro r
    rw [List.foldl_cons]
    have h1 := ih (r.set x.2 x.1)
    have h2 := set_length r x.2 x.1
    rw [List.length_cons]
    split at h2 <;> omega

theorem invert_foldl_full (l : Dict Str Nat) : ∀ r : Dict Nat Str,
    (l.foldl (fun r x => r.set x.2 x.1) r).length = r.length + l.length →
      (l.map Prod.snd).Nodup ∧ l.foldl (fun r x => r.set x.2 x.1) r = r ++ l.map (fun x => (x.2, x.1)) ∧
      ∀ x ∈ l, x.2 ∉ r.keys := by
  induction l with
  | nil => intro r _; simp
  | cons x l ih =>
    intro r h
    rw [List.foldl_cons] at h
    have h1 := invert_foldl_length l (r.set x.2 x.1)
    have h2 := set_length r x.2 x.1
    rw [List.length_cons] at h
    by_cases hk : x.2 ∈ r.keys
    · rw [if_pos hk] at h2
      omega
    · rw [if_neg hk] at h2
      obtain ⟨e1, e2, e3⟩ := ih (r.set x.2 x.1) (by omega)
      rw [set_new hk] at e3
      refine ⟨?_, ?_, ?_⟩
      · rw [List.map_cons, List.nodup_cons]
        refine ⟨?_, e1⟩
        intro hc
        rw [List.mem_map] at hc
        obtain ⟨y, hy, hyx⟩ := hc
        apply e3 y hy
        rw [hyx]
        simp [Dict.keys]
      · rw [List.foldl_cons, e2, set_new hk]
        simp
      · intro y hy
        simp only [List.mem_cons] at hy
        rcases hy with rfl | hy
        · exact hk
        · intro hc
          apply e3 y hy
          simp only [Dict.keys, List.map_append, List.mem_append] at hc ⊢
          exact Or.inl hc

theorem invertDict_full {d : Dict Str Nat} (h : (invertDict d).length = d.length) :
    (d.map Prod.snd).Nodup ∧ invertDict d = d.map (fun x => (x.2, x.1)) := by
  have := invert_foldl_full d [] (by unfold invertDict at h; simpa using h)
  exact ⟨this.1, by unfold invertDict; simpa using this.2.1⟩

theorem invert_foldl_nodup (l : Dict Str Nat) : ∀ r : Dict Nat Str, (r.keys ++ l.map Prod.snd).Nodup →
    (l.foldl (fun r x => r.set x.2 x.1) r).length = r.length + l.length := by
  induction l with
  | nil => intro r _; simp
  | cons x l ih =>
    intro r h
    have hk : x.2 ∉ r.keys := by
      intro hc
      rw [List.nodup_append] at h
      exact h.2.2 x.2 hc x.2 (by simp) rfl
    rw [List.foldl_cons, set_new hk, ih]
    · simp; omega
    · simp only [Dict.keys, List.map_append, List.map_cons, List.map_nil, List.append_assoc, List.singleton_append] at h ⊢
      exact h

theorem invertDict_length_iff (d : Dict Str Nat) : (invertDict d).length = d.length ↔ (d.map Prod.snd).Nodup := by
  constructor
  · intro h; exact (invertDict_full h).1
  · intro h
    have := invert_foldl_nodup d [] (by simpa [Dict.keys] using h)
    unfold invertDict
    simpa using this

theorem init_ok {kind : Option Str} {c : DC V} {name : Option Str} {modules : Option (List Nat)} {minModules : Int} {d : Det V}
    (h : Det.init kind c name modules minModules = .ok d) :
    (∀ n, name = some n → d.name = n) ∧ (name = none → findDetectorName kind c = .ok d.name) ∧
    identifySources c d.name modules = .ok d.sourceToModno ∧ (d.sourceToModno.map Prod.snd).Nodup ∧
    ∃ e sers, c.select (.globs (d.sourceToModno.map (fun x => (x.1, ch! "*")))) = .ok e ∧
      mapE (fun x : Str × Nat => e.getDataCounts x.1 (ch! "image.data")) d.sourceToModno = .ok sers ∧
      countValues sers = [d.framesPerTrain] ∧ trainsWithModules sers minModules ≠ [] ∧
      e.selectTrains (.idList ((trainsWithModules sers minModules).map Int.ofNat)) = .ok d.data := by
  unfold Det.init at h
  split at h
  · simp at h
  · rename_i n hn
    split at h
    · simp at h
    · rename_i s2m hs
      split at h
      · simp at h
      · rename_i e he
        split at h
        · simp at h
        · rename_i sers hsers
          split at h
          · simp at h
          · rename_i frames hfr
            simp only at h
            split at h
            · simp at h
            · rename_i htids
              split at h
              · simp at h
              · rename_i d' hd'
                split at h
                · simp at h
                · rename_i hlen
                  obtain rfl := Except.ok.inj h
                  refine ⟨?_, ?_, hs, ?_, e, sers, he, hsers, hfr, htids, hd'⟩
                  · rintro m rfl
                    simp only at hn
                    exact (Except.ok.inj hn).symm
                  · rintro rfl
                    exact hn
                  · rw [← invertDict_length_iff]
                    by_contra hc
                    exact hlen hc
          · simp at h

/-- C61. A detector object maps exactly the sources of the detector having a wanted module number, to that number. -/
theorem detector_sources {kind : Option Str} {c : DC V} {name : Option Str} {modules : Option (List Nat)} {minModules : Int}
    {d : Det V} (h : Det.init kind c name modules minModules = .ok d) (source : Str) (n : Nat) :
    (source, n) ∈ d.sourceToModno ↔ source ∈ c.instrumentSources ∧ ModuleNo d.name source n ∧ Wanted modules n :=
  (identify_sources c d.name modules).2.2 _ (init_ok h).2.2.1 source n

/-- C61. The map from module numbers to sources (used in the order of the numbers) is the inverse. -/
theorem detector_modules {kind : Option Str} {c : DC V} {name : Option Str} {modules : Option (List Nat)} {minModules : Int}
    {d : Det V} (h : Det.init kind c name modules minModules = .ok d) :
    (∀ source n, (n, source) ∈ d.modules ↔ (source, n) ∈ d.sourceToModno) ∧ (d.modules.map Prod.fst).Pairwise (· < ·) := by
  have hn := (init_ok h).2.2.2.1
  have hinv := (invertDict_full ((invertDict_length_iff _).2 hn)).2
  have hp := sortBy_perm Prod.fst (invertDict d.sourceToModno)
  have hmem : ∀ x, x ∈ d.modules ↔ (x.2, x.1) ∈ d.sourceToModno := by
    intro x
    unfold Det.modules
    rw [hp.mem_iff, hinv, List.mem_map]
    constructor
    · rintro ⟨y, hy, rfl⟩; exact hy
    · intro hx; exact ⟨_, hx, rfl⟩
  refine ⟨fun s n => hmem (n, s), ?_⟩
  have h1 : (d.modules.map Prod.fst).Pairwise (· ≤ ·) := by
    rw [List.pairwise_map]
    exact sortBy_pairwise Prod.fst _
  have h2 : (d.modules.map Prod.fst).Nodup := by
    unfold Det.modules
    rw [(hp.map Prod.fst).nodup_iff, hinv, List.map_map]
    exact hn
  exact (h1.and h2).imp (fun h => by omega)

/-- C61. Two sources with the same module number are refused. -/
theorem duplicate_module_refused {kind : Option Str} {c : DC V} {name : Str} {modules : Option (List Nat)} {minModules : Int}
    {s1 s2 : Str} {n : Nat} (hne : s1 ≠ s2) (h1 : s1 ∈ c.instrumentSources) (h2 : s2 ∈ c.instrumentSources)
    (m1 : ModuleNo name s1 n) (m2 : ModuleNo name s2 n) (hw : Wanted modules n) :
    ∀ d, Det.init kind c (some name) modules minModules ≠ .ok d := by
  intro d h
  have hname := (init_ok h).1 name rfl
  subst hname
  have e1 := (detector_sources h s1 n).2 ⟨h1, m1, hw⟩
  have e2 := (detector_sources h s2 n).2 ⟨h2, m2, hw⟩
  have hn := (init_ok h).2.2.2.1
  have := List.inj_on_of_nodup_map hn e1 e2 rfl
  exact hne (Prod.mk.inj this).1

theorem occursIn_iff (text s : Str) : occursIn text s = true ↔ ∃ before after, s = before ++ text ++ after := by
  induction s with
  | nil =>
    simp only [occursIn, List.isEmpty_iff]
    constructor
    · rintro rfl; exact ⟨[], [], rfl⟩
    · rintro ⟨b, a, h⟩
      have := List.nil_eq_append_iff.1 h
      exact (List.append_eq_nil_iff.1 this.1).2
  | cons c s ih =>
    simp only [occursIn, Bool.or_eq_true, ih]
    unfold startsWith
    rw [List.isPrefixOf_iff_prefix]
    constructor
    · rintro (⟨a, ha⟩ | ⟨b, a, rfl⟩)
      · exact ⟨[], a, by simpa using ha.symm⟩
      · exact ⟨c :: b, a, rfl⟩
    · rintro ⟨b, a, h⟩
      cases b with
      | nil => exact Or.inl ⟨a, by simpa using h.symm⟩
      | cons x b =>
        simp only [List.cons_append, List.cons.injEq] at h
        exact Or.inr ⟨b, a, h.2⟩

theorem detectorName_iff (kind : Option Str) (source name : Str) :
    detectorName kind source = some name ↔ DetectorOf kind source name := by
  have hm : ∀ d, (∃ n, detectorMatch source = some (d, n)) ↔ ∃ rest digits, source = d ++ rest ∧ DetHere rest digits ∧ d ≠ [] ∧
      ∀ name' rest' digits', source = name' ++ rest' → name' ≠ [] → DetHere rest' digits' → name'.length ≤ d.length := by
    intro d
    constructor
    · rintro ⟨n, hn⟩
      obtain ⟨h1, ⟨r, h2, h3⟩, h4⟩ := ((detector_match source).2 d n).1 hn
      exact ⟨r, n, h2, h3, h1, fun d' r' n' e1 e2 e3 => h4 d' n' r' e1 e2 e3⟩
    · rintro ⟨r, n, h2, h3, h1, h4⟩
      exact ⟨n, ((detector_match source).2 d n).2 ⟨h1, ⟨r, h2, h3⟩, fun d' n' r' e1 e2 e3 => h4 d' r' n' e1 e2 e3⟩⟩
  have hocc : ∀ text, name ≠ [] → (occursIn text (name.drop 1) = true ↔ ∃ before after, before ≠ [] ∧ name = before ++ text ++ after) := by
    intro text hne
    rw [occursIn_iff]
    obtain ⟨x, n, rfl⟩ := List.exists_cons_of_ne_nil hne
    simp only [List.drop_succ_cons, List.drop_zero]
    constructor
    · rintro ⟨b, a, rfl⟩; exact ⟨x :: b, a, by simp, rfl⟩
    · rintro ⟨b, a, hb, h⟩
      obtain ⟨y, b, rfl⟩ := List.exists_cons_of_ne_nil hb
      simp only [List.cons_append, List.cons.injEq] at h
      exact ⟨b, a, h.2⟩
  unfold DetectorOf
  rw [← hm name]
  unfold detectorName
  cases h : detectorMatch source with
  | none => simp
  | some x =>
    obtain ⟨d, n⟩ := x
    have hdne : d ≠ [] := (((detector_match source).2 d n).1 h).1
    cases kind with
    | none =>
      simp only [Option.some.injEq, Prod.mk.injEq, reduceCtorEq, false_implies, implies_true, and_true]
      constructor
      · rintro rfl; exact ⟨n, rfl, rfl⟩
      · rintro ⟨_, h1, _⟩; exact h1
    | some text =>
      simp only [Option.some.injEq, Prod.mk.injEq, forall_eq']
      split
      · rename_i ho
        simp only [Option.some.injEq]
        constructor
        · rintro rfl
          exact ⟨⟨n, rfl, rfl⟩, (hocc text hdne).1 ho⟩
        · rintro ⟨⟨_, h1, _⟩, _⟩; exact h1
      · rename_i ho
        simp only [reduceCtorEq, false_iff]
        rintro ⟨⟨_, h1, _⟩, h2⟩
        subst h1
        exact ho ((hocc text hdne).2 h2)

/-- C61. Without a name given, the detector is the only one of which there are sources; otherwise SourceNameError (there is
none) or ValueError (there are several). -/
theorem find_detector (kind : Option Str) (c : DC V) :
    (findDetectorName kind c = .error .sourceName ↔ ∀ s ∈ c.instrumentSources, ∀ n, ¬ DetectorOf kind s n) ∧
    (findDetectorName kind c = .error .value ↔
      ∃ s1 ∈ c.instrumentSources, ∃ s2 ∈ c.instrumentSources, ∃ n1 n2, DetectorOf kind s1 n1 ∧ DetectorOf kind s2 n2 ∧ n1 ≠ n2) ∧
    (∀ name, findDetectorName kind c = .ok name ↔ (∃ s ∈ c.instrumentSources, DetectorOf kind s name) ∧
      ∀ s ∈ c.instrumentSources, ∀ n, DetectorOf kind s n → n = name) := by
  have hmem : ∀ n, n ∈ (c.instrumentSources.filterMap (detectorName kind)).dedup ↔ ∃ s ∈ c.instrumentSources, DetectorOf kind s n := by
    intro n
    rw [List.mem_dedup, List.mem_filterMap]
    simp only [detectorName_iff]
  have hnd : (c.instrumentSources.filterMap (detectorName kind)).dedup.Nodup := List.nodup_dedup _
  unfold findDetectorName
  generalize (c.instrumentSources.filterMap (detectorName kind)).dedup = l at *
  match l with
  | [] =>
    simp only [List.not_mem_nil, false_iff, not_exists, not_and] at hmem
    refine ⟨⟨fun _ s hs n => hmem n s hs, fun _ => rfl⟩, ⟨fun h => by simp at h, ?_⟩, fun name => ⟨fun h => by simp at h, ?_⟩⟩
    · rintro ⟨s1, h1, _, _, n1, _, h2, _⟩; exact absurd h2 (hmem n1 s1 h1)
    · rintro ⟨⟨s, h1, h2⟩, _⟩; exact absurd h2 (hmem name s h1)
  | [n] =>
    simp only [List.mem_singleton] at hmem
    refine ⟨⟨fun h => by simp at h, fun h => ?_⟩, ⟨fun h => by simp at h, ?_⟩, fun name => ⟨fun h => ?_, ?_⟩⟩
    · obtain ⟨s, hs, hd⟩ := (hmem n).1 rfl
      exact absurd hd (h s hs n)
    · rintro ⟨s1, h1, s2, h2, n1, n2, h3, h4, hne⟩
      exact absurd (((hmem n1).2 ⟨s1, h1, h3⟩).trans ((hmem n2).2 ⟨s2, h2, h4⟩).symm) hne
    · obtain rfl := Except.ok.inj h
      exact ⟨(hmem n).1 rfl, fun s hs m hm => (hmem m).2 ⟨s, hs, hm⟩⟩
    · rintro ⟨⟨s, h1, h2⟩, _⟩
      rw [(hmem name).2 ⟨s, h1, h2⟩]
  | n :: m :: l =>
    have hne : n ≠ m := by
      rw [List.nodup_cons] at hnd
      intro hc
      exact hnd.1 (by simp [hc])
    obtain ⟨s1, h1, h3⟩ := (hmem n).1 (by simp)
    obtain ⟨s2, h2, h4⟩ := (hmem m).1 (by simp)
    refine ⟨⟨fun h => by simp at h, fun h => absurd h3 (h s1 h1 n)⟩,
      ⟨fun _ => ⟨s1, h1, s2, h2, n, m, h3, h4, hne⟩, fun _ => rfl⟩, fun name => ⟨fun h => by simp at h, ?_⟩⟩
    rintro ⟨_, h5⟩
    exact absurd ((h5 s1 h1 n h3).trans (h5 s2 h2 m h4).symm) hne

example : detectorName (some (ch! "_AGIPD1M")) (ch! "SPB_DET_AGIPD1M-1/DET/7CH0:xtdf") = some (ch! "SPB_DET_AGIPD1M-1") ∧
    detectorName (some (ch! "_LPD1M")) (ch! "SPB_DET_AGIPD1M-1/DET/7CH0:xtdf") = none ∧
    moduleNumber (ch! "SPB_DET_AGIPD1M-1") (ch! "SPB_DET_AGIPD1M-1/DET/07CH0:xtdf") = some 7 := ⟨by decide, by decide, by decide⟩

end KD
