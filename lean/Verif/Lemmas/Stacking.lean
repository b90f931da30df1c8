/- Helper lemmas for stacking: numbers in names, the loop over the modules. -/
import Verif.Spec.Stacking
import Verif.Props.Info
import Verif.Lemmas.Writer

set_option linter.unusedSimpArgs false

namespace KD
open Spec

variable {V : Type}

/-! ### Numbers -/

theorem parseNat_append (d : Str) (c : Char) : parseNat (d ++ [c]) = 10 * parseNat d + (c.toNat - '0'.toNat) := by
  simp [parseNat]

theorem parseNat_eq (d : Str) : parseNat d = decimal d := by
  induction d using List.reverseRecOn with
  | nil => rfl
  | append_singleton d c ih =>
    rw [parseNat_append, ih]
    simp [decimal, Nat.ofDigits_cons, Nat.add_comm]

theorem digitGroupsAux_eq (s : Str) : ∀ cur : Str, (∀ c ∈ cur, c.isDigit = true) →
    digitGroupsAux cur s = ((cur ++ s).splitOnP (fun c => !c.isDigit)).filter (fun g => g ≠ []) := by
  induction s with
  | nil =>
    intro cur hcur
    rw [List.append_nil, List.splitOnP_eq_singleton (by simpa using hcur)]
    by_cases h : cur = [] <;> simp [digitGroupsAux, h]
  | cons c rest ih =>
    intro cur hcur
    simp only [digitGroupsAux]
    by_cases hc : c.isDigit = true
    · rw [if_pos hc, ih (cur ++ [c]) (by
        intro x hx
        rcases List.mem_append.1 hx with h | h
        · exact hcur x h
        · rw [List.mem_singleton] at h; exact h ▸ hc)]
      simp
    · rw [if_neg hc]
      have hc' : (!c.isDigit) = true := by simp [hc]
      rw [List.splitOnP_append_cons_of_forall_mem (by simpa using hcur) c hc']
      have h0 := ih [] (by simp)
      rw [List.nil_append] at h0
      by_cases h : cur = []
      · rw [if_pos h, h0, h]; simp
      · rw [if_neg h, h0, List.filter_cons_of_pos (by simpa using h)]

theorem deviceKey_eq (dev : Str) : deviceKey dev = numbersIn dev := by
  unfold deviceKey numbersIn
  rw [digitGroupsAux_eq dev [] (by simp), List.nil_append]
  congr 1
  funext d
  exact parseNat_eq d

/-! ### The module number -/

theorem searchDet_cons_pos {c : Char} {rest digits : Str} (h : DetHere (c :: rest) digits) :
    searchDet (c :: rest) = some digits := by
  have hu := detHere_unique h
  rw [hu] at h
  have := (detHere_iff _).2 h
  simp only [searchDet]
  rw [if_pos (by simpa using this), hu]

theorem searchDet_cons_neg {c : Char} {rest : Str} (h : ¬ ∃ digits, DetHere (c :: rest) digits) :
    searchDet (c :: rest) = searchDet rest := by
  simp only [searchDet]
  rw [if_neg]
  intro hc
  exact h ⟨_, (detHere_iff _).1 (by simpa using hc)⟩

theorem not_detHere_nil (digits : Str) : ¬ DetHere [] digits := by
  rintro ⟨-, -, t, h⟩
  simp at h

theorem searchDet_some {dev digits : Str} (h : searchDet dev = some digits) :
    ∃ before rest, dev = before ++ rest ∧ DetHere rest digits ∧
      ∀ before' rest' digits', dev = before' ++ rest' → DetHere rest' digits' → before.length ≤ before'.length := by
  induction dev with
  | nil => simp [searchDet] at h
  | cons c s ih =>
    by_cases hd : ∃ d, DetHere (c :: s) d
    · obtain ⟨d, hd⟩ := hd
      rw [searchDet_cons_pos hd] at h
      obtain rfl := Option.some.inj h
      exact ⟨[], c :: s, rfl, hd, fun _ _ _ _ _ => by simp⟩
    · rw [searchDet_cons_neg hd] at h
      obtain ⟨b, r, h1, h2, h3⟩ := ih h
      refine ⟨c :: b, r, by rw [h1]; rfl, h2, fun b' r' d' hb' hd' => ?_⟩
      cases b' with
      | nil =>
        exact absurd ⟨d', by rw [List.nil_append] at hb'; rw [hb']; exact hd'⟩ hd
      | cons x b' =>
        have : s = b' ++ r' := by simpa using (List.cons.inj hb').2
        simpa using h3 b' r' d' this hd'

theorem searchDet_none {dev : Str} (h : searchDet dev = none) :
    ∀ before rest digits, dev = before ++ rest → ¬ DetHere rest digits := by
  induction dev with
  | nil =>
    intro b r d hb
    have : r = [] := by
      have := List.append_eq_nil_iff.1 hb.symm
      exact this.2
    rw [this]; exact not_detHere_nil d
  | cons c s ih =>
    by_cases hd : ∃ d, DetHere (c :: s) d
    · obtain ⟨d, hd⟩ := hd
      rw [searchDet_cons_pos hd] at h
      simp at h
    · rw [searchDet_cons_neg hd] at h
      intro b r d hb
      cases b with
      | nil => intro hr; exact hd ⟨d, by rw [List.nil_append] at hb; rw [hb]; exact hr⟩
      | cons x b => exact ih h b r d (by simpa using (List.cons.inj hb).2)

theorem moduleOf_iff (dev : Str) (n : Nat) : ModuleOf dev n ↔ ∃ digits, searchDet dev = some digits ∧ n = parseNat digits := by
  constructor
  · rintro ⟨b, r, d, h1, h2, rfl, h4⟩
    cases hs : searchDet dev with
    | none => exact absurd h2 (searchDet_none hs b r d h1)
    | some d' =>
      obtain ⟨b', r', g1, g2, g3⟩ := searchDet_some hs
      have e1 := h4 b' r' d' g1 g2
      have e2 := g3 b r d h1 h2
      have hr : r = r' := by
        have e := h1.symm.trans g1
        exact (List.append_inj e (by omega)).2
      subst hr
      have : d = d' := (detHere_unique h2).trans (detHere_unique g2).symm
      exact ⟨d', rfl, by rw [parseNat_eq, this]⟩
  · rintro ⟨d, hs, rfl⟩
    obtain ⟨b, r, g1, g2, g3⟩ := searchDet_some hs
    exact ⟨b, r, d, g1, g2, parseNat_eq d, g3⟩

theorem moduleOf_unique {dev : Str} {n m : Nat} (h : ModuleOf dev n) (h' : ModuleOf dev m) : n = m := by
  obtain ⟨d, h1, rfl⟩ := (moduleOf_iff _ _).1 h
  obtain ⟨d', h2, rfl⟩ := (moduleOf_iff _ _).1 h'
  rw [h1] at h2
  rw [Option.some.inj h2]

/-! ### The loop over the modules -/

theorem mem_addTo {α : Type} [DecidableEq α] {x y : α} {l : List α} : y ∈ addTo x l ↔ y ∈ l ∨ y = x := by
  unfold addTo
  split
  · next h =>
    constructor
    · exact Or.inl
    · rintro (h' | rfl)
      · exact h'
      · exact h
  · simp

theorem nodup_addTo {α : Type} [DecidableEq α] {x : α} {l : List α} (h : l.Nodup) : (addTo x l).Nodup := by
  unfold addTo
  split
  · exact h
  · next hx => exact List.nodup_append.2 ⟨h, by simp, fun a ha b hb => by
      rw [List.mem_singleton] at hb; rintro rfl; exact hx (hb ▸ ha)⟩

/-- What the loop has collected. -/
structure CollectedOf (train : Dict Str (Dict Str (Arr V))) (data : Str) (c : Collected V) : Prop where
  dtypes : ∀ d, d ∈ c.dtypes ↔ ∃ a, Present train data a ∧ a.dtype = d
  dnodup : c.dtypes.Nodup
  shapes : ∀ s, s ∈ c.shapes ↔ ∃ a, Present train data a ∧ a.shape = s
  snodup : c.shapes.Nodup
  keys : c.mods.keys.Nodup
  mods : ∀ (n : Int) a, c.mods.get? n = some a ↔ ∃ m : Nat, n = m ∧ DataOf train data m a

theorem present_append {train : Dict Str (Dict Str (Arr V))} {data : Str} {x : Str × Dict Str (Arr V)} {a : Arr V} :
    Present (train ++ [x]) data a ↔ Present train data a ∨ x.2.get? data = some a := by
  constructor
  · rintro ⟨y, hy, h⟩
    rcases List.mem_append.1 hy with hy | hy
    · exact .inl ⟨y, hy, h⟩
    · rw [List.mem_singleton] at hy; exact .inr (hy ▸ h)
  · rintro (⟨y, hy, h⟩ | h)
    · exact ⟨y, List.mem_append_left _ hy, h⟩
    · exact ⟨x, by simp, h⟩

theorem dataOf_append {train : Dict Str (Dict Str (Arr V))} {data : Str} {x : Str × Dict Str (Arr V)} {a : Arr V} {n : Nat} :
    DataOf (train ++ [x]) data n a ↔
      (ModuleOf x.1 n ∧ x.2.get? data = some a) ∨ ((ModuleOf x.1 n → x.2.get? data = none) ∧ DataOf train data n a) := by
  constructor
  · rintro ⟨b, y, af, h1, h2, h3, h4⟩
    rcases List.eq_nil_or_concat af with rfl | ⟨af', z, rfl⟩
    · have := List.append_inj' h1 rfl
      obtain rfl : x = y := by simpa using this.2
      exact .inl ⟨h2, h3⟩
    · have h1' : train ++ [x] = (b ++ y :: af') ++ [z] := by rw [h1]; simp
      have := List.append_inj' h1' rfl
      obtain rfl : x = z := by simpa using this.2
      exact .inr ⟨h4 x (by simp), b, y, af', this.1, h2, h3, fun w hw => h4 w (by simp [hw])⟩
  · rintro (⟨h1, h2⟩ | ⟨h0, b, y, af, h1, h2, h3, h4⟩)
    · exact ⟨train, x, [], rfl, h1, h2, by simp⟩
    · refine ⟨b, y, af ++ [x], by rw [h1]; simp, h2, h3, fun w hw => ?_⟩
      rcases List.mem_append.1 hw with hw | hw
      · exact h4 w hw
      · rw [List.mem_singleton] at hw; exact hw ▸ h0

theorem collect_step {train : Dict Str (Dict Str (Arr V))} {data : Str} {c c' : Collected V} {x : Str × Dict Str (Arr V)}
    (hc : CollectedOf train data c) (h : collectModule data c x = .ok c') :
    (∃ n, ModuleOf x.1 n) ∧ CollectedOf (train ++ [x]) data c' := by
  unfold collectModule at h
  split at h
  · simp at h
  · next digits hd =>
    have hm : ModuleOf x.1 (parseNat digits) := (moduleOf_iff _ _).2 ⟨digits, hd, rfl⟩
    refine ⟨⟨_, hm⟩, ?_⟩
    split at h
    · next hx =>
      obtain rfl := Except.ok.inj h
      refine ⟨fun d => ?_, hc.dnodup, fun s => ?_, hc.snodup, hc.keys, fun n a => ?_⟩
      · simp [hc.dtypes, present_append, hx]
      · simp [hc.shapes, present_append, hx]
      · simp [hc.mods, dataOf_append, hx]
    · next a hx =>
      obtain rfl := Except.ok.inj h
      refine ⟨fun d => ?_, nodup_addTo hc.dnodup, fun s => ?_, nodup_addTo hc.snodup, Dict.nodup_set hc.keys _ _,
        fun n b => ?_⟩
      · rw [mem_addTo, hc.dtypes]
        constructor
        · rintro (⟨b, h1, h2⟩ | rfl)
          · exact ⟨b, present_append.2 (.inl h1), h2⟩
          · exact ⟨a, present_append.2 (.inr hx), rfl⟩
        · rintro ⟨b, h1, h2⟩
          rcases present_append.1 h1 with h1 | h1
          · exact .inl ⟨b, h1, h2⟩
          · rw [hx] at h1; rw [← Option.some.inj h1] at h2; exact .inr h2.symm
      · rw [mem_addTo, hc.shapes]
        constructor
        · rintro (⟨b, h1, h2⟩ | rfl)
          · exact ⟨b, present_append.2 (.inl h1), h2⟩
          · exact ⟨a, present_append.2 (.inr hx), rfl⟩
        · rintro ⟨b, h1, h2⟩
          rcases present_append.1 h1 with h1 | h1
          · exact .inl ⟨b, h1, h2⟩
          · rw [hx] at h1; rw [← Option.some.inj h1] at h2; exact .inr h2.symm
      · rw [Dict.get?_set]
        split
        · next hn =>
          constructor
          · intro he
            refine ⟨parseNat digits, hn.symm, dataOf_append.2 (.inl ⟨hm, ?_⟩)⟩
            rw [hx]; exact he
          · rintro ⟨m, rfl, hda⟩
            have hmm : parseNat digits = m := by exact_mod_cast hn
            rcases dataOf_append.1 hda with ⟨-, h2⟩ | ⟨h1, -⟩
            · rw [← hx]; exact h2
            · rw [hmm] at hm; rw [h1 hm] at hx; simp at hx
        · next hn =>
          rw [hc.mods]
          constructor
          · rintro ⟨m, rfl, hda⟩
            refine ⟨m, rfl, dataOf_append.2 (.inr ⟨fun h => ?_, hda⟩)⟩
            exact absurd (by exact_mod_cast moduleOf_unique hm h) hn
          · rintro ⟨m, rfl, hda⟩
            rcases dataOf_append.1 hda with ⟨h1, -⟩ | ⟨-, h2⟩
            · exact absurd (by exact_mod_cast moduleOf_unique hm h1) hn
            · exact ⟨m, rfl, h2⟩

theorem collect_ok {train : Dict Str (Dict Str (Arr V))} {data : Str} {c : Collected V}
    (h : foldE (collectModule data) ⟨[], [], []⟩ train = .ok c) :
    (∀ x ∈ train, ∃ n, ModuleOf x.1 n) ∧ CollectedOf train data c := by
  induction train using List.reverseRecOn generalizing c with
  | nil =>
    obtain rfl := Except.ok.inj h
    refine ⟨by simp, fun d => ?_, by simp, fun s => ?_, by simp, by simp [Dict.keys], fun n a => ?_⟩
    · simp [Present]
    · simp [Present]
    · simp [DataOf]
  | append_singleton train x ih =>
    obtain ⟨c1, h1, h2⟩ := foldE_append.1 h
    obtain ⟨i1, i2⟩ := ih h1
    have h2' : collectModule data c1 x = .ok c := by
      obtain ⟨c2, h3, h4⟩ := foldE_cons_ok.1 h2
      obtain rfl := Except.ok.inj h4
      exact h3
    obtain ⟨j1, j2⟩ := collect_step i2 h2'
    refine ⟨fun y hy => ?_, j2⟩
    rcases List.mem_append.1 hy with hy | hy
    · exact i1 y hy
    · rw [List.mem_singleton] at hy; exact hy ▸ j1

theorem collect_exists {data : Str} : ∀ (train : Dict Str (Dict Str (Arr V))) (c : Collected V),
    (∀ x ∈ train, ∃ n, ModuleOf x.1 n) → ∃ c', foldE (collectModule data) c train = .ok c' := by
  intro train
  induction train with
  | nil => intro c _; exact ⟨c, rfl⟩
  | cons x l ih =>
    intro c h
    obtain ⟨n, hn⟩ := h x (by simp)
    obtain ⟨d, hd, -⟩ := (moduleOf_iff _ _).1 hn
    have : ∃ c1, collectModule data c x = .ok c1 := by
      unfold collectModule
      rw [hd]
      simp only
      cases x.2.get? data <;> exact ⟨_, rfl⟩
    obtain ⟨c1, h1⟩ := this
    obtain ⟨c2, h2⟩ := ih c1 (fun y hy => h y (by simp [hy]))
    exact ⟨c2, foldE_cons_ok.2 ⟨c1, h1, h2⟩⟩

theorem collect_error {data : Str} {e : PyErr} : ∀ (train : Dict Str (Dict Str (Arr V))) (c : Collected V),
    foldE (collectModule data) c train = .error e → e = .value ∧ ¬ ∀ x ∈ train, ∃ n, ModuleOf x.1 n := by
  intro train c h
  constructor
  · induction train generalizing c with
    | nil => simp [foldE] at h
    | cons x l ih =>
      simp only [foldE] at h
      split at h
      · next e' he =>
        unfold collectModule at he
        split at he
        · exact (Except.error.inj h).symm.trans (Except.error.inj he).symm
        · split at he <;> simp at he
      · exact ih _ h
  · intro hall
    obtain ⟨c', h'⟩ := collect_exists train c hall
    rw [h] at h'
    simp at h'

end KD
