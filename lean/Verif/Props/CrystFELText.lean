/-
C154 The text of CrystFEL geometry files.
-/
import Verif.Spec.CrystFELText
import Verif.Props.CrystFEL
import Mathlib.Data.List.TakeWhile

set_option linter.unusedSimpArgs false
set_option linter.unusedSectionVars false

namespace KD

namespace Geo

open Spec (blank trim setting settings value meaning Clean NumberText Formats CleanOptions)

variable {K : Type} [Field K] [LinearOrder K] [IsStrictOrderedRing K] [FloorRing K]

/-! ### Single lines -/

/-- Text which can be a key. -/
def KeyText (s : Str) : Prop := ∀ c ∈ s, c ∉ ch! ";\n\t ="

theorem dropWhile_blank {s : Str} (h : ∀ c, s.head? = some c → blank c = false) : s.dropWhile blank = s := by
  cases s with
  | nil => rfl
  | cons c s => rw [List.dropWhile_cons_of_neg (by simp [h c rfl])]

theorem trim_pad {v : Str} (h1 : ∀ c, v.head? = some c → blank c = false) (h2 : ∀ c, v.getLast? = some c → blank c = false)
    {p q : Str} (hp : ∀ c ∈ p, blank c = true) (hq : ∀ c ∈ q, blank c = true) : trim (p ++ (v ++ q)) = v := by
  unfold trim
  rw [List.reverse_append, List.reverse_append, List.append_assoc, List.dropWhile_append_of_pos (by simpa using hq)]
  by_cases hv : v = []
  · subst hv
    have : (([] : Str).reverse ++ p.reverse).dropWhile blank = [] := by
      rw [List.dropWhile_eq_nil_iff]
      simpa using hp
    rw [this]
    rfl
  · have : (v.reverse ++ p.reverse).dropWhile blank = v.reverse ++ p.reverse := by
      apply dropWhile_blank
      intro c hc
      apply h2
      rw [List.head?_append_of_ne_nil _ (by simpa using hv), List.head?_reverse] at hc
      exact hc
    rw [this, List.reverse_append, List.reverse_reverse, List.reverse_reverse, List.dropWhile_append_of_pos (by simpa using hp)]
    exact dropWhile_blank h1

theorem takeWhile_stop {p : Char → Bool} {a b : Str} {c : Char} (ha : ∀ x ∈ a, p x = true) (hc : p c = false) :
    (a ++ c :: b).takeWhile p = a ∧ (a ++ c :: b).dropWhile p = c :: b := by
  constructor
  · rw [List.takeWhile_append_of_pos (by simpa using ha), List.takeWhile_cons_of_neg (by simp [hc]), List.append_nil]
  · rw [List.dropWhile_append_of_pos (by simpa using ha), List.dropWhile_cons_of_neg (by simp [hc])]

/-- A line which sets a value, with or without a comment. -/
theorem setting_setLine {key v tail : Str} (hk : KeyText key) (hv : Clean v) (ht : tail = [] ∨ ∃ t, tail = ch! " ;" ++ t) :
    setting (setLine key v ++ tail) = some (key, v) := by
  have hk' : ∀ c ∈ key, c ≠ ';' ∧ c ≠ '=' ∧ blank c = false := by
    intro c hc
    have := hk c hc
    simp only [List.mem_cons, List.not_mem_nil, or_false, not_or] at this
    exact ⟨this.1, this.2.2.2.2, by simp [blank, this]⟩
  obtain ⟨q, hq, hbody⟩ : ∃ q : Str, (∀ c ∈ q, blank c = true) ∧
      (setLine key v ++ tail).takeWhile (fun c => c ≠ ';') = key ++ (ch! " =" ++ (ch! " " ++ (v ++ q))) := by
    have hnc : ∀ c ∈ key ++ (ch! " =" ++ (ch! " " ++ v)), c ≠ ';' := by
      intro c hc
      simp only [List.mem_append, List.mem_cons, List.not_mem_nil, or_false] at hc
      rcases hc with hc | (rfl | rfl) | rfl | hc
      · exact (hk' c hc).1
      · decide
      · decide
      · decide
      · exact (hv.chars c hc).1
    have hline : setLine key v = key ++ (ch! " =" ++ (ch! " " ++ v)) := by simp [setLine]
    rcases ht with rfl | ⟨t, rfl⟩
    · refine ⟨[], by simp, ?_⟩
      rw [List.append_nil, hline, List.takeWhile_eq_self_iff.2 (by simpa using hnc)]
      simp
    · refine ⟨ch! " ", by simp [blank], ?_⟩
      have := (takeWhile_stop (p := fun c => c ≠ ';') (a := setLine key v ++ ch! " ") (b := t) (c := ';') (by
        intro x hx
        rw [hline] at hx
        rcases List.mem_append.1 hx with hx | hx
        · simpa using hnc x hx
        · simp only [List.mem_cons, List.not_mem_nil, or_false] at hx
          subst hx
          decide) (by decide)).1
      rw [show setLine key v ++ (ch! " ;" ++ t) = setLine key v ++ ch! " " ++ ';' :: t by simp, this, hline]
      simp
  unfold setting
  simp only
  rw [hbody]
  obtain ⟨t1, t2⟩ := takeWhile_stop (p := fun c => c ≠ '=') (a := key ++ ch! " ") (b := ch! " " ++ (v ++ q)) (c := '=') (by
    intro x hx
    rcases List.mem_append.1 hx with hx | hx
    · simpa using (hk' x hx).2.1
    · simp only [List.mem_cons, List.not_mem_nil, or_false] at hx
      subst hx
      decide) (by decide)
  rw [show key ++ (ch! " =" ++ (ch! " " ++ (v ++ q))) = key ++ ch! " " ++ '=' :: (ch! " " ++ (v ++ q)) by simp, t1, t2,
    if_pos (by simp)]
  congr 1
  refine Prod.ext ?_ ?_
  · have := trim_pad (v := key) (p := []) (q := ch! " ") (fun c hc => (hk' c (List.mem_of_mem_head? hc)).2.2)
      (fun c hc => (hk' c (List.mem_of_getLast? hc)).2.2) (by simp) (by simp [blank])
    simpa using this
  · exact trim_pad hv.first hv.last (by simp [blank]) hq

theorem setting_comment (s : Str) : setting (';' :: s) = none := by
  simp [setting]

theorem setting_nil : setting [] = none := rfl

/-! ### Texts which can be keys and values -/

theorem clean_of_key {s : Str} (h : KeyText s) : Clean s := by
  have h' : ∀ c ∈ s, c ≠ ';' ∧ c ≠ '\n' ∧ blank c = false := by
    intro c hc
    have := h c hc
    simp only [List.mem_cons, List.not_mem_nil, or_false, not_or] at this
    exact ⟨this.1, this.2.1, by simp [blank, this]⟩
  exact ⟨fun c hc => ⟨(h' c hc).1, (h' c hc).2.1⟩, fun c hc => (h' c (List.mem_of_mem_head? hc)).2.2,
    fun c hc => (h' c (List.mem_of_getLast? hc)).2.2⟩

theorem KeyText.append {a b : Str} (ha : KeyText a) (hb : KeyText b) : KeyText (a ++ b) := by
  intro c hc
  rcases List.mem_append.1 hc with hc | hc
  · exact ha c hc
  · exact hb c hc

theorem keyText_natStr (n : Nat) : KeyText (natStr n) := by
  intro c hc h
  have := natStr_digit hc
  simp only [List.mem_cons, List.not_mem_nil, or_false] at h
  rcases h with rfl | rfl | rfl | rfl | rfl <;> revert this <;> decide

theorem keyText_intStr (n : Int) : KeyText (intStr n) := by
  unfold intStr
  split
  · exact KeyText.append (a := ['-']) (by unfold KeyText; decide) (keyText_natStr _)
  · exact keyText_natStr _

theorem keyText_panelName (p a : Nat) : KeyText (panelName p a) := by
  unfold panelName
  exact (((show KeyText (ch! "p") by unfold KeyText; decide).append (keyText_natStr p)).append (by unfold KeyText; decide)).append
    (keyText_natStr a)

theorem keyText_joinCh {l : List Str} (h : ∀ s ∈ l, KeyText s) : KeyText (joinCh ',' l) := by
  induction l with
  | nil => intro c hc; simp [joinCh] at hc
  | cons a l ih =>
    cases l with
    | nil => exact h a (by simp)
    | cons b l =>
      unfold joinCh
      refine (h a (by simp)).append (KeyText.append (a := [',']) (by unfold KeyText; decide) (ih (fun s hs => h s (by simp [hs]))))

theorem keyText_number {s : Str} (h : NumberText s) : KeyText s := by
  intro c hc h'
  apply h c hc
  simp only [List.mem_cons, List.not_mem_nil, or_false] at h' ⊢
  tauto

theorem vecText_eq (F : NumFmt K) (v : Vec K) : vecText F v = value F (cfVec v) := by
  unfold vecText cfVec
  by_cases h : v.z ≠ 0
  · simp [if_pos h, value]
  · simp [if_neg h, value]

theorem clean_vec {F : NumFmt K} (hF : Formats F) (v : Vec K) : Clean (vecText F v) := by
  have hc : ∀ x, ∀ c ∈ F.signed x, c ≠ ';' ∧ c ≠ '\n' ∧ blank c = false := by
    intro x c hc
    have := hF.signed_text x c hc
    simp only [List.mem_cons, List.not_mem_nil, or_false, not_or] at this
    exact ⟨this.1, this.2.1, by simp [blank, this]⟩
  have hlit : ∀ c, c = 'x' ∨ c = ' ' ∨ c = 'y' ∨ c = 'z' → c ≠ ';' ∧ c ≠ '\n' := by
    rintro c (rfl | rfl | rfl | rfl) <;> decide
  have hfirst : ∀ (s : Str) c, (F.signed v.x ++ ('x' :: s)).head? = some c → blank c = false := by
    intro s c h
    cases hx : F.signed v.x with
    | nil =>
      rw [hx] at h
      simp only [List.nil_append, List.head?_cons, Option.some.injEq] at h
      subst h
      decide
    | cons d l =>
      rw [hx] at h
      simp only [List.cons_append, List.head?_cons, Option.some.injEq] at h
      subst h
      exact (hc v.x d (by simp [hx])).2.2
  unfold vecText
  simp only
  split
  · refine ⟨fun c h => ?_, fun c h => ?_, fun c h => ?_⟩
    · simp only [List.mem_append, List.mem_cons, List.not_mem_nil, or_false] at h
      have h' : c ∈ F.signed v.x ∨ c ∈ F.signed v.y ∨ c ∈ F.signed v.z ∨ (c = 'x' ∨ c = ' ' ∨ c = 'y' ∨ c = 'z') := by tauto
      rcases h' with h | h | h | h
      · exact ⟨(hc _ c h).1, (hc _ c h).2.1⟩
      · exact ⟨(hc _ c h).1, (hc _ c h).2.1⟩
      · exact ⟨(hc _ c h).1, (hc _ c h).2.1⟩
      · exact hlit c h
    · apply hfirst (' ' :: (F.signed v.y ++ ch! "y" ++ ch! " " ++ F.signed v.z ++ ch! "z")) c
      simpa using h
    · rw [List.getLast?_append_of_ne_nil _ (by simp)] at h
      simp only [List.getLast?_singleton, Option.some.injEq] at h
      subst h
      decide
  · refine ⟨fun c h => ?_, fun c h => ?_, fun c h => ?_⟩
    · simp only [List.mem_append, List.mem_cons, List.not_mem_nil, or_false] at h
      have h' : c ∈ F.signed v.x ∨ c ∈ F.signed v.y ∨ c ∈ F.signed v.z ∨ (c = 'x' ∨ c = ' ' ∨ c = 'y' ∨ c = 'z') := by tauto
      rcases h' with h | h | h | h
      · exact ⟨(hc _ c h).1, (hc _ c h).2.1⟩
      · exact ⟨(hc _ c h).1, (hc _ c h).2.1⟩
      · exact ⟨(hc _ c h).1, (hc _ c h).2.1⟩
      · exact hlit c h
    · apply hfirst (' ' :: (F.signed v.y ++ ch! "y")) c
      simpa using h
    · rw [List.getLast?_append_of_ne_nil _ (by simp)] at h
      simp only [List.getLast?_singleton, Option.some.injEq] at h
      subst h
      decide

/-! ### Lines with a meaning -/

/-- These lines of text mean these lines. -/
def Mean (F : NumFmt K) (ls : List Str) (cs : List (CfLine K)) : Prop :=
  (∀ l ∈ ls, '\n' ∉ l) ∧ ls.filterMap setting = cs.filterMap (meaning F)

theorem Mean.append {F : NumFmt K} {ls ls' : List Str} {cs cs' : List (CfLine K)} (h : Mean F ls cs) (h' : Mean F ls' cs') :
    Mean F (ls ++ ls') (cs ++ cs') := by
  refine ⟨fun l hl => ?_, ?_⟩
  · rcases List.mem_append.1 hl with hl | hl
    · exact h.1 l hl
    · exact h'.1 l hl
  · rw [List.filterMap_append, List.filterMap_append, h.2, h'.2]

theorem Mean.nil {F : NumFmt K} : Mean F [] [] := ⟨by simp, rfl⟩

theorem Mean.cons {F : NumFmt K} {l : Str} {ls : List Str} {cs cs' : List (CfLine K)} (h : Mean F [l] cs) (h' : Mean F ls cs') :
    Mean F (l :: ls) (cs ++ cs') := Mean.append h h'

theorem Mean.empty {F : NumFmt K} : Mean F [[]] [] := ⟨by simp, rfl⟩

theorem Mean.comment {F : NumFmt K} {s : Str} (h : '\n' ∉ s) : Mean F [';' :: s] [] := by
  refine ⟨by simpa using h, ?_⟩
  simp [setting_comment]

theorem Mean.comment' {F : NumFmt K} {s : Str} (h : '\n' ∉ s) : Mean F [';' :: s] [.comment] := by
  refine ⟨by simpa using h, ?_⟩
  simp [setting_comment, meaning]

theorem newline_setLine {key v : Str} (hk : KeyText key) (hv : Clean v) : '\n' ∉ setLine key v := by
  intro h
  simp only [setLine, List.mem_append, List.mem_cons, List.not_mem_nil, or_false] at h
  rcases h with (h | h) | h
  · exact hk _ h (by simp)
  · revert h; decide
  · exact (hv.chars _ h).2 rfl

theorem Mean.set {F : NumFmt K} {key v : Str} (hk : KeyText key) (hv : Clean v) {c : CfLine K} (hc : meaning F c = some (key, v))
    {tail : Str} (ht : tail = [] ∨ ∃ t, tail = ch! " ;" ++ t) (hn : '\n' ∉ tail) : Mean F [setLine key v ++ tail] [c] := by
  refine ⟨?_, ?_⟩
  · simp only [List.mem_singleton, forall_eq, List.mem_append, not_or]
    exact ⟨newline_setLine hk hv, hn⟩
  · simp [setting_setLine hk hv ht, hc]

theorem Mean.set' {F : NumFmt K} {key v : Str} (hk : KeyText key) (hv : Clean v) {c : CfLine K} (hc : meaning F c = some (key, v)) :
    Mean F [setLine key v] [c] := by
  have := Mean.set hk hv hc (tail := []) (Or.inl rfl) (by simp)
  rwa [List.append_nil] at this

theorem Mean.map {α : Type} {F : NumFmt K} {f : α → Str} {g : α → CfLine K} {l : List α} (h : ∀ x ∈ l, Mean F [f x] [g x]) :
    Mean F (l.map f) (l.map g) := by
  induction l with
  | nil => exact Mean.nil
  | cons x l ih => exact Mean.append (h x (by simp)) (ih (fun y hy => h y (by simp [hy])))

theorem Mean.flatMap {α : Type} {F : NumFmt K} {f : α → List Str} {g : α → List (CfLine K)} {l : List α} (h : ∀ x ∈ l, Mean F (f x) (g x)) :
    Mean F (l.flatMap f) (l.flatMap g) := by
  induction l with
  | nil => exact Mean.nil
  | cons x l ih => rw [List.flatMap_cons, List.flatMap_cons]; exact Mean.append (h x (by simp)) (ih (fun y hy => h y (by simp [hy])))

theorem splitOn_unlines {ls : List Str} (h : ∀ l ∈ ls, '\n' ∉ l) : (unlines ls).splitOn '\n' = ls ++ [[]] := by
  unfold List.splitOn
  induction ls with
  | nil => rfl
  | cons l ls ih =>
    have hl : ∀ x ∈ l, ¬ ((x == '\n') = true) := by
      intro x hx hc
      rw [beq_iff_eq] at hc
      subst hc
      exact h l (by simp) hx
    rw [show unlines (l :: ls) = l ++ '\n' :: unlines ls by simp [unlines],
      List.splitOnP_append_cons_of_forall_mem (by simpa using hl) '\n' (by simp), ih (fun x hx => h x (by simp [hx]))]
    rfl

theorem Mean.settings {F : NumFmt K} {ls : List Str} {cs : List (CfLine K)} (h : Mean F ls cs) :
    settings (unlines ls) = cs.filterMap (meaning F) := by
  unfold Spec.settings
  rw [splitOn_unlines h.1, List.filterMap_append, h.2]
  simp [setting_nil]

/-! ### The parts of the file -/

theorem keyLit {s : Str} (h : s.all (fun c => decide (c ∉ ch! ";\n\t =")) = true) : KeyText s := by
  intro c hc
  simpa using List.all_eq_true.1 h c hc

theorem option_mean {F : NumFmt K} (hF : Formats F) {key : Str} (hk : KeyText key) (x : Option K) :
    Mean F [optionText F key x] [optionLine key x] := by
  cases x with
  | none =>
    unfold optionText optionLine
    apply Mean.comment' (s := ' ' :: (key ++ ch! " = SET ME"))
    intro h
    rcases List.mem_cons.1 h with h | h
    · revert h; decide
    rcases List.mem_append.1 h with h | h
    · exact hk _ h (by simp)
    · revert h; decide
  | some x => exact Mean.set' hk (clean_of_key (keyText_number (hF.plain_text x))) rfl

theorem paths_mean {F : NumFmt K} {o : CfOptions K} (ho : CleanOptions o) :
    Mean F (pathsText o.dataPath o.maskPath) (.top (ch! "data") (.text o.dataPath) :: maskLine o.maskPath) := by
  unfold pathsText maskLine
  refine Mean.append (ls := [_]) (cs := [_]) (Mean.set (keyLit (by decide)) ho.data rfl (Or.inr ⟨[], rfl⟩) (by decide)) ?_
  cases hm : o.maskPath with
  | none => exact Mean.nil
  | some s =>
    simp only
    split
    · exact Mean.nil
    · exact Mean.set (keyLit (by decide)) (ho.mask s hm) rfl (Or.inr ⟨[], rfl⟩) (by decide)

theorem header_mean {F : NumFmt K} (hF : Formats F) {version : Str} (hv : '\n' ∉ version) {o : CfOptions K} (ho : CleanOptions o)
    (frame : Nat) (px : K) : Mean F (headerText F version o frame px) (headerLines o frame px) := by
  have h1 : Mean F
      [ch! "; AGIPD-1M geometry file written by karabo_data " ++ version,
       ch! "; You may need to edit this file to add:",
       ch! "; - data and mask locations in the file",
       ch! "; - mask_good & mask_bad values to interpret the mask",
       ch! "; - adu_per_eV & photon_energy",
       ch! "; - clen (detector distance)",
       ch! ";",
       ch! "; See: http://www.desy.de/~twhite/crystfel/manual-crystfel_geometry.html",
       []] [.comment] := by
    refine ⟨?_, ?_⟩
    · simp [hv]
    · simp only [List.cons_append, List.filterMap_cons, setting_comment, setting_nil, meaning]
      rfl
  have h2 : Mean F [setLine (ch! "dim" ++ natStr frame) (ch! "%")] [.top (ch! "dim" ++ natStr frame) (.text (ch! "%"))] :=
    Mean.set' ((keyLit (by decide)).append (keyText_natStr frame)) (clean_of_key (keyLit (by decide))) rfl
  have h3 : Mean F [setLine (ch! "res") (F.plain (1 / px)) ++ ch! " ; pixels per metre"] [.top (ch! "res") (.num (1 / px))] :=
    Mean.set (keyLit (by decide)) (clean_of_key (keyText_number (hF.plain_text _))) rfl (Or.inr ⟨ch! " pixels per metre", rfl⟩) (by decide)
  have c1 : Mean F [[], ch! "; Beam energy in eV"] [] := Mean.append (cs := []) (ls := [_]) Mean.empty (Mean.comment (by decide))
  have c2 : Mean F [[], ch! "; Camera length, aka detector distance"] [] :=
    Mean.append (cs := []) (ls := [_]) Mean.empty (Mean.comment (by decide))
  have c3 : Mean F [[], ch! "; Analogue Digital Units per eV"] [] :=
    Mean.append (cs := []) (ls := [_]) Mean.empty (Mean.comment (by decide))
  have o1 := option_mean hF (key := ch! "photon_energy") (keyLit (by decide)) o.photonEnergy
  have o2 := option_mean hF (key := ch! "clen") (keyLit (by decide)) o.clen
  have o3 := option_mean hF (key := ch! "adu_per_eV") (keyLit (by decide)) o.aduPerEv
  exact (h1.append (paths_mean ho)).append (h2.append (h3.append (c1.append (o1.append (c2.append (o2.append (c3.append o3)))))))

theorem rigid_mean {F : NumFmt K} (m t q : Nat) : Mean F (rigidText m t q) (rigidGroups m t q) := by
  have hname : ∀ {l : List (List Str)}, (∀ g ∈ l, ∀ s ∈ g, KeyText s) → ∀ pre, KeyText pre →
      Mean F (l.zipIdx.map (fun g => setLine (pre ++ natStr g.2) (joinCh ',' g.1)))
        (l.zipIdx.map (fun g => .top (pre ++ natStr g.2) (.text (joinCh ',' g.1)))) := by
    intro l hl pre hpre
    refine Mean.map (fun g hg => ?_)
    refine Mean.set' (hpre.append (keyText_natStr _)) (clean_of_key (keyText_joinCh ?_)) rfl
    exact hl g.1 (List.mem_of_getElem? (List.mem_zipIdx_iff_getElem?.1 hg))
  have hsplit : ∀ k, ∀ g ∈ arraySplit ((List.range m).flatMap (fun p => (List.range t).map (fun a => panelName p a))) k,
      ∀ s ∈ g, KeyText s := by
    intro k g hg s hs
    unfold arraySplit at hg
    obtain ⟨i, -, rfl⟩ := List.mem_map.1 hg
    have := List.mem_of_mem_drop (List.mem_of_mem_take hs)
    obtain ⟨p, -, hp⟩ := List.mem_flatMap.1 this
    obtain ⟨a, -, rfl⟩ := List.mem_map.1 hp
    exact keyText_panelName p a
  have hlist : ∀ (c : Str) n, KeyText c → KeyText (joinCh ',' ((List.range n).map (fun i => c ++ natStr i))) := by
    intro c n hc
    apply keyText_joinCh
    intro s hs
    obtain ⟨i, -, rfl⟩ := List.mem_map.1 hs
    exact hc.append (keyText_natStr i)
  have q1 := hname (hsplit q) (ch! "rigid_group_q") (keyLit (by decide))
  have q2 := hname (hsplit m) (ch! "rigid_group_p") (keyLit (by decide))
  have q3 : Mean F [setLine (ch! "rigid_group_collection_quadrants") (joinCh ',' ((List.range q).map (fun q => ch! "q" ++ natStr q)))]
      [.top (ch! "rigid_group_collection_quadrants") (.text (joinCh ',' ((List.range q).map (fun q => ch! "q" ++ natStr q))))] :=
    Mean.set' (keyLit (by decide)) (clean_of_key (hlist (ch! "q") q (keyLit (by decide)))) rfl
  have q4 : Mean F [setLine (ch! "rigid_group_collection_asics") (joinCh ',' ((List.range m).map (fun p => ch! "p" ++ natStr p)))]
      [.top (ch! "rigid_group_collection_asics") (.text (joinCh ',' ((List.range m).map (fun p => ch! "p" ++ natStr p))))] :=
    Mean.set' (keyLit (by decide)) (clean_of_key (hlist (ch! "p") m (keyLit (by decide)))) rfl
  have := (((Mean.empty.append q1).append Mean.empty).append q2).append (Mean.empty.append (q3.append (q4.append Mean.empty)))
  simpa [rigidText, rigidGroups] using this

theorem clean_dim {F : NumFmt K} {p : Nat} {d : DimName} (hd : ∀ s, d = .name s → Clean s) :
    Clean (dimText p d) ∧ value F (dimValue p d : CfVal K) = dimText p d := by
  unfold dimText dimValue
  cases d with
  | name s =>
    simp only
    split
    · refine ⟨clean_of_key (keyText_natStr p), ?_⟩
      simp [value, intStr]
    · exact ⟨hd s rfl, rfl⟩
  | index n => exact ⟨clean_of_key (keyText_intStr n), rfl⟩

theorem panel_mean {F : NumFmt K} (hF : Formats F) (f : Frag K) (p a : Nat) (r : Region) {dims : List (Nat × DimName)}
    (hd : ∀ d ∈ dims, ∀ s, d.2 = .name s → Clean s) (px : K) : Mean F (panelText F f p a r dims px) (panelLines f p a r dims px) := by
  have hkey : ∀ {k : Str} {v : CfVal K} {t : Str}, KeyText k → Clean t → value F v = t →
      Mean F [setLine (panelName p a ++ '/' :: k) t] [.panel (panelName p a) k v] := by
    intro k v t hk ht hv
    refine Mean.set' ((keyText_panelName p a).append (KeyText.append (a := ['/']) (keyLit (by decide)) hk)) ht ?_
    simp [meaning, hv]
  have hdims : Mean F (dimsText (panelName p a) p dims) (dims.map (fun d => .panel (panelName p a) (ch! "dim" ++ natStr d.1) (dimValue p d.2))) := by
    unfold dimsText
    split
    next h => subst h; exact Mean.empty
    · refine Mean.map (fun d hdd => ?_)
      have := hkey (k := ch! "dim" ++ natStr d.1) (v := dimValue p d.2) ((keyLit (by decide)).append (keyText_natStr d.1))
        (clean_dim (F := F) (p := p) (hd d hdd)).1 (clean_dim (hd d hdd)).2
      simpa using this
  have hi : ∀ {k : Str} (n : Int), KeyText k → Mean F [setLine (panelName p a ++ '/' :: k) (intStr n)] [.panel (panelName p a) k (.int n)] :=
    fun n hk => hkey hk (clean_of_key (keyText_intStr n)) rfl
  have hv : ∀ {k : Str} (v : Vec K), KeyText k → Mean F [setLine (panelName p a ++ '/' :: k) (vecText F v)] [.panel (panelName p a) k (cfVec v)] :=
    fun v hk => hkey hk (clean_vec hF v) (vecText_eq F v).symm
  have hx : ∀ {k : Str} (x : K), KeyText k → Mean F [setLine (panelName p a ++ '/' :: k) (F.plain x)] [.panel (panelName p a) k (.num x)] :=
    fun x hk => hkey hk (clean_of_key (keyText_number (hF.plain_text x))) rfl
  have := (Mean.empty.append hdims).append
    ((hi (k := ch! "min_fs") r.x0 (keyLit (by decide))).append
    ((hi (k := ch! "min_ss") r.y0 (keyLit (by decide))).append
    ((hi (k := ch! "max_fs") ((r.x1 : Int) - 1) (keyLit (by decide))).append
    ((hi (k := ch! "max_ss") ((r.y1 : Int) - 1) (keyLit (by decide))).append
    ((hv (k := ch! "fs") (f.fs.div px) (keyLit (by decide))).append
    ((hv (k := ch! "ss") (f.ss.div px) (keyLit (by decide))).append
    ((hx (k := ch! "corner_x") (f.corner.div px).x (keyLit (by decide))).append
    ((hx (k := ch! "corner_y") (f.corner.div px).y (keyLit (by decide))).append
    (hx (k := ch! "coffset") (f.corner.div px).z (keyLit (by decide)))))))))))
  simpa [panelText, panelLines] using this

theorem splitDims_mem (dims : List DimName) : ∀ d ∈ (splitDims dims).2, d.2 ∈ dims := by
  induction dims using List.reverseRecOn with
  | nil => simp [splitDims]
  | append_singleton dims d ih =>
    rw [splitDims_concat]
    unfold dimStep
    intro x hx
    split at hx
    · exact List.mem_append_left _ (ih x hx)
    · rcases List.mem_append.1 hx with hx | hx
      · exact List.mem_append_left _ (ih x hx)
      · simp only [List.mem_singleton] at hx
        subst hx
        simp

/-! ### C154 -/

/-- C154. What the text of the file says, line by line in order, is what was to be written: the keys with their values, nothing else. -/
theorem crystfel_text (F : NumFmt K) (hF : Formats F) (version : Str) (hv : '\n' ∉ version) (g : Geom K) (o : CfOptions K)
    (ho : CleanOptions o) :
    (∀ e, g.crystfelText F version o = .error e ↔ g.writeCrystfel o = .error e) ∧
    ∀ file, g.writeCrystfel o = .ok file →
      ∃ text, g.crystfelText F version o = .ok text ∧ settings text = file.filterMap (meaning F) := by
  unfold Geom.crystfelText Geom.writeCrystfel
  cases (splitDims o.dims).1 with
  | none => simp
  | some frame =>
    refine ⟨fun e => by simp, fun file h => ?_⟩
    obtain rfl := Except.ok.inj h
    refine ⟨_, rfl, Mean.settings ?_⟩
    refine ((header_mean hF hv ho frame _).append (rigid_mean _ _ _)).append (Mean.flatMap (fun m _ => Mean.flatMap (fun t _ => ?_)))
    refine panel_mean hF _ _ _ _ (fun d hd s hs => ho.dims s ?_) _
    rw [← hs]
    exact splitDims_mem o.dims d hd

theorem slash_panelName (p a : Nat) : '/' ∉ panelName p a := by
  have hn : ∀ n, '/' ∉ natStr n := fun n hc => absurd (natStr_digit hc) (by decide)
  unfold panelName
  simp [hn]

theorem cut_unique {c : Char} {a b r s : Str} (ha : c ∉ a) (hb : c ∉ b) (h : a ++ c :: r = b ++ c :: s) : a = b ∧ r = s := by
  induction a generalizing b with
  | nil =>
    cases b with
    | nil => exact ⟨rfl, by simpa using h⟩
    | cons y b =>
      simp only [List.nil_append, List.cons_append, List.cons.injEq] at h
      exact absurd (by simp [h.1]) hb
  | cons x a ih =>
    cases b with
    | nil =>
      simp only [List.nil_append, List.cons_append, List.cons.injEq] at h
      exact absurd (by simp [h.1]) ha
    | cons y b =>
      simp only [List.cons_append, List.cons.injEq] at h
      obtain ⟨h1, h2⟩ := ih (fun h => ha (by simp [h])) (fun h => hb (by simp [h])) h.2
      exact ⟨by rw [h.1, h1], h2⟩

theorem slash_top {g : Geom K} {o : CfOptions K} {file : List (CfLine K)} (h : g.writeCrystfel o = .ok file) {k : Str} {v : CfVal K}
    (hk : .top k v ∈ file) : '/' ∉ k := by
  have hn : ∀ n, '/' ∉ natStr n := fun n hc => absurd (natStr_digit hc) (by decide)
  unfold Geom.writeCrystfel at h
  split at h
  · simp at h
  · obtain rfl := Except.ok.inj h
    simp only [List.mem_append] at hk
    rcases hk with (hk | hk) | hk
    · unfold headerLines at hk
      simp only [List.mem_append, List.mem_cons, List.not_mem_nil, or_false, reduceCtorEq, false_or, CfLine.top.injEq] at hk
      rcases hk with (hk | hk) | hk | hk | hk | hk | hk
      · rw [hk.1]; decide
      · unfold maskLine at hk
        split at hk
        · simp at hk
        · split at hk
          · simp at hk
          · simp only [List.mem_singleton, CfLine.top.injEq] at hk
            rw [hk.1]; decide
      · rw [hk.1]; simp [hn]
      · rw [hk.1]; decide
      all_goals
        unfold optionLine at hk
        split at hk
        · simp at hk
        · simp only [CfLine.top.injEq] at hk
          rw [hk.1]; decide
    · simp only [rigidGroups, List.mem_append, List.mem_map, List.mem_cons, List.not_mem_nil, or_false, CfLine.top.injEq] at hk
      rcases hk with (⟨x, -, rfl, -⟩ | ⟨x, -, rfl, -⟩) | hk | hk
      · simp [hn]
      · simp [hn]
      · rw [hk.1]; decide
      · rw [hk.1]; decide
    · simp only [List.mem_flatMap, moduleLines] at hk
      obtain ⟨m, -, t, -, hk⟩ := hk
      simp [panelLines] at hk

/-- The settings of a panel in the text are the lines of this panel. -/
theorem mem_settings {F : NumFmt K} {g : Geom K} {o : CfOptions K} {file : List (CfLine K)} (h : g.writeCrystfel o = .ok file) {p a : Nat}
    {k t : Str} : (panelName p a ++ '/' :: k, t) ∈ file.filterMap (meaning F) ↔ ∃ v, .panel (panelName p a) k v ∈ file ∧ t = value F v := by
  rw [List.mem_filterMap]
  constructor
  · rintro ⟨c, hc, hm⟩
    cases c with
    | comment => simp [meaning] at hm
    | top k' v =>
      simp only [meaning, Option.some.injEq, Prod.mk.injEq] at hm
      exact absurd (by rw [hm.1]; simp) (slash_top h hc)
    | panel n k' v =>
      simp only [meaning, Option.some.injEq, Prod.mk.injEq] at hm
      obtain ⟨p', a', f, -, rfl, -⟩ := (mem_file h).1 hc
      obtain ⟨e1, rfl⟩ := cut_unique (slash_panelName _ _) (slash_panelName _ _) hm.1
      rw [e1] at hc
      exact ⟨v, hc, hm.2.symm⟩
  · rintro ⟨v, hv, rfl⟩
    exact ⟨_, hv, rfl⟩

/-- C154. For every tile, the text has each value of its panel exactly once: pixel ranges, vectors and corner in units of pixels. -/
theorem crystfel_text_tile (F : NumFmt K) (hF : Formats F) (version : Str) (hv : '\n' ∉ version) (g : Geom K) (o : CfOptions K)
    (ho : CleanOptions o) (text : Str) (h : g.crystfelText F version o = .ok text) (p a : Nat) (f : Frag K) (hf : Spec.IsTile g p a f) (t : Str) :
    ((Spec.panel p a ++ ch! "/corner_x", t) ∈ settings text ↔ t = F.plain (f.corner.x / g.det.pixelSize)) ∧
    ((Spec.panel p a ++ ch! "/corner_y", t) ∈ settings text ↔ t = F.plain (f.corner.y / g.det.pixelSize)) ∧
    ((Spec.panel p a ++ ch! "/coffset", t) ∈ settings text ↔ t = F.plain (f.corner.z / g.det.pixelSize)) ∧
    ((Spec.panel p a ++ ch! "/fs", t) ∈ settings text ↔ t = vecText F (f.fs.div g.det.pixelSize)) ∧
    ((Spec.panel p a ++ ch! "/ss", t) ∈ settings text ↔ t = vecText F (f.ss.div g.det.pixelSize)) := by
  obtain ⟨h1, h2⟩ := crystfel_text F hF version hv g o ho
  cases hw : g.writeCrystfel o with
  | error e => rw [(h1 e).2 hw] at h; simp at h
  | ok file =>
    obtain ⟨text', ht', hs⟩ := h2 file hw
    rw [h] at ht'
    obtain rfl := Except.ok.inj ht'
    have key : ∀ {k : Str} {v : CfVal K}, (k, v) ∈ fixedLines f (cfRegion g.det o.dims p a) g.det.pixelSize →
        ((Spec.panel p a ++ '/' :: k, t) ∈ settings text ↔ t = value F v) := by
      intro k v hk
      rw [hs, ← panelName_eq, mem_settings hw]
      obtain ⟨s1, s2⟩ := says_fixed hw hf hk
      constructor
      · rintro ⟨v', hv', rfl⟩
        rw [s2 v' hv']
      · rintro rfl
        exact ⟨v, s1, rfl⟩
    have c1 := key (k := ch! "corner_x") (v := .num (f.corner.div g.det.pixelSize).x) (by simp [fixedLines])
    have c2 := key (k := ch! "corner_y") (v := .num (f.corner.div g.det.pixelSize).y) (by simp [fixedLines])
    have c3 := key (k := ch! "coffset") (v := .num (f.corner.div g.det.pixelSize).z) (by simp [fixedLines])
    have c4 := key (k := ch! "fs") (v := cfVec (f.fs.div g.det.pixelSize)) (by simp [fixedLines])
    have c5 := key (k := ch! "ss") (v := cfVec (f.ss.div g.det.pixelSize)) (by simp [fixedLines])
    rw [← vecText_eq] at c4 c5
    exact ⟨c1, c2, c3, c4, c5⟩

/-- Different vectors have different texts. -/
theorem vecText_inj {F : NumFmt K} (hF : Formats F) {v w : Vec K} (h : vecText F v = vecText F w) : v = w := by
  have hn : ∀ x c, c ∈ ch! "xyz" → c ∉ F.signed x := by
    intro x c hc hm
    apply hF.signed_text x c hm
    simp only [List.mem_cons, List.not_mem_nil, or_false] at hc ⊢
    tauto
  have hform : ∀ u : Vec K, vecText F u = F.signed u.x ++ 'x' :: (' ' :: F.signed u.y ++ 'y' ::
      (if u.z ≠ 0 then ' ' :: (F.signed u.z ++ 'z' :: []) else [])) := by
    intro u
    unfold vecText
    by_cases hz : u.z ≠ 0
    · simp [if_pos hz]
    · simp [if_neg hz]
  rw [hform, hform] at h
  obtain ⟨e1, h⟩ := cut_unique (hn _ _ (by simp)) (hn _ _ (by simp)) h
  obtain ⟨e2, h⟩ := cut_unique (a := ' ' :: F.signed v.y) (b := ' ' :: F.signed w.y)
    (by simp [hn v.y 'y' (by simp)]) (by simp [hn w.y 'y' (by simp)]) h
  have ex := hF.signed_inj _ _ e1
  have ey := hF.signed_inj _ _ (List.cons.inj e2).2
  refine Vec.ext ex ey ?_
  by_cases hz : v.z ≠ 0
  · by_cases hz' : w.z ≠ 0
    · rw [if_pos hz, if_pos hz'] at h
      exact hF.signed_inj _ _ (cut_unique (hn _ _ (by simp)) (hn _ _ (by simp)) (List.cons.inj h).2).1
    · rw [if_pos hz, if_neg hz'] at h
      simp at h
  · by_cases hz' : w.z ≠ 0
    · rw [if_neg hz, if_pos hz'] at h
      simp at h
    · push Not at hz hz'
      rw [hz, hz']

/-- C154. The text has all there is to know: two geometries of one detector which are written as the same text are the same. -/
theorem crystfel_text_injective (F : NumFmt K) (hF : Formats F) (version : Str) (hv : '\n' ∉ version) (g g' : Geom K) (hd : g.det = g'.det)
    (hc : Spec.Complete g) (hc' : Spec.Complete g') (hr : Spec.RightSize g) (hr' : Spec.RightSize g') (o o' : CfOptions K)
    (ho : CleanOptions o) (ho' : CleanOptions o') (text : Str) (h : g.crystfelText F version o = .ok text)
    (h' : g'.crystfelText F version o' = .ok text) : g = g' := by
  have hp := pixelSize_ne (K := K) g.det
  have hdiv : ∀ x y : K, x / g.det.pixelSize = y / g.det.pixelSize → x = y := fun x y hxy => (div_left_inj' hp).1 hxy
  have hvec : ∀ v w : Vec K, v.div g.det.pixelSize = w.div g.det.pixelSize → v = w := by
    intro v w hvw
    simp only [Vec.div, Vec.mk.injEq] at hvw
    exact Vec.ext (hdiv _ _ hvw.1) (hdiv _ _ hvw.2.1) (hdiv _ _ hvw.2.2)
  have tile : ∀ p a f f', Spec.IsTile g p a f → Spec.IsTile g' p a f' → f = f' := by
    intro p a f f' hf hf'
    have t := crystfel_text_tile F hF version hv g o ho text h p a f hf
    have t' := crystfel_text_tile F hF version hv g' o' ho' text h' p a f' hf'
    rw [← hd] at t'
    have e1 := hdiv _ _ (hF.plain_inj _ _ ((t' _).1.1 ((t _).1.2 rfl)))
    have e2 := hdiv _ _ (hF.plain_inj _ _ ((t' _).2.1.1 ((t _).2.1.2 rfl)))
    have e3 := hdiv _ _ (hF.plain_inj _ _ ((t' _).2.2.1.1 ((t _).2.2.1.2 rfl)))
    have e4 := hvec _ _ (vecText_inj hF ((t' _).2.2.2.1.1 ((t _).2.2.2.1.2 rfl)))
    have e5 := hvec _ _ (vecText_inj hF ((t' _).2.2.2.2.1 ((t _).2.2.2.2.2 rfl)))
    obtain ⟨m, m1, m2⟩ := hf
    obtain ⟨m', m1', m2'⟩ := hf'
    obtain ⟨s1, s2⟩ := hr m (List.mem_of_getElem? m1) f (List.mem_of_getElem? m2)
    obtain ⟨s1', s2'⟩ := hr' m' (List.mem_of_getElem? m1') f' (List.mem_of_getElem? m2')
    rw [← hd] at s1' s2'
    obtain ⟨c, ss, fs, n, k⟩ := f
    obtain ⟨c', ss', fs', n', k'⟩ := f'
    simp only at e1 e2 e3 e4 e5 s1 s2 s1' s2'
    rw [Vec.ext e1 e2 e3, e4, e5, s1, s2, s1', s2']
  obtain ⟨d, ms⟩ := g
  obtain ⟨d', ms'⟩ := g'
  simp only at hd
  subst hd
  congr 1
  have hlen : ms.length = ms'.length := by rw [hc.1, hc'.1]
  refine List.ext_getElem hlen (fun p h1 h2 => ?_)
  have hlen2 : ms[p].length = ms'[p].length := by
    rw [hc.2 _ (List.getElem_mem h1), hc'.2 _ (List.getElem_mem h2)]
  refine List.ext_getElem hlen2 (fun a h3 h4 => ?_)
  exact tile p a _ _ ⟨ms[p], List.getElem?_eq_getElem h1, List.getElem?_eq_getElem h3⟩
    ⟨ms'[p], List.getElem?_eq_getElem h2, List.getElem?_eq_getElem h4⟩

/-- C154: why semicolons are excluded. A path with a semicolon is never what the text says. -/
theorem crystfel_semicolon_wrong (text k v : Str) (h : (k, v) ∈ settings text) : ';' ∉ v := by
  unfold Spec.settings at h
  obtain ⟨l, -, hl⟩ := List.mem_filterMap.1 h
  unfold Spec.setting at hl
  simp only at hl
  split at hl
  · simp only [Option.some.injEq, Prod.mk.injEq] at hl
    rw [← hl.2]
    intro hm
    unfold Spec.trim at hm
    have h1 := (List.dropWhile_sublist _).subset hm
    rw [List.mem_reverse] at h1
    have h2 := (List.dropWhile_sublist _).subset h1
    rw [List.mem_reverse] at h2
    have h3 := (List.dropWhile_sublist _).subset (List.mem_of_mem_drop h2)
    have := List.mem_takeWhile_imp h3
    simp at this
  · simp at hl

/-- A way to write numbers: as fractions, like `-3/2` and `+-3/2`. -/
def fracFmt : NumFmt ℚ := ⟨fun x => intStr x.num ++ '/' :: natStr x.den, fun x => '+' :: (intStr x.num ++ '/' :: natStr x.den)⟩

theorem intStr_injective {a b : Int} (h : intStr a = intStr b) : a = b := by
  have hm : ∀ n, '-' ∉ natStr n := fun n hc => absurd (natStr_digit hc) (by decide)
  unfold intStr at h
  by_cases ha : a < 0 <;> by_cases hb : b < 0
  · rw [if_pos ha, if_pos hb] at h
    have := natStr_inj (List.cons.inj h).2
    omega
  · rw [if_pos ha, if_neg hb] at h
    exact absurd (by rw [← h]; simp) (hm b.toNat)
  · rw [if_neg ha, if_pos hb] at h
    exact absurd (by rw [h]; simp) (hm a.toNat)
  · rw [if_neg ha, if_neg hb] at h
    have := natStr_inj h
    omega

theorem frac_chars (x : ℚ) {c : Char} (h : c ∈ intStr x.num ++ '/' :: natStr x.den) : c = '-' ∨ c = '/' ∨ c.isDigit = true := by
  rcases List.mem_append.1 h with h | h
  · unfold intStr at h
    split at h
    · rcases List.mem_cons.1 h with h | h
      · exact .inl h
      · exact .inr (.inr (natStr_digit h))
    · exact .inr (.inr (natStr_digit h))
  · rcases List.mem_cons.1 h with h | h
    · exact .inr (.inl h)
    · exact .inr (.inr (natStr_digit h))

theorem frac_text (x : ℚ) : NumberText (intStr x.num ++ '/' :: natStr x.den) := by
  intro c hc hm
  have h := frac_chars x hc
  simp only [List.mem_cons, List.not_mem_nil, or_false] at hm
  rcases hm with rfl | rfl | rfl | rfl | rfl | rfl | rfl | rfl <;> revert h <;> decide

theorem frac_inj {x y : ℚ} (h : intStr x.num ++ '/' :: natStr x.den = intStr y.num ++ '/' :: natStr y.den) : x = y := by
  have hs : ∀ z : Int, '/' ∉ intStr z := by
    intro z hz
    unfold intStr at hz
    split at hz
    · rcases List.mem_cons.1 hz with hz | hz
      · exact absurd hz (by decide)
      · exact absurd (natStr_digit hz) (by decide)
    · exact absurd (natStr_digit hz) (by decide)
  obtain ⟨e1, e2⟩ := cut_unique (hs _) (hs _) h
  exact Rat.ext (intStr_injective e1) (natStr_inj e2)

/-- Numbers can be written as is asked for. -/
theorem fracFmt_formats : Formats fracFmt := by
  refine ⟨frac_text, fun x c hc => ?_, fun x y h => frac_inj h, fun x y h => frac_inj (List.cons.inj h).2⟩
  rcases List.mem_cons.1 hc with rfl | hc
  · decide
  · exact frac_text x c hc

/-- There are geometries and options as in the theorems: the settings of their text are known, and its size is not 0. -/
example : ∃ g : Geom ℚ, Spec.Complete g ∧ Spec.RightSize g ∧ ∃ o : CfOptions ℚ, CleanOptions o ∧
    ∃ text, g.crystfelText fracFmt (ch! "1.0") o = .ok text ∧ (ch! "data", ch! "/entry/data") ∈ settings text := by
  obtain ⟨g, -, h1, h2, h3, -, h4⟩ := agipd_quads ([(-525, 625), (-550, -10), (520, -160), (542, 475)] : List (ℚ × ℚ)) (1 / 5000) 2 29 (by decide)
  have hclean : CleanOptions (⟨ch! "/entry/data", none, [.name (ch! "frame"), .name (ch! "ss"), .name (ch! "fs")], none, some 5, none⟩ :
      CfOptions ℚ) := by
    refine ⟨⟨by decide, by decide, by decide⟩, by simp, ?_⟩
    intro s hs
    simp only [List.mem_cons, DimName.name.injEq, List.not_mem_nil, or_false] at hs
    rcases hs with rfl | rfl | rfl <;> exact ⟨by decide, by decide, by decide⟩
  obtain ⟨file, hw⟩ := (crystfel_written g ⟨ch! "/entry/data", none, [.name (ch! "frame"), .name (ch! "ss"), .name (ch! "fs")], none, some 5, none⟩).2
    (by decide)
  obtain ⟨text, ht, hs⟩ := (crystfel_text fracFmt fracFmt_formats (ch! "1.0") (by decide) g _ hclean).2 file hw
  refine ⟨g, h2, h3, _, hclean, text, ht, ?_⟩
  rw [hs, List.mem_filterMap]
  exact ⟨_, (crystfel_header g _ file hw).2.1, rfl⟩

end Geo

end KD
