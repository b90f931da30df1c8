/-
C123: a printed geometry tells where everything is.
-/
import Verif.Spec.OldGeometryText
import Verif.Lemmas.Strings
import Mathlib.Data.Rat.Floor

namespace KD.Geo

open Spec

variable {K : Type}

theorem splitLines_join {ls : List Str} (h : ∀ l ∈ ls, '\n' ∉ l ∧ l ≠ []) : splitLines (joinCh '\n' ls) = ls := by
  unfold splitLines
  by_cases hne : ls = []
  · subst hne; simp [joinCh, splitCh]
  · rw [splitCh_joinCh hne (fun l hl => (h l hl).1)]
    dsimp only
    rw [if_neg]
    intro hl
    exact (h [] (List.mem_of_getLast? hl)).2 rfl

theorem indentLine_colon {l : Str} (h : ':' ∈ l) (pre : Str) : indentLine pre l = pre ++ l := by
  unfold indentLine
  rw [if_neg]
  intro ha
  have := List.all_eq_true.1 ha _ h
  revert this; decide

theorem indentText_join {ls : List Str} (h : ∀ l ∈ ls, '\n' ∉ l ∧ ':' ∈ l) :
    splitLines (indentText (ch! "  ") (joinCh '\n' ls)) = ls.map (fun l => ch! "  " ++ l) := by
  unfold indentText
  by_cases hne : ls = []
  · subst hne
    simp [joinCh, splitCh, indentLine, splitLines]
  · rw [splitCh_joinCh hne (fun l hl => (h l hl).1)]
    have e : ls.map (indentLine (ch! "  ")) = ls.map (fun l => ch! "  " ++ l) :=
      List.map_congr_left fun l hl => indentLine_colon (h l hl).2 _
    rw [e]
    refine splitLines_join ?_
    intro l hl
    obtain ⟨l', hl', rfl⟩ := List.mem_map.1 hl
    have := (h l' hl').1
    simpa using this

theorem oldStrParts_eq (txt : K × K → Str) (ch : List (Str × OldFrag K)) : oldStrParts txt ch = ch.map (fun c =>
    (c.1, (c.1 ++ ch! ": " ++ txt c.2.offset) :: splitLines (indentText (ch! "  ") (joinCh '\n' (c.2.strLines txt))))) := by
  induction ch with
  | nil => simp [oldStrParts]
  | cons c ch ih => simp [oldStrParts, ih]

/-- The children, sorted. -/
def oldSorted (ch : List (Str × OldFrag K)) : List (Str × OldFrag K) := ch.insertionSort (fun x y => x.1 ≤ y.1)

theorem strLines_eq (txt : K × K → Str) (o : K × K) (ch : List (Str × OldFrag K)) :
    (OldFrag.node o ch).strLines txt = (oldSorted ch).flatMap (fun c =>
      (c.1 ++ ch! ": " ++ txt c.2.offset) :: splitLines (indentText (ch! "  ") (joinCh '\n' (c.2.strLines txt)))) := by
  rw [OldFrag.strLines, oldStrParts_eq, oldSorted]
  have e := List.map_insertionSort (fun x y : Str × OldFrag K => x.1 ≤ y.1) (fun x y : Str × List Str => x.1 ≤ y.1)
    (fun c : Str × OldFrag K =>
      (c.1, (c.1 ++ ch! ": " ++ txt c.2.offset) :: splitLines (indentText (ch! "  ") (joinCh '\n' (c.2.strLines txt)))))
    ch (fun a _ b _ => Iff.rfl)
  rw [← e, List.flatMap_map]

theorem mem_oldSorted {ch : List (Str × OldFrag K)} {c : Str × OldFrag K} : c ∈ oldSorted ch ↔ c ∈ ch :=
  (List.perm_insertionSort _ _).mem_iff

theorem strLines_good {txt : K × K → Str} (ht : ∀ o, '\n' ∉ txt o) {f : OldFrag K} (hf : PlainNames f) :
    ∀ l ∈ f.strLines txt, '\n' ∉ l ∧ ':' ∈ l := by
  induction hf with
  | node o ch h hc ih =>
    intro l hl
    rw [strLines_eq] at hl
    obtain ⟨c, hcm, hl⟩ := List.mem_flatMap.1 hl
    have hcm := mem_oldSorted.1 hcm
    rcases List.mem_cons.1 hl with rfl | hl
    · have := (h c hcm).2.1
      have := ht c.2.offset
      simp_all
    · rw [indentText_join (ih c hcm)] at hl
      obtain ⟨l', hl', rfl⟩ := List.mem_map.1 hl
      have := ih c hcm l' hl'
      simpa using this

theorem indented_name {name rest : Str} (h : name.head? ≠ some ' ') : indented (name ++ ':' :: rest) = false := by
  cases name with
  | nil => rfl
  | cons a name =>
    have : a ≠ ' ' := by simpa using h
    unfold indented
    split
    · next h' => simp at h'; exact absurd h'.1 this
    · rfl

theorem readOutline_flatMap {α : Type} {nm tx : α → Str} {ls : α → List Str} (l : List α)
    (h : ∀ x ∈ l, ':' ∉ nm x ∧ (nm x).head? ≠ some ' ') :
    readOutline (l.flatMap (fun x => (nm x ++ ch! ": " ++ tx x) :: (ls x).map (fun t => ch! "  " ++ t))) =
      l.map (fun x => .item (nm x) (tx x) (readOutline (ls x))) := by
  induction l with
  | nil => simp [readOutline]
  | cons x l ih =>
    obtain ⟨hx, hx'⟩ := h x (by simp)
    have hp : ∀ a ∈ (ls x).map (fun t => ch! "  " ++ t), indented a = true := by
      intro a ha
      obtain ⟨t, -, rfl⟩ := List.mem_map.1 ha
      rfl
    have hrest : (l.flatMap (fun x => (nm x ++ ch! ": " ++ tx x) :: (ls x).map (fun t => ch! "  " ++ t))).takeWhile indented = [] ∧
        (l.flatMap (fun x => (nm x ++ ch! ": " ++ tx x) :: (ls x).map (fun t => ch! "  " ++ t))).dropWhile indented =
          l.flatMap (fun x => (nm x ++ ch! ": " ++ tx x) :: (ls x).map (fun t => ch! "  " ++ t)) := by
      cases l with
      | nil => simp
      | cons y l =>
        have hy : indented (nm y ++ ch! ": " ++ tx y) = false := by
          rw [List.append_assoc]
          exact indented_name (h y (by simp)).2
        rw [List.flatMap_cons, List.cons_append]
        exact ⟨List.takeWhile_cons_of_neg (by rw [hy]; simp), List.dropWhile_cons_of_neg (by rw [hy]; simp)⟩
    have hq : ∀ a ∈ nm x, decide (a ≠ ':') = true := by
      intro a ha
      simp only [decide_eq_true_eq]
      rintro rfl; exact hx ha
    have e1 : (nm x ++ ch! ": " ++ tx x).takeWhile (· ≠ ':') = nm x := by
      rw [List.append_assoc, List.takeWhile_append_of_pos hq]; simp
    have e2 : ((nm x ++ ch! ": " ++ tx x).dropWhile (· ≠ ':')).drop 2 = tx x := by
      rw [List.append_assoc, List.dropWhile_append_of_pos hq]; simp
    rw [List.flatMap_cons, List.cons_append, readOutline, e1, e2, List.takeWhile_append_of_pos hp, List.dropWhile_append_of_pos hp,
      hrest.1, hrest.2, ih (fun y hy => h y (by simp [hy]))]
    simp [Function.comp_def]

/-- Reading the lines of a fragment. -/
theorem readOutline_strLines {txt : K × K → Str} (ht : ∀ o, '\n' ∉ txt o) {o : K × K} {ch : List (Str × OldFrag K)}
    (hf : PlainNames (.node o ch)) :
    readOutline ((OldFrag.node o ch).strLines txt) =
      (oldSorted ch).map (fun c => .item c.1 (txt c.2.offset) (readOutline (c.2.strLines txt))) := by
  cases hf with
  | node _ _ h hc =>
  rw [strLines_eq, ← readOutline_flatMap (oldSorted ch) (fun c hc' => ⟨(h c (mem_oldSorted.1 hc')).1, (h c (mem_oldSorted.1 hc')).2.2⟩)]
  congr 1
  refine List.flatMap_congr fun c hc' => ?_
  rw [indentText_join (strLines_good ht (hc c (mem_oldSorted.1 hc')))]

theorem linesOf_str {txt : K × K → Str} (ht : ∀ o, '\n' ∉ txt o) {f : OldFrag K} (hf : PlainNames f) :
    linesOf (f.str txt) = f.strLines txt := by
  have hg := strLines_good ht hf
  unfold linesOf OldFrag.str
  cases hl : f.strLines txt with
  | nil => simp [joinCh]
  | cons a l =>
    rw [hl] at hg
    rw [splitCh_joinCh (by simp) (fun p hp => (hg p hp).1), if_neg]
    have ha : a ≠ [] := by rintro rfl; simpa using (hg [] (by simp)).2
    cases l with
    | nil => simpa [joinCh] using ha
    | cons b l => simp [joinCh]

theorem strLines_sorted {txt : K × K → Str} (ht : ∀ o, '\n' ∉ txt o) {f : OldFrag K} (hf : PlainNames f) (hd : IsDict f) :
    OutlineSorted (readOutline (f.strLines txt)) := by
  induction hf with
  | node o ch h hc ih =>
    cases hd with
    | node _ _ hnd hdc =>
    rw [readOutline_strLines ht (.node o ch h hc)]
    refine .mk _ ?_ ?_
    · rw [List.pairwise_map]
      have htr : IsTrans (Str × OldFrag K) (fun x y => x.1 ≤ y.1) := ⟨fun a b c h1 h2 => List.le_trans h1 h2⟩
      have hto : Std.Total (fun x y : Str × OldFrag K => x.1 ≤ y.1) := ⟨fun a b => List.le_total a.1 b.1⟩
      have h1 : (oldSorted ch).Pairwise (fun x y => x.1 ≤ y.1) := List.pairwise_insertionSort _ _
      have h2 : ((oldSorted ch).map Prod.fst).Nodup := ((List.perm_insertionSort _ _).map Prod.fst).nodup_iff.2 hnd
      rw [List.Nodup, List.pairwise_map] at h2
      refine (h1.and h2).imp ?_
      rintro a b ⟨h1, h2⟩
      rcases List.le_iff_lt_or_eq.1 h1 with h | h
      · exact h
      · exact absurd h h2
    · intro name text below hm
      obtain ⟨c, hcm, e⟩ := List.mem_map.1 hm
      injection e with e1 e2 e3
      subst e3
      have hcm := mem_oldSorted.1 hcm
      exact ih c hcm (hdc c hcm)

variable [Field K]

theorem strLines_listed {txt : K × K → Str} (ht : ∀ o, '\n' ∉ txt o) {f : OldFrag K} (hf : PlainNames f) (path : List Str) (t : Str) :
    Listed (readOutline (f.strLines txt)) path t ↔ path ≠ [] ∧ ∃ o ch x y, At f path (.node o ch) x y ∧ t = txt o := by
  induction hf generalizing path t with
  | node o ch h hc ih =>
    rw [readOutline_strLines ht (.node o ch h hc)]
    match path with
    | [] => simp [Listed]
    | [name] =>
      simp only [Listed, List.mem_map, Outline.item.injEq, ne_eq, List.cons_ne_nil, not_false_eq_true, true_and]
      constructor
      · rintro ⟨below, ⟨n, ⟨o', ch'⟩⟩, hcm, rfl, rfl, -⟩
        exact ⟨o', ch', _, _, .child o ch n _ [] _ _ _ (mem_oldSorted.1 hcm) (.here o' ch'), rfl⟩
      · rintro ⟨o', ch', x, y, hat, rfl⟩
        cases hat with
        | child _ _ _ c _ _ x y hm hat =>
        cases hat
        exact ⟨_, (name, .node o' ch'), mem_oldSorted.2 hm, rfl, rfl, rfl⟩
    | name :: n :: rest =>
      simp only [Listed, List.mem_map, Outline.item.injEq, ne_eq, List.cons_ne_nil, not_false_eq_true, true_and]
      constructor
      · rintro ⟨t', below, ⟨c, hcm, rfl, -, rfl⟩, hl⟩
        have hcm := mem_oldSorted.1 hcm
        obtain ⟨-, o', ch', x, y, hat, rfl⟩ := (ih c hcm _ _).1 hl
        exact ⟨o', ch', _, _, .child o ch c.1 c.2 _ _ _ _ hcm hat, rfl⟩
      · rintro ⟨o', ch', x, y, hat, rfl⟩
        cases hat with
        | child _ _ _ c _ _ x y hm hat =>
        exact ⟨_, _, ⟨(name, c), mem_oldSorted.2 hm, rfl, rfl, rfl⟩, (ih (name, c) hm _ _).2 ⟨by simp, o', ch', x, y, hat, rfl⟩⟩

/-- C123. What is printed of a geometry is an outline of it. There is an entry for a path of names exactly if there is a part there, with
the text of its own offset; entries beside each other are sorted by name, and none is there twice. -/
theorem old_printed {txt : K × K → Str} (ht : ∀ o, '\n' ∉ txt o) {f : OldFrag K} (hf : PlainNames f) (hd : IsDict f) :
    OutlineSorted (readOutline (linesOf (f.str txt))) ∧
    ∀ path t, Listed (readOutline (linesOf (f.str txt))) path t ↔
      path ≠ [] ∧ ∃ o ch x y, At f path (.node o ch) x y ∧ t = txt o := by
  rw [linesOf_str ht hf]
  exact ⟨strLines_sorted ht hf hd, strLines_listed ht hf⟩

/-- A geometry with a quadrant in which there are two modules. -/
def exOld : OldFrag ℚ :=
  .node (0, 0) [(ch! "Q2", .node (3, 0) []), (ch! "Q1", .node (1, 0) [(ch! "M2", .node (2, 0) []), (ch! "M1", .node (0, 0) [])])]

/-- Texts of the offsets of it. -/
def exText (o : ℚ × ℚ) : Str :=
  if o.1 = 0 then ch! "[0. 0.]" else if o.1 = 1 then ch! "[1. 0.]" else if o.1 = 2 then ch! "[2. 0.]" else ch! "[3. 0.]"

set_option maxRecDepth 20000 in
example : (∀ o, '\n' ∉ exText o) ∧ PlainNames exOld ∧ IsDict exOld ∧
    exOld.str exText = ch! "Q1: [1. 0.]\n  M1: [0. 0.]\n  M2: [2. 0.]\nQ2: [3. 0.]" := by
  refine ⟨?_, ?_, ?_, by decide⟩
  · intro o
    unfold exText
    split_ifs <;> decide
  · refine .node _ _ (by simp) ?_
    intro c hc
    simp only [List.mem_cons, List.not_mem_nil, or_false] at hc
    rcases hc with rfl | rfl
    · exact .node _ _ (by simp) (by simp)
    · refine .node _ _ (by simp) ?_
      intro c hc
      simp only [List.mem_cons, List.not_mem_nil, or_false] at hc
      rcases hc with rfl | rfl <;> exact .node _ _ (by simp) (by simp)
  · refine .node _ _ (by simp) ?_
    intro c hc
    simp only [List.mem_cons, List.not_mem_nil, or_false] at hc
    rcases hc with rfl | rfl
    · exact .node _ _ (by simp) (by simp)
    · refine .node _ _ (by simp) ?_
      intro c hc
      simp only [List.mem_cons, List.not_mem_nil, or_false] at hc
      rcases hc with rfl | rfl <;> exact .node _ _ (by simp) (by simp)

end KD.Geo
