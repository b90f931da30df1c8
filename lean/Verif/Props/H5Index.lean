/-
C97 the index of an HDF5 file.
-/
import Verif.Spec.H5Index
import Verif.Lemmas.Strings
import Mathlib.Data.List.Sort
import Mathlib.Data.List.Nodup

namespace KD

open Spec

/-! ### CSV -/

theorem readCsv_plain_char {cur : Str} {row : List Str} {c : Char} {s : Str} (h : csvSpecial c = false) :
    readCsvFrom .plain cur row (c :: s) = readCsvFrom .plain (cur ++ [c]) row s := by
  simp only [csvSpecial, Bool.or_eq_false_iff, beq_eq_false_iff_ne] at h
  rw [readCsvFrom]
  · intro e; exact h.1.1.1 e
  · intro s' e; exact absurd e h.1.2
  · intro e; exact h.1.1.2 e

theorem readCsv_plain {row : List Str} {s : Str} (h : s.any csvSpecial = false) : ∀ {cur : Str} {rest : Str},
    readCsvFrom .plain cur row (s ++ rest) = readCsvFrom .plain (cur ++ s) row rest := by
  induction s with
  | nil => intro cur rest; simp
  | cons c s ih =>
    intro cur rest
    simp only [List.any_cons, Bool.or_eq_false_iff] at h
    rw [List.cons_append, readCsv_plain_char h.1, ih h.2]
    simp

theorem readCsv_quoted {row : List Str} {s : Str} {rest : Str} (hr : ∀ r, rest ≠ '"' :: r) : ∀ {cur : Str},
    readCsvFrom .quoted cur row (s.flatMap (fun c => if c == '"' then ['"', '"'] else [c]) ++ '"' :: rest) =
      readCsvFrom .closed (cur ++ s) row rest := by
  induction s with
  | nil =>
    intro cur
    rw [List.flatMap_nil, List.nil_append, readCsvFrom, List.append_nil]
    intro s' e; exact hr s' e
  | cons c s ih =>
    intro cur
    by_cases hc : c = '"'
    · subst hc
      simp only [List.flatMap_cons, beq_self_eq_true, if_true, List.cons_append, List.nil_append]
      rw [readCsvFrom, ih]
      simp
    · simp only [List.flatMap_cons, beq_iff_eq, if_neg hc, List.cons_append, List.nil_append]
      have := ih (cur := cur ++ [c])
      simp only [beq_iff_eq] at this
      rw [readCsvFrom, this]
      · simp
      · intro s' e; exact absurd e hc
      · exact fun e => absurd e hc

theorem readCsv_comma {row : List Str} {s rest : Str} :
    readCsvFrom .plain [] row (csvField s ++ ',' :: rest) = readCsvFrom .plain [] (row ++ [s]) rest := by
  unfold csvField
  by_cases h : s.any csvSpecial = true
  · rw [if_pos h]
    simp only [List.cons_append, List.append_assoc, List.nil_append]
    rw [readCsvFrom, if_pos rfl, readCsv_quoted (by simp), readCsvFrom]
    simp
  · rw [if_neg h, readCsv_plain (by simpa using h), readCsvFrom]
    simp

theorem readCsv_end {row : List Str} {s rest : Str} :
    readCsvFrom .plain [] row (csvField s ++ '\r' :: '\n' :: rest) = (row ++ [s]) :: readCsvFrom .plain [] [] rest := by
  unfold csvField
  by_cases h : s.any csvSpecial = true
  · rw [if_pos h]
    simp only [List.cons_append, List.append_assoc, List.nil_append]
    rw [readCsvFrom, if_pos rfl, readCsv_quoted (by simp), readCsvFrom]
    simp
  · rw [if_neg h, readCsv_plain (by simpa using h), readCsvFrom]
    simp

theorem readCsv_row {fields : List Str} (hne : fields ≠ []) : ∀ {row : List Str} {rest : Str},
    readCsvFrom .plain [] row (csvRow fields ++ rest) = (row ++ fields) :: readCsvFrom .plain [] [] rest := by
  unfold csvRow
  induction fields with
  | nil => exact absurd rfl hne
  | cons s fields ih =>
    intro row rest
    cases fields with
    | nil =>
      simp only [List.map_cons, List.map_nil, joinCh]
      rw [List.append_assoc]
      exact readCsv_end
    | cons s' fields =>
      have := ih (by simp) (row := row ++ [s]) (rest := rest)
      simp only [List.map_cons, joinCh, List.append_assoc, List.cons_append] at this ⊢
      rw [readCsv_comma]
      rw [this]
      simp

/-- Text written as CSV is read back the same. -/
theorem csv_reads_back {rows : List (List Str)} (h : ∀ r ∈ rows, r ≠ []) : readCsv (rows.flatMap csvRow) = rows := by
  unfold readCsv
  induction rows with
  | nil => simp [readCsvFrom]
  | cons r rows ih =>
    rw [List.flatMap_cons, readCsv_row (h r (by simp)), ih (fun r hr => h r (by simp [hr]))]
    simp

/-! ### Objects -/

theorem find_member {ms : List (Str × H5Obj)} (h : (ms.map Prod.fst).Nodup) {m : Str × H5Obj} (hm : m ∈ ms) :
    ms.find? (fun x => x.1 == m.1) = some m := by
  induction ms with
  | nil => simp at hm
  | cons a ms ih =>
    rw [List.map_cons, List.nodup_cons] at h
    rcases List.mem_cons.1 hm with rfl | hm
    · simp
    · have : a.1 ≠ m.1 := fun e => h.1 (List.mem_map.2 ⟨m, hm, e.symm⟩)
      rw [List.find?_cons_of_neg (by simpa using this)]
      exact ih h.2 hm

theorem goodNames_member {members : List (Str × H5Obj)} (h : GoodNames (.group members)) {m : Str × H5Obj} (hm : m ∈ members) :
    GoodNames m.2 := by
  intro p ms hp
  apply h (m.1 :: p) ms
  rw [objAt, find_member (h [] members rfl).1 hm]
  exact hp

mutual

theorem visit_mem {pre : Path} : ∀ {o : H5Obj}, GoodNames o → ∀ {p : Path} {s : Option (List Nat)} {d : Str},
    (p, s, d) ∈ o.visit pre ↔ ∃ q, p = pre ++ q ∧ objAt o q = some (.data s d)
  | .data s' d', _, p, s, d => by
    simp only [H5Obj.visit, List.mem_singleton, Prod.mk.injEq]
    constructor
    · rintro ⟨rfl, rfl, rfl⟩
      exact ⟨[], by simp, rfl⟩
    · rintro ⟨q, rfl, hq⟩
      cases q with
      | nil => simp [objAt] at hq; exact ⟨by simp, hq.1.symm, hq.2.symm⟩
      | cons n q => simp [objAt] at hq
  | .group ms, h, p, s, d => by
    rw [H5Obj.visit, visitMembers_mem (fun m hm => goodNames_member h hm)]
    constructor
    · rintro ⟨m, hm, q, rfl, hq⟩
      refine ⟨m.1 :: q, by simp, ?_⟩
      rw [objAt, find_member (h [] ms rfl).1 hm]
      exact hq
    · rintro ⟨q, rfl, hq⟩
      cases q with
      | nil => simp [objAt] at hq
      | cons n q =>
        rw [objAt] at hq
        cases hf : ms.find? (fun m => m.1 == n) with
        | none => rw [hf] at hq; simp at hq
        | some m =>
          rw [hf] at hq
          have : m.1 = n := by simpa using List.find?_some hf
          exact ⟨m, List.mem_of_find?_eq_some hf, q, by simp [this], hq⟩

theorem visitMembers_mem {pre : Path} : ∀ {ms : List (Str × H5Obj)}, (∀ m ∈ ms, GoodNames m.2) →
    ∀ {p : Path} {s : Option (List Nat)} {d : Str},
    (p, s, d) ∈ visitMembers pre ms ↔ ∃ m ∈ ms, ∃ q, p = pre ++ [m.1] ++ q ∧ objAt m.2 q = some (.data s d)
  | [], _, p, s, d => by simp [visitMembers]
  | m :: ms, h, p, s, d => by
    rw [visitMembers, List.mem_append, visit_mem (h m (by simp)), visitMembers_mem (fun m hm => h m (by simp [hm]))]
    simp only [List.mem_cons, exists_eq_or_imp]

end

mutual

theorem visit_nodup {pre : Path} : ∀ {o : H5Obj}, GoodNames o → ((o.visit pre).map Prod.fst).Nodup
  | .data s' d', _ => by simp [H5Obj.visit]
  | .group ms, h => by
    rw [H5Obj.visit]
    exact visitMembers_nodup (fun m hm => goodNames_member h hm) (h [] ms rfl).1

theorem visitMembers_nodup {pre : Path} : ∀ {ms : List (Str × H5Obj)}, (∀ m ∈ ms, GoodNames m.2) → (ms.map Prod.fst).Nodup →
    ((visitMembers pre ms).map Prod.fst).Nodup
  | [], _, _ => by simp [visitMembers]
  | m :: ms, h, hn => by
    rw [visitMembers, List.map_append, List.nodup_append]
    rw [List.map_cons, List.nodup_cons] at hn
    refine ⟨visit_nodup (h m (by simp)), visitMembers_nodup (fun m hm => h m (by simp [hm])) hn.2, ?_⟩
    intro p hp p' hp' e
    obtain ⟨⟨_, s, d⟩, h1, rfl⟩ := List.mem_map.1 hp
    obtain ⟨⟨_, s', d'⟩, h1', rfl⟩ := List.mem_map.1 hp'
    obtain ⟨q, h2, -⟩ := (visit_mem (h m (by simp))).1 h1
    obtain ⟨m', hm', q', h2', -⟩ := (visitMembers_mem (fun m hm => h m (by simp [hm]))).1 h1'
    simp only at e
    rw [h2, h2'] at e
    simp only [List.append_assoc, List.singleton_append, List.append_cancel_left_eq, List.cons.injEq] at e
    exact hn.1 (List.mem_map.2 ⟨m', hm', e.1.symm⟩)

end

/-- The parts of paths to objects are names. -/
theorem objAt_names {root : H5Obj} (h : GoodNames root) : ∀ {p : Path} {o : H5Obj}, objAt root p = some o → ∀ n ∈ p, n ≠ [] ∧ '/' ∉ n := by
  intro p
  induction p generalizing root with
  | nil => intro o _ n hn; simp at hn
  | cons a p ih =>
    intro o ho n hn
    cases root with
    | data s d => simp [objAt] at ho
    | group ms =>
      rw [objAt] at ho
      cases hf : ms.find? (fun m => m.1 == a) with
      | none => rw [hf] at ho; simp at ho
      | some m =>
        rw [hf] at ho
        have hm := List.mem_of_find?_eq_some hf
        have e : m.1 = a := by simpa using List.find?_some hf
        rcases List.mem_cons.1 hn with rfl | hn
        · rw [← e]; exact (h [] ms rfl).2 m hm
        · exact ih (goodNames_member h hm) ho n hn

theorem shapeTail_inj : ∀ {a b : List Nat}, a.flatMap (fun k => ch! ", " ++ natStr k) ++ ch! ")" =
    b.flatMap (fun k => ch! ", " ++ natStr k) ++ ch! ")" → a = b := by
  have hnext : ∀ a : List Nat, ∃ c r, Char.isDigit c = false ∧ a.flatMap (fun k => ch! ", " ++ natStr k) ++ ch! ")" = c :: r := by
    intro a
    cases a with
    | nil => exact ⟨')', [], by decide, rfl⟩
    | cons x a => exact ⟨',', _, by decide, rfl⟩
  intro a
  induction a with
  | nil =>
    intro b h
    cases b with
    | nil => rfl
    | cons y b => simp at h
  | cons x a ih =>
    intro b h
    cases b with
    | nil => simp at h
    | cons y b =>
      simp only [List.flatMap_cons, List.append_assoc, List.cons_append, List.nil_append, List.cons.injEq, true_and] at h
      obtain ⟨c, r, hc, e⟩ := hnext a
      obtain ⟨c', r', hc', e'⟩ := hnext b
      have h : natStr x ++ (a.flatMap (fun k => ch! ", " ++ natStr k) ++ ch! ")") =
          natStr y ++ (b.flatMap (fun k => ch! ", " ++ natStr k) ++ ch! ")") := h
      rw [e, e'] at h
      obtain ⟨rfl, rfl, rfl⟩ := num_split hc hc' h
      rw [ih (e.trans e'.symm)]

/-- The text of a tuple of numbers in Python: in brackets, with a comma and a space between the numbers, and a comma
after a single one. -/
theorem shapeText_tuple (l : List Nat) :
    shapeText none = [] ∧
    shapeText (some l) = ch! "(" ++ (ch! ", ").intercalate (l.map natStr) ++ (if l.length = 1 then ch! "," else []) ++ ch! ")" := by
  refine ⟨rfl, ?_⟩
  have hi : ∀ (n : Nat) (ns : List Nat), (ch! ", ").intercalate ((n :: ns).map natStr) =
      natStr n ++ ns.flatMap (fun k => ch! ", " ++ natStr k) := by
    intro n ns
    induction ns generalizing n with
    | nil => simp [List.intercalate]
    | cons k ns ih =>
      have := ih k
      simp only [List.map_cons, List.intercalate, List.intersperse, List.flatten_cons] at this ⊢
      rw [this]
      simp
  match l with
  | [] => rfl
  | [n] => simp [shapeText, List.intercalate]
  | n :: k :: ns =>
    rw [hi]
    simp [shapeText]

example : shapeText (some [16, 512, 128]) = ch! "(16, 512, 128)" ∧ shapeText (some [7]) = ch! "(7,)" := by decide

/-- Different shapes have different texts. -/
theorem shapeText_inj {s t : Option (List Nat)} (h : shapeText s = shapeText t) : s = t := by
  have hd : ∀ n r, natStr n ++ r ≠ ')' :: ([] : Str) := by
    intro n r h
    have hne : natStr n ≠ [] := by unfold natStr; exact Nat.toDigits_ne_nil
    obtain ⟨c, cs, e⟩ := List.exists_cons_of_ne_nil hne
    have : c.isDigit = true := natStr_digit (n := n) (by rw [e]; simp)
    rw [e] at h
    rw [(List.cons.inj h).1] at this
    exact absurd this (by decide)
  rcases s with _ | (_ | ⟨n, _ | ⟨k, l⟩⟩) <;> rcases t with _ | (_ | ⟨n', _ | ⟨k', l'⟩⟩) <;>
    simp only [shapeText, List.cons_append, List.append_assoc, List.cons.injEq, true_and, reduceCtorEq, List.flatMap_cons] at h ⊢
  · exact absurd h.symm (hd _ _)
  · exact absurd h.symm (hd _ _)
  · exact absurd h (hd _ _)
  · rw [(num_split (by decide) (by decide) h).1]
  · obtain ⟨-, -, e⟩ := num_split (by decide) (by decide) h
    simp at e
  · exact absurd h (hd _ _)
  · obtain ⟨-, -, e⟩ := num_split (by decide) (by decide) h
    simp at e
  · obtain ⟨rfl, -, e⟩ := num_split (by decide) (by decide) h
    have := shapeTail_inj (a := k :: l) (b := k' :: l') (by simpa using e)
    rw [this]

/-- C97. What the index prints is CSV with a header and a row for each dataset of the file, and no other, in the order of their paths:
the path, the shape and the type. -/
theorem index_lists_datasets {root : H5Obj} (h : GoodNames root) :
    ∃ rows : List (Str × Option (List Nat) × Str),
      readCsv (hdf5Datasets root) = [ch! "path", ch! "shape", ch! "dtype"] :: rows.map (fun x => [x.1, shapeText x.2.1, x.2.2]) ∧
      rows.Pairwise (fun x y => x.1 < y.1) ∧
      ∀ path s d, (path, s, d) ∈ rows ↔ ∃ p, path = joinCh '/' p ∧ objAt root p = some (.data s d) := by
  let found := (root.visit []).map (fun x => (joinCh '/' x.1, x.2.1, x.2.2))
  have hmem : ∀ path s d, (path, s, d) ∈ found ↔ ∃ p, path = joinCh '/' p ∧ objAt root p = some (.data s d) := by
    intro path s d
    simp only [found, List.mem_map, Prod.mk.injEq]
    constructor
    · rintro ⟨⟨p, s', d'⟩, h1, h2, h3, h4⟩
      simp only at h2 h3 h4
      subst h2 h3 h4
      obtain ⟨q, e, hq⟩ := (visit_mem h).1 h1
      exact ⟨q, by rw [e]; simp, hq⟩
    · rintro ⟨p, rfl, hp⟩
      exact ⟨(p, s, d), (visit_mem h).2 ⟨p, by simp, hp⟩, rfl, rfl, rfl⟩
  have hnd : (found.map Prod.fst).Nodup := by
    have e : found.map Prod.fst = ((root.visit []).map Prod.fst).map (joinCh '/') := by
      simp [found, List.map_map, Function.comp_def]
    rw [e]
    refine List.Nodup.map_on ?_ (visit_nodup h)
    intro p hp p' hp' he
    have hplain : ∀ p ∈ (root.visit []).map Prod.fst, ∀ n ∈ p, PlainComponent n := by
      intro p hp
      obtain ⟨⟨q, s, d⟩, h1, rfl⟩ := List.mem_map.1 hp
      obtain ⟨r, e, hr⟩ := (visit_mem h).1 h1
      simp only [List.nil_append] at e
      subst e
      intro n hn
      exact objAt_names h hr n hn
    rw [← h5path_joinCh (hplain p hp), he, h5path_joinCh (hplain p' hp')]
  refine ⟨found.insertionSort (fun x y => x.1 ≤ y.1), ?_, ?_, ?_⟩
  · unfold hdf5Datasets
    rw [csv_reads_back]
    · rfl
    · intro r hr
      rcases List.mem_cons.1 hr with rfl | hr
      · simp
      · obtain ⟨x, -, rfl⟩ := List.mem_map.1 hr
        simp
  · have hp := List.perm_insertionSort (fun x y : Str × Option (List Nat) × Str => x.1 ≤ y.1) found
    have hn : ((found.insertionSort (fun x y => x.1 ≤ y.1)).map Prod.fst).Nodup := (hp.map Prod.fst).nodup_iff.2 hnd
    rw [List.Nodup, List.pairwise_map] at hn
    have ht : IsTrans (Str × Option (List Nat) × Str) (fun x y => x.1 ≤ y.1) := ⟨fun a b c h1 h2 => List.le_trans h1 h2⟩
    have ho : Std.Total (fun x y : Str × Option (List Nat) × Str => x.1 ≤ y.1) := ⟨fun a b => List.le_total a.1 b.1⟩
    refine ((List.pairwise_insertionSort _ found).and hn).imp ?_
    rintro a b ⟨h1, h2⟩
    rcases List.le_iff_lt_or_eq.1 h1 with h | h
    · exact h
    · exact absurd h h2
  · intro path s d
    rw [← hmem]
    exact (List.perm_insertionSort (fun x y : Str × Option (List Nat) × Str => x.1 ≤ y.1) found).mem_iff

/-- A file with a name which needs quotes. -/
def exObj : H5Obj := .group [(ch! "b", .group [(ch! "x,y", .data (some [2, 3]) (ch! "<f8"))]), (ch! "a", .data (some []) (ch! "|u1"))]

example : hdf5Datasets exObj = ch! "path,shape,dtype\r\na,(),|u1\r\n\"b/x,y\",\"(2, 3)\",<f8\r\n" := by decide

theorem goodNames_data (s : Option (List Nat)) (d : Str) : GoodNames (.data s d) := by
  intro p ms h
  cases p <;> simp [objAt] at h

theorem goodNames_group {ms : List (Str × H5Obj)} (h1 : (ms.map Prod.fst).Nodup) (h2 : ∀ m ∈ ms, m.1 ≠ [] ∧ '/' ∉ m.1)
    (h3 : ∀ m ∈ ms, GoodNames m.2) : GoodNames (.group ms) := by
  intro p ms' h
  cases p with
  | nil =>
    simp only [objAt, Option.some.injEq, H5Obj.group.injEq] at h
    subst h; exact ⟨h1, h2⟩
  | cons n p =>
    rw [objAt] at h
    cases hf : ms.find? (fun m => m.1 == n) with
    | none => rw [hf] at h; simp at h
    | some m =>
      rw [hf] at h
      exact h3 m (List.mem_of_find?_eq_some hf) p ms' h

example : GoodNames exObj := by
  refine goodNames_group (by decide) (by simp) ?_
  intro m hm
  rcases List.mem_cons.1 hm with rfl | hm
  · refine goodNames_group (by decide) (by simp) ?_
    intro m hm
    rw [List.mem_singleton.1 hm]
    exact goodNames_data _ _
  · rw [List.mem_singleton.1 hm]
    exact goodNames_data _ _

end KD
