/-
C86 The text of `by_id[...]` and `by_index[...]` is read back as the same selection.
-/
import Verif.Props.Names

set_option linter.unusedSimpArgs false

namespace KD

theorem natStr_ne (n : Nat) : natStr n ≠ [] := Nat.toDigits_ne_nil

theorem intStr_chars (z : Int) {c : Char} (h : c ∈ intStr z) : c = '-' ∨ c.isDigit = true := by
  unfold intStr at h
  split at h
  · rcases List.mem_cons.1 h with h | h
    · exact Or.inl h
    · exact Or.inr (natStr_digit h)
  · exact Or.inr (natStr_digit h)

theorem intStr_notMem (z : Int) {c : Char} (h1 : c ≠ '-') (h2 : c.isDigit = false) : c ∉ intStr z := by
  intro h
  rcases intStr_chars z h with h | h
  · exact h1 h
  · rw [h] at h2
    simp at h2

theorem intStr_ne (z : Int) : intStr z ≠ [] := by
  unfold intStr
  split
  · simp
  · exact natStr_ne _

theorem readNat_natStr (n : Nat) : Spec.readNat (natStr n) = some n := by
  unfold Spec.readNat
  rw [if_pos ⟨natStr_ne n, by rw [List.all_eq_true]; exact fun c hc => natStr_digit hc⟩]
  simp [natStr, Nat.ofDigitChars_ten_toDigits]

theorem readInt_intStr (z : Int) : Spec.readInt (intStr z) = some z := by
  unfold intStr
  split
  · next h =>
    simp only [Spec.readInt, readNat_natStr, Option.map_some]
    congr 1
    omega
  · next h =>
    have hne : ∀ s, natStr z.toNat ≠ '-' :: s := by
      intro s e
      have := natStr_digit (n := z.toNat) (c := '-') (by rw [e]; exact List.mem_cons_self)
      simp at this
    unfold Spec.readInt
    split
    · next s e => exact absurd e (hne s)
    · rw [readNat_natStr]
      rw [Option.map_some]
      congr 1
      omega

theorem strip_of {s : Str} (h1 : s.head? ≠ some ' ') (h2 : s.getLast? ≠ some ' ') : Spec.strip s = s ∧ Spec.strip (' ' :: s) = s := by
  have key : ∀ t : Str, t.head? ≠ some ' ' → t.dropWhile (fun c => decide (c = ' ')) = t := by
    intro t ht
    cases t with
    | nil => rfl
    | cons c t =>
      have : ¬ c = ' ' := by rintro rfl; exact ht rfl
      simp [List.dropWhile_cons, this]
  have hr : s.reverse.head? ≠ some ' ' := by rw [List.head?_reverse]; exact h2
  unfold Spec.strip
  constructor
  · rw [key s h1, key _ hr, List.reverse_reverse]
  · rw [List.dropWhile_cons_of_pos (by simp), key s h1, key _ hr, List.reverse_reverse]

theorem strip_notMem {s : Str} (h : ' ' ∉ s) : Spec.strip s = s := by
  refine (strip_of ?_ ?_).1
  · exact fun e => h (List.mem_of_head? e)
  · exact fun e => h (List.mem_of_getLast? e)

/-- Put a text before the first part. -/
def pre (t : Str) (l : List Str) : List Str := (t ++ l.headD []) :: l.tail

theorem pre_pre (s t : Str) (l : List Str) : pre s (pre t l) = pre (s ++ t) l := by simp [pre]

theorem splitTop_ne (d : Nat) (s : Str) : Spec.splitTop d s ≠ [] := by
  cases s with
  | nil => simp [Spec.splitTop]
  | cons c s =>
    simp only [Spec.splitTop]
    split <;> simp

theorem splitTop_plain (d : Nat) (t r : Str) (h : ∀ c ∈ t, c ≠ '[' ∧ c ≠ ']' ∧ (d = 0 → c ≠ ',')) :
    Spec.splitTop d (t ++ r) = pre t (Spec.splitTop d r) := by
  induction t with
  | nil =>
    cases hs : Spec.splitTop d r with
    | nil => exact absurd hs (splitTop_ne d r)
    | cons a l => simp [pre, hs]
  | cons c t ih =>
    obtain ⟨h1, h2, h3⟩ := h c List.mem_cons_self
    have ih := ih (fun c hc => h c (List.mem_cons_of_mem _ hc))
    simp only [List.cons_append, Spec.splitTop]
    rw [if_neg (fun e => h3 e.2 e.1), if_neg h1, if_neg h2, ih]
    simp [pre]

theorem splitTop_list (t r : Str) (h : ∀ c ∈ t, c ≠ '[' ∧ c ≠ ']') :
    Spec.splitTop 0 ('[' :: t ++ ch! "]" ++ r) = pre ('[' :: t ++ ch! "]") (Spec.splitTop 0 r) := by
  have e : '[' :: t ++ ch! "]" ++ r = '[' :: (t ++ ']' :: r) := by simp
  rw [e, Spec.splitTop, if_neg (by decide)]
  simp only [if_true]
  rw [splitTop_plain 1 t _ (fun c hc => ⟨(h c hc).1, (h c hc).2, by simp⟩)]
  simp [Spec.splitTop, pre]

/-- A text without commas outside of brackets. -/
def Closed (t : Str) : Prop := ∀ r, Spec.splitTop 0 (t ++ r) = pre t (Spec.splitTop 0 r)

theorem splitTop_join (a : Str) (l : List Str) (h : ∀ t ∈ a :: l, Closed t) :
    Spec.splitTop 0 (joinComma (a :: l)) = a :: l.map (' ' :: ·) := by
  have space : ∀ r, Spec.splitTop 0 (' ' :: r) = pre ch! " " (Spec.splitTop 0 r) := fun r => splitTop_plain 0 ch! " " r (by simp)
  induction l generalizing a with
  | nil =>
    have := h a List.mem_cons_self []
    rw [List.append_nil] at this
    rw [joinComma, this]
    simp [Spec.splitTop, pre]
  | cons b l ih =>
    rw [joinComma, List.append_assoc, h a List.mem_cons_self]
    simp only [List.cons_append, List.nil_append]
    rw [Spec.splitTop, if_pos ⟨rfl, rfl⟩, space, ih b (fun t ht => h t (List.mem_cons_of_mem _ ht))]
    simp [pre]

theorem joinComma_mem {l : List Str} {c : Char} (h : c ∈ joinComma l) : c = ',' ∨ c = ' ' ∨ ∃ t ∈ l, c ∈ t := by
  induction l with
  | nil => simp [joinComma] at h
  | cons a l ih =>
    cases l with
    | nil =>
      rw [joinComma] at h
      exact Or.inr (Or.inr ⟨a, List.mem_cons_self, h⟩)
    | cons b l =>
      rw [joinComma, List.mem_append, List.mem_append] at h
      rcases h with (h | h) | h
      · exact Or.inr (Or.inr ⟨a, List.mem_cons_self, h⟩)
      · simp only [List.mem_cons, List.not_mem_nil, or_false] at h
        rcases h with h | h
        · exact Or.inl h
        · exact Or.inr (Or.inl h)
      · rcases ih h with h | h | ⟨t, ht, h⟩
        · exact Or.inl h
        · exact Or.inr (Or.inl h)
        · exact Or.inr (Or.inr ⟨t, List.mem_cons_of_mem _ ht, h⟩)

theorem ints_mem {l : List Int} {c : Char} (h : c ∈ joinComma (l.map intStr)) : c = ',' ∨ c = ' ' ∨ c = '-' ∨ c.isDigit = true := by
  rcases joinComma_mem h with h | h | ⟨t, ht, h⟩
  · exact Or.inl h
  · exact Or.inr (Or.inl h)
  · obtain ⟨z, -, rfl⟩ := List.mem_map.1 ht
    exact Or.inr (Or.inr (intStr_chars z h))

/-- The characters of an index which is not a list. -/
theorem plain_chars {i : IxItem} (hi : ∀ l, i ≠ .list l) {c : Char} (h : c ∈ indexingRepr i) : c = '-' ∨ c.isDigit = true ∨ c = ':' ∨ c = '.' := by
  have hb : ∀ b : Option Int, c ∈ boundStr b → c = '-' ∨ c.isDigit = true := by
    rintro (_ | z) hc
    · simp [boundStr] at hc
    · exact intStr_chars z hc
  cases i with
  | list l => exact absurd rfl (hi l)
  | ellipsis =>
    simp only [indexingRepr, List.mem_cons, List.not_mem_nil, or_false, or_self] at h
    exact Or.inr (Or.inr (Or.inr h))
  | int z => rcases intStr_chars z h with h | h <;> simp [h]
  | slice a b s =>
    simp only [indexingRepr, List.mem_append, List.mem_cons] at h
    rcases h with (h | h | h) | h
    · rcases hb a h with h | h <;> simp [h]
    · simp [h]
    · rcases hb b h with h | h <;> simp [h]
    · rcases s with _ | z
      · simp [stepStr] at h
      · rcases List.mem_cons.1 h with h | h
        · simp [h]
        · rcases intStr_chars z h with h | h <;> simp [h]

theorem item_closed (i : IxItem) : Closed (indexingRepr i) := by
  by_cases hl : ∃ l, i = .list l
  · obtain ⟨l, rfl⟩ := hl
    intro r
    apply splitTop_list
    intro c hc
    rcases ints_mem hc with rfl | rfl | rfl | h
    · decide
    · decide
    · decide
    · constructor <;> rintro rfl <;> simp at h
  · intro r
    apply splitTop_plain
    intro c hc
    rcases plain_chars (fun l e => hl ⟨l, e⟩) hc with rfl | h | rfl | rfl
    · decide
    · refine ⟨?_, ?_, fun _ => ?_⟩ <;> rintro rfl <;> simp at h
    · decide
    · decide

theorem item_strip (i : IxItem) : Spec.strip (indexingRepr i) = indexingRepr i ∧ Spec.strip (' ' :: indexingRepr i) = indexingRepr i := by
  apply strip_of
  · intro e
    by_cases hl : ∃ l, i = .list l
    · obtain ⟨l, rfl⟩ := hl
      simp [indexingRepr] at e
    · rcases plain_chars (fun l e => hl ⟨l, e⟩) (List.mem_of_head? e) with h | h | h | h <;> simp at h
  · intro e
    by_cases hl : ∃ l, i = .list l
    · obtain ⟨l, rfl⟩ := hl
      rw [indexingRepr, List.getLast?_append] at e
      simp at e
    · rcases plain_chars (fun l e => hl ⟨l, e⟩) (List.mem_of_getLast? e) with h | h | h | h <;> simp at h

theorem bound_strip (b : Option Int) : Spec.strip (boundStr b) = boundStr b := by
  apply strip_notMem
  rcases b with _ | z
  · simp [boundStr]
  · exact intStr_notMem z (by decide) (by decide)

theorem readBound_boundStr (b : Option Int) : Spec.readBound (boundStr b) = some b := by
  rcases b with _ | z
  · rfl
  · simp only [Spec.readBound, boundStr, if_neg (intStr_ne z), readInt_intStr, Option.map_some]

theorem bound_colon (b : Option Int) : ':' ∉ boundStr b := by
  rcases b with _ | z
  · simp [boundStr]
  · exact intStr_notMem z (by decide) (by decide)

theorem readSlice_item {i : IxItem} (hi : ∀ l, i ≠ .list l) (he : i ≠ .ellipsis) : Spec.readSlice (indexingRepr i) = some i := by
  cases i with
  | list l => exact absurd rfl (hi l)
  | ellipsis => exact absurd rfl he
  | int z =>
    simp only [Spec.readSlice, indexingRepr]
    rw [splitCh_notMem (intStr_notMem z (by decide) (by decide))]
    simp only
    rw [strip_notMem (intStr_notMem z (by decide) (by decide)), readInt_intStr]
    rfl
  | slice a b s =>
    rcases s with _ | z
    · simp only [Spec.readSlice, indexingRepr, stepStr, List.append_nil]
      rw [splitCh_append, splitCh_notMem (bound_colon a), splitCh_notMem (bound_colon b)]
      simp only [List.singleton_append, bound_strip, readBound_boundStr]
    · simp only [Spec.readSlice, indexingRepr, stepStr, List.append_assoc, List.cons_append]
      have e : intStr z = boundStr (some z) := rfl
      rw [e, splitCh_append, splitCh_append, splitCh_notMem (bound_colon a), splitCh_notMem (bound_colon b),
        splitCh_notMem (bound_colon (some z))]
      simp only [List.singleton_append, bound_strip, readBound_boundStr]

theorem mapM_readInt (l : List Int) : ((l.map intStr).map (' ' :: ·)).mapM (fun p => Spec.readInt (Spec.strip p)) = some l := by
  induction l with
  | nil => rfl
  | cons z l ih =>
    have hs : ' ' ∉ intStr z := intStr_notMem z (by decide) (by decide)
    have := (strip_of (s := intStr z) (fun e => hs (List.mem_of_head? e)) (fun e => hs (List.mem_of_getLast? e))).2
    simp only [List.map_cons, List.mapM_cons, this, readInt_intStr, ih]
    rfl

theorem readItem_item (i : IxItem) : Spec.readItem (indexingRepr i) = some i := by
  by_cases he : i = .ellipsis
  · subst he
    rfl
  by_cases hl : ∃ l, i = .list l
  · obtain ⟨l, rfl⟩ := hl
    unfold Spec.readItem
    rw [if_neg (by simp [indexingRepr])]
    simp only [indexingRepr, List.cons_append]
    rw [if_pos (by simp), List.dropLast_concat]
    cases l with
    | nil => rfl
    | cons z l =>
      have hz : ∀ w : Int, Closed (intStr w) := fun w => item_closed (.int w)
      have hsp := splitTop_join (intStr z) (l.map intStr) (by
        intro t ht
        rw [← List.map_cons (f := intStr)] at ht
        obtain ⟨w, -, rfl⟩ := List.mem_map.1 ht
        exact hz w)
      have hne : joinComma ((z :: l).map intStr) ≠ [] := by
        cases l with
        | nil => simpa [joinComma] using intStr_ne z
        | cons w l => simp [joinComma]
      have hstrip : Spec.strip (joinComma ((z :: l).map intStr)) = joinComma ((z :: l).map intStr) := by
        refine (strip_of ?_ ?_).1
        · have h1 : ' ' ∉ intStr z := intStr_notMem z (by decide) (by decide)
          have hh : (joinComma ((z :: l).map intStr)).head? = (intStr z).head? := by
            have := intStr_ne z
            cases l with
            | nil => rfl
            | cons w l =>
              rw [List.map_cons, List.map_cons, joinComma, List.head?_append, List.head?_append]
              cases hi : intStr z with
              | nil => exact absurd hi this
              | cons c s => rfl
          rw [hh]
          exact fun e => h1 (List.mem_of_head? e)
        · have hlast : ∀ (l : List Int) (z : Int), (joinComma ((z :: l).map intStr)).getLast? ≠ some ' ' := by
            intro l
            induction l with
            | nil =>
              intro z e
              exact intStr_notMem z (c := ' ') (by decide) (by decide) (List.mem_of_getLast? e)
            | cons w l ih =>
              intro z
              rw [List.map_cons, List.map_cons, joinComma, List.getLast?_append]
              have := ih w
              rw [List.map_cons] at this
              cases hj : (joinComma (intStr w :: l.map intStr)).getLast? with
              | none =>
                rw [List.getLast?_eq_none_iff] at hj
                exfalso
                cases l with
                | nil => exact intStr_ne w hj
                | cons v l => simp [joinComma] at hj
              | some c =>
                rw [hj] at this
                simpa using this
          exact hlast l z
      rw [hstrip]
      unfold Spec.readList
      rw [if_neg hne, List.map_cons, hsp]
      have hs : ' ' ∉ intStr z := intStr_notMem z (by decide) (by decide)
      rw [List.mapM_cons, strip_notMem hs, readInt_intStr, mapM_readInt]
      rfl
  · have hne : indexingRepr i ≠ ['.', '.', '.'] := by
      intro e
      have := readSlice_item (fun l e => hl ⟨l, e⟩) he
      rw [e] at this
      simp [Spec.readSlice, splitCh, Spec.strip, Spec.readInt, Spec.readNat] at this
    have hb : ∀ t, indexingRepr i ≠ '[' :: t := by
      intro t e
      have := plain_chars (i := i) (fun l e => hl ⟨l, e⟩) (c := '[') (by rw [e]; exact List.mem_cons_self)
      simp at this
    unfold Spec.readItem
    rw [if_neg hne]
    split
    · next t e => exact absurd e (hb t)
    · exact readSlice_item (fun l e => hl ⟨l, e⟩) he

theorem mapM_readItem (l : List IxItem) : ((l.map indexingRepr).map (' ' :: ·)).mapM (fun p => Spec.readItem (Spec.strip p)) = some l := by
  induction l with
  | nil => rfl
  | cons i l ih =>
    simp only [List.map_cons, List.mapM_cons, (item_strip i).2, readItem_item, ih]
    rfl

theorem item_ne (i : IxItem) : indexingRepr i ≠ [] := by
  intro e
  have := readItem_item i
  rw [e] at this
  simp [Spec.readItem, Spec.readSlice, splitCh, Spec.strip, Spec.readInt, Spec.readNat] at this

theorem readSelection_repr (cls : Str) (v : IxValue) : Spec.readSelection cls (sliceRepr cls v) = Spec.readIndex (joinComma (v.items.map indexingRepr)) := by
  have e : sliceRepr cls v = (cls ++ ['[']) ++ (joinComma (v.items.map indexingRepr) ++ [']']) := by simp [sliceRepr]
  unfold Spec.readSelection
  rw [if_pos ⟨by rw [e, List.isPrefixOf_iff_prefix]; exact List.prefix_append _ _, by rw [sliceRepr, List.getLast?_append]; rfl⟩, e,
    List.drop_left' (by simp), List.dropLast_concat]

/-- C86: the text of a selection with one index, or with a tuple of at least two, is read back as the same selection. -/
theorem repr_reads_back_partial (cls : Str) (v : IxValue) (hv : ∀ l, v = .tuple l → 2 ≤ l.length) :
    Spec.readSelection cls (sliceRepr cls v) = some v := by
  rw [readSelection_repr]
  cases v with
  | one i =>
    unfold Spec.readIndex
    have := splitTop_join (indexingRepr i) [] (by simpa using item_closed i)
    simp only [IxValue.items, List.map_cons, List.map_nil]
    simp only [List.map_nil] at this
    rw [this]
    simp only [(item_strip i).1, readItem_item, Option.map_some]
  | tuple l =>
    obtain ⟨i, j, l, rfl⟩ : ∃ i j t, l = i :: j :: t := by
      have := hv l rfl
      match l, this with
      | i :: j :: t, _ => exact ⟨i, j, t, rfl⟩
    simp only [IxValue.items]
    have hs := splitTop_join (indexingRepr i) ((j :: l).map indexingRepr) (by
      intro t ht
      rw [← List.map_cons (f := indexingRepr)] at ht
      obtain ⟨w, -, rfl⟩ := List.mem_map.1 ht
      exact item_closed w)
    unfold Spec.readIndex
    rw [List.map_cons, hs]
    have hlast : Spec.strip ((indexingRepr i :: ((j :: l).map indexingRepr).map (' ' :: ·)).getLastD []) ≠ [] := by
      have : ∃ k, (indexingRepr i :: ((j :: l).map indexingRepr).map (' ' :: ·)).getLastD [] = ' ' :: indexingRepr k := by
        have hne : ((j :: l).map indexingRepr).map (' ' :: ·) ≠ [] := by simp
        rw [List.getLastD_cons, List.getLastD_eq_getLast?, List.getLast?_eq_some_getLast hne, Option.getD_some]
        have hm := List.getLast_mem hne
        obtain ⟨t, ht, e⟩ := List.mem_map.1 hm
        obtain ⟨k, -, rfl⟩ := List.mem_map.1 ht
        exact ⟨k, e.symm⟩
      obtain ⟨k, hk⟩ := this
      rw [hk, (item_strip k).2]
      exact item_ne k
    simp only [List.map_cons]
    rw [List.map_cons, List.map_cons] at hlast
    rw [if_neg hlast, List.mapM_cons, (item_strip i).1, readItem_item, ← List.map_cons (f := (' ' :: ·)), ← List.map_cons (f := indexingRepr),
      mapM_readItem]
    rfl

/-- C86 is false for tuples of one index, which are read back without the tuple, and for empty tuples. -/
theorem repr_tuple_wrong (cls : Str) (i : IxItem) :
    Spec.readSelection cls (sliceRepr cls (.tuple [i])) = some (.one i) ∧ Spec.readSelection cls (sliceRepr cls (.tuple [])) = none := by
  constructor
  · have : sliceRepr cls (.tuple [i]) = sliceRepr cls (.one i) := rfl
    rw [this]
    exact repr_reads_back_partial cls _ (by simp)
  · rw [readSelection_repr]
    rfl

/-- C86: different selections have different texts. -/
theorem repr_inj (cls : Str) (v w : IxValue) (hv : ∀ l, v = .tuple l → 2 ≤ l.length) (hw : ∀ l, w = .tuple l → 2 ≤ l.length)
    (h : sliceRepr cls v = sliceRepr cls w) : v = w := by
  have h1 := repr_reads_back_partial cls v hv
  rw [h, repr_reads_back_partial cls w hw, Option.some.injEq] at h1
  exact h1.symm

example : sliceRepr ch! "by_id" (.tuple [.slice (some 4) none (some 2), .int (-7), .list [1, 12], .ellipsis]) = ch! "by_id[4::2, -7, [1, 12], ...]" := by
  decide

end KD
