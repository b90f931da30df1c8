/- Helper lemmas about the Python primitives of `Verif.Model.Py`. -/
import Verif.Model.Py
import Mathlib.Data.List.Basic
import Mathlib.Data.List.Forall2

namespace KD

/-! ### mapE and foldE -/

section
variable {α β γ σ : Type _}

@[simp] theorem mapE_nil (f : α → R β) : mapE f [] = .ok [] := rfl

theorem mapE_cons_ok {f : α → R β} {a : α} {l : List α} {r : List β} :
    mapE f (a :: l) = .ok r ↔ ∃ b bs, f a = .ok b ∧ mapE f l = .ok bs ∧ r = b :: bs := by
  simp only [mapE]
  cases h : f a with
  | error e => simp
  | ok b =>
    cases h2 : mapE f l with
    | error e => simp
    | ok bs =>
      simp only [Except.ok.injEq]
      constructor
      · rintro rfl; exact ⟨b, bs, rfl, rfl, rfl⟩
      · rintro ⟨b', bs', rfl, rfl, rfl⟩; rfl

theorem mapE_ok_iff {f : α → R β} {l : List α} {r : List β} :
    mapE f l = .ok r ↔ List.Forall₂ (fun a b => f a = .ok b) l r := by
  induction l generalizing r with
  | nil => simp [mapE, eq_comm]
  | cons a l ih =>
    rw [mapE_cons_ok]
    constructor
    · rintro ⟨b, bs, h1, h2, rfl⟩
      exact .cons h1 (ih.1 h2)
    · intro h
      cases h with
      | cons h1 h2 => exact ⟨_, _, h1, ih.2 h2, rfl⟩

theorem mapE_ok_of_forall {f : α → R β} {g : α → β} {l : List α} (h : ∀ a ∈ l, f a = .ok (g a)) :
    mapE f l = .ok (l.map g) := by
  induction l with
  | nil => rfl
  | cons a l ih =>
    rw [mapE_cons_ok]
    exact ⟨g a, l.map g, h a (by simp), ih (fun b hb => h b (by simp [hb])), rfl⟩

theorem mapE_length {f : α → R β} {l : List α} {r : List β} (h : mapE f l = .ok r) :
    r.length = l.length := by
  rw [mapE_ok_iff] at h
  exact h.length_eq.symm

theorem mapE_mem {f : α → R β} {l : List α} {r : List β} (h : mapE f l = .ok r) {b : β} :
    b ∈ r ↔ ∃ a ∈ l, f a = .ok b := by
  induction l generalizing r with
  | nil => simp [mapE] at h; subst h; simp
  | cons a l ih =>
    rw [mapE_cons_ok] at h
    obtain ⟨b', bs, h1, h2, rfl⟩ := h
    simp only [List.mem_cons, ih h2, exists_eq_or_imp, h1, Except.ok.injEq]
    rw [eq_comm]

theorem mapE_ok_all {f : α → R β} {l : List α} {r : List β} (h : mapE f l = .ok r) {a : α} (ha : a ∈ l) :
    ∃ b ∈ r, f a = .ok b := by
  induction l generalizing r with
  | nil => simp at ha
  | cons x l ih =>
    rw [mapE_cons_ok] at h
    obtain ⟨b', bs, h1, h2, rfl⟩ := h
    rcases List.mem_cons.1 ha with rfl | ha
    · exact ⟨b', by simp, h1⟩
    · obtain ⟨b, hb, e⟩ := ih h2 ha
      exact ⟨b, by simp [hb], e⟩

theorem mapE_error_iff {f : α → R β} {l : List α} :
    (∃ e, mapE f l = .error e) ↔ ∃ a ∈ l, ∃ e, f a = .error e := by
  induction l with
  | nil => simp [mapE]
  | cons a l ih =>
    simp only [mapE]
    cases h : f a with
    | error e => simp [h]
    | ok b =>
      cases h2 : mapE f l with
      | error e =>
        have := ih.1 ⟨e, h2⟩
        simp only [Except.error.injEq, exists_eq', List.mem_cons, exists_eq_or_imp, h, reduceCtorEq,
          exists_false, false_or, true_iff]
        exact this
      | ok bs =>
        rw [h2] at ih
        simp only [reduceCtorEq, exists_false, false_iff] at ih
        simp only [reduceCtorEq, exists_false, List.mem_cons, exists_eq_or_imp, h, false_or, false_iff]
        exact ih

theorem mapE_exists_ok {f : α → R β} {l : List α} (h : ∀ a ∈ l, ∃ b, f a = .ok b) :
    ∃ r, mapE f l = .ok r := by
  induction l with
  | nil => exact ⟨[], rfl⟩
  | cons a l ih =>
    obtain ⟨b, hb⟩ := h a (by simp)
    obtain ⟨bs, hbs⟩ := ih (fun x hx => h x (by simp [hx]))
    exact ⟨b :: bs, mapE_cons_ok.2 ⟨b, bs, hb, hbs, rfl⟩⟩

theorem mapE_congr {f g : α → R β} {l : List α} (h : ∀ a ∈ l, f a = g a) : mapE f l = mapE g l := by
  induction l with
  | nil => rfl
  | cons a l ih =>
    simp only [mapE]
    rw [h a (by simp), ih (fun b hb => h b (by simp [hb]))]

theorem mapE_append {f : α → R β} {l₁ l₂ : List α} {r : List β} :
    mapE f (l₁ ++ l₂) = .ok r ↔ ∃ r₁ r₂, mapE f l₁ = .ok r₁ ∧ mapE f l₂ = .ok r₂ ∧ r = r₁ ++ r₂ := by
  induction l₁ generalizing r with
  | nil =>
    simp only [List.nil_append, mapE_nil, Except.ok.injEq]
    constructor
    · intro h; exact ⟨[], r, rfl, h, rfl⟩
    · rintro ⟨_, _, rfl, h, rfl⟩; simpa using h
  | cons a l ih =>
    simp only [List.cons_append, mapE_cons_ok, ih]
    constructor
    · rintro ⟨b, bs, h1, ⟨r1, r2, h2, h3, rfl⟩, rfl⟩
      exact ⟨b :: r1, r2, ⟨b, r1, h1, h2, rfl⟩, h3, rfl⟩
    · rintro ⟨_, r2, ⟨b, r1, h1, h2, rfl⟩, h3, rfl⟩
      exact ⟨b, r1 ++ r2, h1, ⟨r1, r2, h2, h3, rfl⟩, rfl⟩

end

/-! ### sortedSet -/

theorem mem_sortedSet {l : List Nat} {t : Nat} : t ∈ sortedSet l ↔ t ∈ l := by
  simp [sortedSet]

theorem sortedSet_pairwise (l : List Nat) : (sortedSet l).Pairwise (· < ·) := by
  have h1 : (sortedSet l).Pairwise (· ≤ ·) := List.pairwise_insertionSort (· ≤ ·) _
  have h2 : (sortedSet l).Nodup :=
    (List.perm_insertionSort (· ≤ ·) l.dedup).nodup_iff.2 (List.nodup_dedup l)
  exact (h1.and h2).imp (fun h => by omega)

/-- Two strictly increasing lists with the same elements are equal. -/
theorem eq_of_pairwise_lt {l₁ l₂ : List Nat} (h₁ : l₁.Pairwise (· < ·)) (h₂ : l₂.Pairwise (· < ·))
    (h : ∀ t, t ∈ l₁ ↔ t ∈ l₂) : l₁ = l₂ :=
  List.Pairwise.eq_of_mem_iff h₁ h₂ (fun {a} => h a)

/-! ### nonzero -/

theorem mem_nonzeroFrom {off : Nat} {l : List Bool} {i : Nat} :
    i ∈ nonzeroFrom off l ↔ off ≤ i ∧ l[i - off]? = some true := by
  induction l generalizing off with
  | nil => simp [nonzeroFrom]
  | cons b l ih =>
    simp only [nonzeroFrom]
    by_cases hb : b = true
    · subst hb
      simp only [if_true, List.mem_cons, ih]
      constructor
      · rintro (rfl | ⟨h1, h2⟩)
        · simp
        · refine ⟨by omega, ?_⟩
          have : i - off = (i - (off + 1)) + 1 := by omega
          rw [this]; simpa using h2
      · rintro ⟨h1, h2⟩
        rcases Nat.eq_or_lt_of_le h1 with h | h
        · exact .inl h.symm
        · right
          refine ⟨by omega, ?_⟩
          have : i - off = (i - (off + 1)) + 1 := by omega
          rw [this] at h2; simpa using h2
    · simp only [Bool.not_eq_true] at hb; subst hb
      simp only [Bool.false_eq_true, if_false, ih]
      constructor
      · rintro ⟨h1, h2⟩
        refine ⟨by omega, ?_⟩
        have : i - off = (i - (off + 1)) + 1 := by omega
        rw [this]; simpa using h2
      · rintro ⟨h1, h2⟩
        rcases Nat.eq_or_lt_of_le h1 with h | h
        · subst h; simp at h2
        · refine ⟨by omega, ?_⟩
          have : i - off = (i - (off + 1)) + 1 := by omega
          rw [this] at h2; simpa using h2

theorem mem_nonzero {l : List Bool} {i : Nat} : i ∈ nonzero l ↔ l[i]? = some true := by
  simp [nonzero, mem_nonzeroFrom]

theorem nonzeroFrom_pairwise (off : Nat) (l : List Bool) : (nonzeroFrom off l).Pairwise (· < ·) := by
  induction l generalizing off with
  | nil => simp [nonzeroFrom]
  | cons b l ih =>
    simp only [nonzeroFrom]
    split
    · rw [List.pairwise_cons]
      refine ⟨fun i hi => ?_, ih _⟩
      rw [mem_nonzeroFrom] at hi; omega
    · exact ih _

theorem nonzero_pairwise (l : List Bool) : (nonzero l).Pairwise (· < ·) := nonzeroFrom_pairwise 0 l

/-! ### Dict -/

section
variable {K V : Type _} [DecidableEq K]

@[simp] theorem Dict.get?_nil (k : K) : Dict.get? ([] : Dict K V) k = none := rfl

theorem Dict.get?_cons (k' : K) (v : V) (d : Dict K V) (k : K) :
    Dict.get? ((k', v) :: d) k = if k' = k then some v else Dict.get? d k := rfl

theorem Dict.get?_set (d : Dict K V) (k k' : K) (v : V) :
    (d.set k v).get? k' = if k = k' then some v else d.get? k' := by
  induction d with
  | nil => simp [Dict.set, Dict.get?]
  | cons kv d ih =>
    obtain ⟨a, b⟩ := kv
    by_cases h : a = k
    · subst h
      by_cases h2 : a = k' <;> simp [Dict.set, Dict.get?, h2]
    · by_cases h2 : a = k'
      · subst h2
        simp [Dict.set, Dict.get?, h, Ne.symm h]
      · simp [Dict.set, Dict.get?, h, ih, h2]

theorem Dict.mem_keys {d : Dict K V} {k : K} : k ∈ d.keys ↔ (d.get? k).isSome := by
  induction d with
  | nil => simp [Dict.keys]
  | cons kv d ih =>
    obtain ⟨a, b⟩ := kv
    simp only [Dict.keys, List.map_cons, List.mem_cons, Dict.get?_cons] at ih ⊢
    by_cases h : a = k
    · simp [h]
    · simp [h, Ne.symm h, ih]

theorem Dict.mem_keys_iff {d : Dict K V} {k : K} : k ∈ d.keys ↔ ∃ v, d.get? k = some v := by
  rw [Dict.mem_keys, Option.isSome_iff_exists]

theorem Dict.get?_none_iff {d : Dict K V} {k : K} : d.get? k = none ↔ k ∉ d.keys := by
  rw [Dict.mem_keys]; simp

theorem Dict.mem_of_get? {d : Dict K V} {k : K} {v : V} (h : d.get? k = some v) : (k, v) ∈ d := by
  induction d with
  | nil => simp at h
  | cons kv d ih =>
    obtain ⟨a, b⟩ := kv
    rw [Dict.get?_cons] at h
    split at h
    · next e => simp at h; subst e; subst h; simp
    · exact List.mem_cons_of_mem _ (ih h)

/-- With distinct keys, lookup is membership. -/
theorem Dict.get?_eq_some_iff {d : Dict K V} (hd : d.keys.Nodup) {k : K} {v : V} :
    d.get? k = some v ↔ (k, v) ∈ d := by
  refine ⟨Dict.mem_of_get?, fun h => ?_⟩
  induction d with
  | nil => simp at h
  | cons kv d ih =>
    obtain ⟨a, b⟩ := kv
    simp only [Dict.keys, List.map_cons, List.nodup_cons] at hd
    rw [Dict.get?_cons]
    rcases List.mem_cons.1 h with h | h
    · simp only [Prod.mk.injEq] at h; simp [h.1, h.2]
    · have : a ≠ k := by
        rintro rfl
        exact hd.1 (List.mem_map.2 ⟨(a, v), h, rfl⟩)
      simp [this, ih hd.2 h]

theorem Dict.keys_set (d : Dict K V) (k : K) (v : V) :
    (d.set k v).keys = if k ∈ d.keys then d.keys else d.keys ++ [k] := by
  induction d with
  | nil => simp [Dict.set, Dict.keys]
  | cons kv d ih =>
    obtain ⟨a, b⟩ := kv
    simp only [Dict.keys, Dict.set, List.map_cons, List.mem_cons] at ih ⊢
    by_cases h : a = k
    · simp [h]
    · rw [if_neg h]
      simp only [List.map_cons, ih, Ne.symm h, false_or]
      by_cases h3 : k ∈ List.map Prod.fst d <;> simp [h3]

theorem Dict.nodup_set {d : Dict K V} (hd : d.keys.Nodup) (k : K) (v : V) : (d.set k v).keys.Nodup := by
  rw [Dict.keys_set]
  split
  · exact hd
  · next h => rw [List.nodup_append]; simp [hd]; intro a ha e; exact h (e ▸ ha)

theorem Dict.update_cons (d : Dict K V) (kv : K × V) (l : List (K × V)) :
    d.update (kv :: l) = (d.set kv.1 kv.2).update l := rfl

theorem Dict.nodup_update {d : Dict K V} (hd : d.keys.Nodup) (l : List (K × V)) : (d.update l).keys.Nodup := by
  induction l generalizing d with
  | nil => exact hd
  | cons kv l ih => rw [Dict.update_cons]; exact ih (Dict.nodup_set hd _ _)

theorem Dict.get?_update_notMem {d : Dict K V} {l : List (K × V)} {k : K} (h : k ∉ l.map Prod.fst) :
    (d.update l).get? k = d.get? k := by
  induction l generalizing d with
  | nil => rfl
  | cons kv l ih =>
    simp only [List.map_cons, List.mem_cons, not_or] at h
    rw [Dict.update_cons, ih h.2, Dict.get?_set, if_neg (Ne.symm h.1)]

/-- Looking up in a dict updated with pairs with distinct keys. -/
theorem Dict.get?_update_mem {d : Dict K V} {l : List (K × V)} (hl : (l.map Prod.fst).Nodup) {k : K} {v : V}
    (h : (k, v) ∈ l) : (d.update l).get? k = some v := by
  induction l generalizing d with
  | nil => simp at h
  | cons kv l ih =>
    simp only [List.map_cons, List.nodup_cons] at hl
    rw [Dict.update_cons]
    rcases List.mem_cons.1 h with rfl | h
    · rw [Dict.get?_update_notMem hl.1, Dict.get?_set, if_pos rfl]
    · exact ih hl.2 h

theorem Dict.mem_keys_update {d : Dict K V} {l : List (K × V)} {k : K} :
    k ∈ (d.update l).keys ↔ k ∈ d.keys ∨ k ∈ l.map Prod.fst := by
  induction l generalizing d with
  | nil => simp [Dict.update]
  | cons kv l ih =>
    rw [Dict.update_cons, ih, Dict.keys_set, List.map_cons, List.mem_cons]
    split
    · next h =>
      constructor
      · rintro (h1 | h1) <;> simp [h1]
      · rintro (h1 | rfl | h1) <;> simp_all
    · next h =>
      simp only [List.mem_append, List.mem_singleton]
      tauto

end

/-! ### nth -/

theorem nth_ok_iff {α : Type _} {l : List α} {i : Nat} {a : α} : nth l i = .ok a ↔ l[i]? = some a := by
  unfold nth
  split <;> simp_all

theorem nth_ok_of_lt {α : Type _} {l : List α} {i : Nat} (h : i < l.length) : nth l i = .ok l[i] := by
  rw [nth_ok_iff]; simp [h]

theorem nth_error_iff {α : Type _} {l : List α} {i : Nat} {e : PyErr} :
    nth l i = .error e ↔ l.length ≤ i ∧ e = .index := by
  unfold nth
  split
  · next a h =>
    have : i < l.length := (List.getElem?_eq_some_iff.1 h).1
    simp; omega
  · next h => simp at h; simp [h, eq_comm]

end KD
