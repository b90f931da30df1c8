/- Helper lemmas: stable sorting and mapping do not depend on the order of blocks with different keys. -/
import Verif.Lemmas.WriterData
import Verif.Lemmas.DetArray

namespace KD

variable {α β γ : Type _}

theorem mapE_perm {f : α → R β} {l l' : List α} {r : List β} (hp : l.Perm l') (h : mapE f l = .ok r) :
    ∃ r', mapE f l' = .ok r' ∧ r.Perm r' := by
  induction hp generalizing r with
  | nil => exact ⟨r, h, .refl _⟩
  | cons x _ ih =>
    obtain ⟨b, bs, h1, h2, rfl⟩ := mapE_cons_ok.1 h
    obtain ⟨bs', h3, h4⟩ := ih h2
    exact ⟨b :: bs', mapE_cons_ok.2 ⟨b, bs', h1, h3, rfl⟩, h4.cons b⟩
  | swap x y l =>
    obtain ⟨b, bs, h1, h2, rfl⟩ := mapE_cons_ok.1 h
    obtain ⟨b', bs', h3, h4, rfl⟩ := mapE_cons_ok.1 h2
    exact ⟨b' :: b :: bs', mapE_cons_ok.2 ⟨b', _, h3, mapE_cons_ok.2 ⟨b, bs', h1, h4, rfl⟩, rfl⟩, .swap _ _ _⟩
  | trans _ _ ih1 ih2 =>
    obtain ⟨r1, h1, p1⟩ := ih1 h
    obtain ⟨r2, h2, p2⟩ := ih2 h1
    exact ⟨r2, h2, p1.trans p2⟩

theorem mapE_pairwise_of {f : α → R β} {P : α → α → Prop} {Q : β → β → Prop} {l : List α} {r : List β} (hl : l.Pairwise P)
    (h : mapE f l = .ok r) (hpq : ∀ a ∈ l, ∀ a' ∈ l, ∀ b b', P a a' → f a = .ok b → f a' = .ok b' → Q b b') : r.Pairwise Q := by
  induction l generalizing r with
  | nil => obtain rfl := Except.ok.inj h; exact .nil
  | cons a l ih =>
    obtain ⟨b, bs, h1, h2, rfl⟩ := mapE_cons_ok.1 h
    rw [List.pairwise_cons] at hl ⊢
    refine ⟨fun b' hb' => ?_, ih hl.2 h2 (fun a ha a' ha' => hpq a (by simp [ha]) a' (by simp [ha']))⟩
    obtain ⟨a', ha', h3⟩ := (mapE_mem h2).1 hb'
    exact hpq a (by simp) a' (by simp [ha']) b b' (hl.1 a' ha') h1 h3

theorem flatten_perm_single {L L' : List (List α)} (hp : L.Perm L') (h : L.Pairwise (fun a b => a = [] ∨ b = [])) :
    L.flatten = L'.flatten := by
  induction hp with
  | nil => rfl
  | cons x _ ih => rw [List.flatten_cons, List.flatten_cons, ih (List.pairwise_cons.1 h).2]
  | swap x y l =>
    have := (List.pairwise_cons.1 h).1 x (by simp)
    rcases this with rfl | rfl <;> simp
  | trans p1 _ ih1 ih2 =>
    rw [ih1 h]
    exact ih2 ((p1.pairwise_iff (fun {a b} (h : a = [] ∨ b = []) => h.symm)).1 h)

theorem eq_of_sorted_filters {key : α → Nat} : ∀ {l l' : List α}, l.Pairwise (fun a b => key a ≤ key b) →
    l'.Pairwise (fun a b => key a ≤ key b) → (∀ n, l.filter (fun a => key a = n) = l'.filter (fun a => key a = n)) → l = l' := by
  intro l
  induction l with
  | nil =>
    intro l' _ _ h
    cases l' with
    | nil => rfl
    | cons b t => have := h (key b); simp at this
  | cons a t ih =>
    intro l' h1 h2 h
    cases l' with
    | nil => have := h (key a); simp at this
    | cons b t' =>
      have hab : key b ≤ key a := by
        have : a ∈ (b :: t').filter (fun x => key x = key a) := by rw [← h]; simp
        rcases List.mem_cons.1 (List.mem_filter.1 this).1 with rfl | hm
        · exact Nat.le_refl _
        · exact (List.pairwise_cons.1 h2).1 a hm
      have hba : key a ≤ key b := by
        have : b ∈ (a :: t).filter (fun x => key x = key b) := by rw [h]; simp
        rcases List.mem_cons.1 (List.mem_filter.1 this).1 with rfl | hm
        · exact Nat.le_refl _
        · exact (List.pairwise_cons.1 h1).1 b hm
      have he : key b = key a := by omega
      have hh := h (key a)
      rw [List.filter_cons_of_pos (by simp), List.filter_cons_of_pos (by simp [he])] at hh
      obtain rfl : a = b := (List.cons.inj hh).1
      congr 1
      refine ih (List.pairwise_cons.1 h1).2 (List.pairwise_cons.1 h2).2 (fun n => ?_)
      have hn := h n
      by_cases hk : key a = n
      · rw [List.filter_cons_of_pos (by simp [hk]), List.filter_cons_of_pos (by simp [hk])] at hn
        exact (List.cons.inj hn).2
      · rwa [List.filter_cons_of_neg (by simp [hk]), List.filter_cons_of_neg (by simp [hk])] at hn

theorem sortBy_const {key : α → Nat} {n : Nat} {l : List α} (h : ∀ a ∈ l, key a = n) : sortBy key l = l := by
  unfold sortBy
  apply List.Pairwise.insertionSort_eq
  exact List.pairwise_of_forall_mem_list (fun a ha b hb => by simp [h a ha, h b hb])

/-- Stable sorting of several blocks does not depend on the order of the blocks if no key occurs in two of them. -/
theorem sortBy_blocks {key : α → Nat} {L L' : List (List α)} (hp : L.Perm L')
    (h : L.Pairwise (fun a b => ∀ x ∈ a, ∀ y ∈ b, key x ≠ key y)) : sortBy key L.flatten = sortBy key L'.flatten := by
  refine eq_of_sorted_filters (key := key) (sortBy_pairwise _ _) (sortBy_pairwise _ _) (fun n => ?_)
  rw [← filter_sortBy, ← filter_sortBy, sortBy_const (n := n) (by simp), sortBy_const (n := n) (by simp),
    List.filter_flatten, List.filter_flatten]
  refine flatten_perm_single (hp.map _) ?_
  rw [List.pairwise_map]
  refine h.imp (fun {a b} hab => ?_)
  by_contra hc
  rw [not_or] at hc
  obtain ⟨x, hx⟩ := List.exists_mem_of_ne_nil _ hc.1
  obtain ⟨y, hy⟩ := List.exists_mem_of_ne_nil _ hc.2
  rw [List.mem_filter] at hx hy
  simp only [decide_eq_true_eq] at hx hy
  exact hab x hx.1 y hy.1 (hx.2.trans hy.2.symm)

theorem sortBy_perm_eq {key : α → Nat} {l l' : List α} (hp : l.Perm l') (h : l.Pairwise (fun x y => key x ≠ key y)) :
    sortBy key l = sortBy key l' := by
  have := sortBy_blocks (key := key) (hp.map (fun x => [x])) (by rw [List.pairwise_map]; simpa using h)
  have e : ∀ m : List α, (m.map (fun x => [x])).flatten = m := by
    intro m; induction m with
    | nil => rfl
    | cons a m ih => simp [ih]
  rwa [e, e] at this

/-- `h` of the result, nothing for an exception. -/
def okPart (h : β → List γ) : R β → List γ
  | .ok b => h b
  | .error _ => []

theorem mapE_flatMap_filter {f : α → R β} {h : β → List γ} {p : α → Bool} {l : List α} {r : List β} (hm : mapE f l = .ok r)
    (hp : ∀ a ∈ l, p a = false → ∀ b, f a = .ok b → h b = []) : r.flatMap h = (l.filter p).flatMap (fun a => okPart h (f a)) := by
  induction l generalizing r with
  | nil => obtain rfl := Except.ok.inj hm; rfl
  | cons a l ih =>
    obtain ⟨b, bs, h1, h2, rfl⟩ := mapE_cons_ok.1 hm
    have := ih h2 (fun a ha => hp a (by simp [ha]))
    rw [List.flatMap_cons, this]
    cases hpa : p a with
    | true => rw [List.filter_cons_of_pos hpa, List.flatMap_cons, h1]; rfl
    | false => rw [List.filter_cons_of_neg (by simp [hpa]), hp a (by simp) hpa b h1]; rfl

theorem perm_short {l l' : List α} (h : l.Perm l') (hl : ¬ l.length > 1) : l = l' := by
  match l, hl with
  | [], _ => exact (List.nil_perm.1 h).symm
  | [x], _ => exact (List.singleton_perm.1 h).symm ▸ rfl
  | _ :: _ :: _, hl => exact absurd (by simp) hl

theorem perm_sum {l l' : List Nat} (h : l.Perm l') : l.sum = l'.sum := by
  induction h with
  | nil => rfl
  | cons x _ ih => simp [ih]
  | swap x y l => simp; omega
  | trans _ _ ih1 ih2 => exact ih1.trans ih2

end KD
