/- Helper lemmas for stacking: empty modules, the largest module number. -/
import Verif.Lemmas.Stacking
import Mathlib.Data.List.Sort

set_option linter.unusedSimpArgs false

namespace KD
open Spec

variable {V : Type}

/-- All shapes are the given one, or empty with otherwise the same dimensions. -/
def Fits (shapes : List (List Nat)) (shape : List Nat) : Prop :=
  shape ∈ shapes ∧ ∀ s ∈ shapes, s = shape ∨ ∃ n rest, shape = n :: rest ∧ s = 0 :: rest

theorem fits_unique {shapes : List (List Nat)} {a b : List Nat} (ha : Fits shapes a) (hb : Fits shapes b) : a = b := by
  rcases ha.2 b hb.1 with h | ⟨n, r, h1, h2⟩
  · exact h.symm
  · rcases hb.2 a ha.1 with h | ⟨n', r', h3, h4⟩
    · exact h
    · rw [h2] at h3; rw [h1] at h4
      have h3' := List.cons.inj h3; have h4' := List.cons.inj h4
      rw [h1, h2, h4'.1]

theorem lexLe_total (a b : List Nat) : lexLe a b = true ∨ lexLe b a = true := by
  induction a generalizing b with
  | nil => simp [lexLe]
  | cons x a ih =>
    cases b with
    | nil => simp [lexLe]
    | cons y b =>
      simp only [lexLe]
      by_cases h : x = y
      · subst h; simpa using ih b
      · rw [if_neg h, if_neg (fun e => h e.symm)]; simp; omega

theorem lexLe_trans {a b c : List Nat} (h1 : lexLe a b = true) (h2 : lexLe b c = true) : lexLe a c = true := by
  induction a generalizing b c with
  | nil => simp [lexLe]
  | cons x a ih =>
    cases b with
    | nil => simp [lexLe] at h1
    | cons y b =>
      cases c with
      | nil => simp [lexLe] at h2
      | cons z c =>
        simp only [lexLe] at h1 h2 ⊢
        split at h1 <;> split at h2
        · rw [if_pos (by omega)]; exact ih h1 h2
        · rw [if_neg (by omega)]; simp at h2 ⊢; omega
        · rw [if_neg (by omega)]; simp at h1 ⊢; omega
        · simp at h1 h2
          rw [if_neg (by omega)]; simp; omega

theorem lexLe_antisymm {a b : List Nat} (h1 : lexLe a b = true) (h2 : lexLe b a = true) : a = b := by
  induction a generalizing b with
  | nil =>
    cases b with
    | nil => rfl
    | cons y b => simp [lexLe] at h2
  | cons x a ih =>
    cases b with
    | nil => simp [lexLe] at h1
    | cons y b =>
      simp only [lexLe] at h1 h2
      split at h1
      · next h =>
        subst h
        rw [if_pos rfl] at h2
        rw [ih h1 h2]
      · next h =>
        rw [if_neg (fun e => h e.symm)] at h2
        simp at h1 h2
        omega

instance : Std.Total (fun a b : List Nat => lexLe a b = true) := ⟨lexLe_total⟩
instance : IsTrans (List Nat) (fun a b => lexLe a b = true) := ⟨fun _ _ _ => lexLe_trans⟩

theorem sort_pair {shapes : List (List Nat)} : (shapes.insertionSort (fun a b => lexLe a b)).Perm shapes ∧
    (shapes.insertionSort (fun a b => lexLe a b)).Pairwise (fun a b => lexLe a b) :=
  ⟨List.perm_insertionSort _ _, List.pairwise_insertionSort _ _⟩

theorem cons_le_cons {n m : Nat} {r : List Nat} (h : n ≤ m) : lexLe (n :: r) (m :: r) = true := by
  simp only [lexLe]
  split
  · have := lexLe_total r r; simpa using this
  · simp; omega

theorem mem_erase_pair {s1 s2 : List Nat} {shapes : List (List Nat)} (hp : [s1, s2].Perm shapes) :
    shapes.erase s1 = [s2] := by
  have h := hp.erase s1
  rw [List.erase_cons_head] at h
  exact List.perm_singleton.1 h.symm

theorem dropEmpty_ok {shapes shapes' : List (List Nat)} {mods mods' : Dict Int (Arr V)}
    (h : dropEmpty shapes mods = .ok (shapes', mods')) (hn : shapes.Nodup) (hne : shapes ≠ [])
    (hm : ∀ x ∈ mods, x.2.shape ∈ shapes) :
    ∃ shape, shapes' = [shape] ∧ Fits shapes shape ∧ mods' = mods.filter (fun x => decide (x.2.shape = shape)) := by
  have hp := (sort_pair (shapes := shapes)).1
  unfold dropEmpty at h
  split at h
  · next s1 s2 more hs =>
    rw [hs] at hp
    have hs12 : s1 ≠ s2 := by
      have := hp.nodup_iff.2 hn
      intro he
      rw [he] at this
      simp at this
    split at h
    · simp at h
    · next hmore =>
      have hmore : more = [] := by simpa using hmore
      subst hmore
      split at h
      · simp at h
      · next d rest =>
        split at h
        · simp at h
        · next hcond =>
          simp only [not_or, not_not] at hcond
          obtain ⟨rfl, hrest⟩ := hcond
          obtain ⟨rfl, rfl⟩ := Prod.mk.inj (Except.ok.inj h)
          have hsort := (sort_pair (shapes := shapes)).2
          rw [hs] at hsort
          have hle : lexLe (0 :: rest) s2 = true := by
            have := (List.pairwise_cons.1 hsort).1
            exact this s2 (by simp)
          cases s2 with
          | nil => exact absurd hle (by simp [lexLe])
          | cons n rest2 =>
            have hr : rest = rest2 := by simpa using hrest
            subst hr
            refine ⟨n :: rest, mem_erase_pair hp, ⟨hp.mem_iff.1 (by simp), fun s hs' => ?_⟩, ?_⟩
            · rcases List.mem_cons.1 (hp.mem_iff.2 hs') with h1 | h1
              · exact .inr ⟨n, rest, rfl, h1⟩
              · rw [List.mem_singleton] at h1; exact .inl h1
            · apply List.filter_congr
              intro x hx
              have := hp.mem_iff.2 (hm x hx)
              rcases List.mem_cons.1 this with h1 | h1
              · simp [h1, hs12]
              · rw [List.mem_singleton] at h1
                simp [h1]
                intro h0; exact hs12 (by rw [h0])
  · next hs =>
    obtain ⟨rfl, rfl⟩ := Prod.mk.inj (Except.ok.inj h)
    cases hss : shapes.insertionSort (fun a b => lexLe a b) with
    | nil => rw [hss] at hp; exact absurd (List.nil_perm.1 hp) hne
    | cons s1 l =>
      cases l with
      | cons s2 more => exact absurd hss (hs s1 s2 more)
      | nil =>
        rw [hss] at hp
        have := List.singleton_perm.1 hp
        subst this
        refine ⟨s1, rfl, ⟨by simp, fun s hs => .inl (by simpa using hs)⟩, ?_⟩
        symm
        apply List.filter_eq_self.2
        intro x hx
        have := hm x hx
        simpa using this

theorem dropEmpty_exists {shapes : List (List Nat)} {shape : List Nat} (mods : Dict Int (Arr V)) (hn : shapes.Nodup)
    (hf : Fits shapes shape) : ∃ r, dropEmpty shapes mods = .ok r := by
  have hp := (sort_pair (shapes := shapes)).1
  have hsort := (sort_pair (shapes := shapes)).2
  unfold dropEmpty
  split
  · next s1 s2 more hs =>
    rw [hs] at hp hsort
    have hnd := hp.nodup_iff.2 hn
    have h1 := hf.2 s1 (hp.mem_iff.1 (by simp))
    have h2 := hf.2 s2 (hp.mem_iff.1 (by simp))
    have hle : lexLe s1 s2 = true := (List.pairwise_cons.1 hsort).1 s2 (by simp)
    have hs12 : s1 ≠ s2 := by
      intro he; rw [he] at hnd; simp at hnd
    -- one of the two is the empty one
    have key : ∃ n rest, shape = n :: rest ∧ s1 = 0 :: rest ∧ s2 = n :: rest := by
      rcases h1 with h1 | ⟨n, r, e1, e2⟩
      · rcases h2 with h2 | ⟨n, r, e1, e2⟩
        · exact absurd (h1.trans h2.symm) hs12
        · exfalso
          rw [h1, e2, e1] at hle
          rw [h1, e1, e2] at hs12
          have := cons_le_cons (r := r) (Nat.zero_le n)
          exact hs12 (lexLe_antisymm hle this)
      · rcases h2 with h2 | ⟨n', r', e3, e4⟩
        · exact ⟨n, r, e1, e2, h2.trans e1⟩
        · exfalso
          rw [e1] at e3
          have := (List.cons.inj e3).2
          exact hs12 (by rw [e2, e4, this])
    obtain ⟨n, rest, k1, k2, k3⟩ := key
    have hmore : more = [] := by
      cases more with
      | nil => rfl
      | cons s3 more =>
        exfalso
        rcases hf.2 s3 (hp.mem_iff.1 (by simp)) with h3 | ⟨n', r', e3, e4⟩
        · have : s2 = s3 := by rw [k3, h3, k1]
          rw [this] at hnd; simp at hnd
        · rw [k1] at e3
          have := (List.cons.inj e3).2
          have : s1 = s3 := by rw [k2, e4, this]
          rw [this] at hnd; simp at hnd
    rw [if_neg (by simpa using hmore)]
    subst k2 k3
    simp
  · exact ⟨_, rfl⟩

theorem dropEmpty_error {shapes : List (List Nat)} {mods : Dict Int (Arr V)} {e : PyErr} (hn : shapes.Nodup)
    (h : dropEmpty shapes mods = .error e) :
    (∀ shape, ¬ Fits shapes shape) ∧
      ((e = .index ∧ ∃ s, s ≠ [] ∧ ∀ x, x ∈ shapes ↔ x = [] ∨ x = s) ∨
        (e = .value ∧ ¬ ∃ s, s ≠ [] ∧ ∀ x, x ∈ shapes ↔ x = [] ∨ x = s)) := by
  refine ⟨fun shape hf => ?_, ?_⟩
  · obtain ⟨r, hr⟩ := dropEmpty_exists mods hn hf
    rw [h] at hr; simp at hr
  · have hp := (sort_pair (shapes := shapes)).1
    have hsort := (sort_pair (shapes := shapes)).2
    unfold dropEmpty at h
    split at h
    · next s1 s2 more hs =>
      rw [hs] at hp hsort
      have hnd := hp.nodup_iff.2 hn
      split at h
      · next hmore =>
        refine .inr ⟨(Except.error.inj h).symm, ?_⟩
        rintro ⟨s, -, hall⟩
        obtain ⟨s3, more', rfl⟩ := List.exists_cons_of_ne_nil (by simpa using hmore)
        have m1 := (hall s1).1 (hp.mem_iff.1 (by simp))
        have m2 := (hall s2).1 (hp.mem_iff.1 (by simp))
        have m3 := (hall s3).1 (hp.mem_iff.1 (by simp))
        simp only [List.nodup_cons, List.mem_cons, not_or] at hnd
        obtain ⟨⟨n1, n2, -⟩, ⟨n3, -⟩, -⟩ := hnd
        rcases m1 with m1 | m1 <;> rcases m2 with m2 | m2 <;> rcases m3 with m3 | m3 <;> simp_all
      · next hmore =>
        have hmore : more = [] := by simpa using hmore
        subst hmore
        split at h
        · refine .inl ⟨(Except.error.inj h).symm, s2, ?_, fun x => ?_⟩
          · rintro rfl; simp at hnd
          · rw [← hp.mem_iff]; simp
        · next d rest =>
          split at h
          · refine .inr ⟨(Except.error.inj h).symm, ?_⟩
            rintro ⟨s, -, hall⟩
            have : [] ∈ [d :: rest, s2] := hp.mem_iff.2 ((hall []).2 (.inl rfl))
            have hs2 : s2 = [] := by simpa using this
            have hle : lexLe (d :: rest) s2 = true := (List.pairwise_cons.1 hsort).1 s2 (by simp)
            rw [hs2] at hle
            exact absurd hle (by simp [lexLe])
          · simp at h
    · simp at h

theorem dropEmpty_pair {s : List Nat} (hs : s ≠ []) {shapes : List (List Nat)} (mods : Dict Int (Arr V)) (hn : shapes.Nodup)
    (hall : ∀ x, x ∈ shapes ↔ x = [] ∨ x = s) : dropEmpty shapes mods = .error .index := by
  have hnf : ∀ shape, ¬ Fits shapes shape := by
    intro shape hf
    have h1 := hf.2 [] ((hall []).2 (.inl rfl))
    have h2 := hf.2 s ((hall s).2 (.inr rfl))
    rcases h1 with h1 | ⟨n, r, -, e⟩
    · rcases h2 with h2 | ⟨n, r, e, -⟩
      · exact hs (h2.trans h1.symm)
      · rw [← h1] at e; simp at e
    · simp at e
  cases hd : dropEmpty shapes mods with
  | error e =>
    rcases (dropEmpty_error hn hd).2 with ⟨rfl, -⟩ | ⟨-, h⟩
    · rfl
    · exact absurd ⟨s, hs, hall⟩ h
  | ok r =>
    exfalso
    have hp := (sort_pair (shapes := shapes)).1
    have hsort := (sort_pair (shapes := shapes)).2
    cases hss : shapes.insertionSort (fun a b => lexLe a b) with
    | nil => rw [hss] at hp; have := hp.mem_iff.2 ((hall s).2 (.inr rfl)); simp at this
    | cons s1 l =>
      cases l with
      | nil =>
        rw [hss] at hp
        have a1 := hp.mem_iff.2 ((hall s).2 (.inr rfl))
        have a2 := hp.mem_iff.2 ((hall []).2 (.inl rfl))
        rw [List.mem_singleton] at a1 a2
        exact hs (a1.trans a2.symm)
      | cons s2 more =>
        unfold dropEmpty at hd
        rw [hss] at hd hp hsort
        have a2 := hp.mem_iff.2 ((hall []).2 (.inl rfl))
        have : s1 = [] := by
          rcases List.mem_cons.1 a2 with h | h
          · exact h.symm
          · have hle : lexLe s1 [] = true := (List.pairwise_cons.1 hsort).1 [] h
            cases s1 with
            | nil => rfl
            | cons d r => exact absurd hle (by simp [lexLe])
        subst this
        simp only at hd
        split at hd <;> simp at hd

theorem foldl_max_spec (l : Dict Int (Arr V)) : ∀ m : Int,
    (m ≤ l.foldl (fun x y => max x y.1) m ∧ ∀ x ∈ l, x.1 ≤ l.foldl (fun x y => max x y.1) m) ∧
    (l.foldl (fun x y => max x y.1) m = m ∨ ∃ x ∈ l, x.1 = l.foldl (fun x y => max x y.1) m) := by
  induction l with
  | nil => intro m; simp
  | cons y l ih =>
    intro m
    obtain ⟨⟨h1, h2⟩, h3⟩ := ih (max m y.1)
    simp only [List.foldl_cons]
    refine ⟨⟨by omega, fun x hx => ?_⟩, ?_⟩
    · rcases List.mem_cons.1 hx with rfl | hx
      · omega
      · exact h2 x hx
    · rcases h3 with h3 | ⟨x, hx, h3⟩
      · rcases max_choice m y.1 with h | h
        · left; rw [h3, h]
        · right; exact ⟨y, by simp, by rw [h3, h]⟩
      · exact .inr ⟨x, by simp [hx], h3⟩

theorem maxModule_ok {mods : Dict Int (Arr V)} {m : Int} (h : maxModule mods = .ok m) :
    (∀ x ∈ mods, x.1 ≤ m) ∧ ∃ x ∈ mods, x.1 = m := by
  cases mods with
  | nil => simp [maxModule] at h
  | cons y l =>
    obtain rfl := Except.ok.inj h
    obtain ⟨⟨h1, h2⟩, h3⟩ := foldl_max_spec l y.1
    refine ⟨fun x hx => ?_, ?_⟩
    · rcases List.mem_cons.1 hx with rfl | hx
      · exact h1
      · exact h2 x hx
    · rcases h3 with h3 | ⟨x, hx, h3⟩
      · exact ⟨y, by simp, h3.symm⟩
      · exact ⟨x, by simp [hx], h3⟩

theorem maxModule_error {mods : Dict Int (Arr V)} {e : PyErr} (h : maxModule mods = .error e) : mods = [] ∧ e = .value := by
  cases mods with
  | nil => exact ⟨rfl, (Except.error.inj h).symm⟩
  | cons y l => simp [maxModule] at h

theorem maxModule_exists {mods : Dict Int (Arr V)} (h : mods ≠ []) : ∃ m, maxModule mods = .ok m := by
  cases mods with
  | nil => exact absurd rfl h
  | cons y l => exact ⟨_, rfl⟩

end KD
