/- Helper lemmas for virtual CXI files. -/
import Verif.Spec.Cxi
import Verif.Lemmas.Arrays
import Verif.Lemmas.Components
import Verif.Props.AnyIndex

set_option linter.unusedSimpArgs false

namespace KD
open Spec

variable {V W : Type}

theorem rep_getElem? {α : Type _} (F : Nat) (hF : 0 < F) (l : List α) : ∀ p : Nat,
    (l.flatMap (List.replicate F))[p]? = l[p / F]? := by
  induction l with
  | nil => intro p; simp
  | cons a l ih =>
    intro p
    rw [List.flatMap_cons]
    by_cases hp : p < F
    · rw [List.getElem?_append_left (by simpa using hp), Nat.div_eq_of_lt hp]
      simp [hp]
    · have : p / F = (p - F) / F + 1 := by
        have h1 : p = (p - F) + F := by omega
        conv_lhs => rw [h1]
        rw [Nat.add_div_right _ hF]
      rw [List.getElem?_append_right (by simpa using hp), this]
      simp only [List.length_replicate, List.getElem?_cons_succ]
      exact ih (p - F)

theorem rep_length {α : Type _} (F : Nat) (l : List α) : (l.flatMap (List.replicate F)).length = l.length * F := by
  induction l with
  | nil => simp
  | cons a l ih => rw [List.flatMap_cons, List.length_append, ih, List.length_replicate, List.length_cons]; ring

theorem rep_drop {α : Type _} (F : Nat) (l : List α) (q : Nat) :
    (l.flatMap (List.replicate F)).drop (q * F) = (l.drop q).flatMap (List.replicate F) := by
  induction q generalizing l with
  | zero => simp
  | succ q ih =>
    cases l with
    | nil => simp
    | cons a l =>
      rw [List.flatMap_cons, List.drop_succ_cons, ← ih l, List.drop_append]
      have : (q + 1) * F - (List.replicate F a).length = q * F := by
        rw [List.length_replicate, Nat.succ_mul]; omega
      rw [this, List.drop_eq_nil_of_le]
      · simp
      · rw [List.length_replicate, Nat.succ_mul]; omega

theorem nonzeroFrom_head (off : Nat) (l : List Bool) : (nonzeroFrom off l).head? = none ∧ (∀ b ∈ l, b = false) ∨
    ∃ i, (nonzeroFrom off l).head? = some (off + i) ∧ l[i]? = some true ∧ ∀ j < i, l[j]? = some false := by
  induction l generalizing off with
  | nil => left; simp [nonzeroFrom]
  | cons b l ih =>
    cases b
    · rcases ih (off + 1) with ⟨h1, h2⟩ | ⟨i, h1, h2, h3⟩
      · left
        refine ⟨by simpa [nonzeroFrom] using h1, ?_⟩
        intro b hb
        rcases List.mem_cons.1 hb with rfl | hb
        · rfl
        · exact h2 b hb
      · right
        refine ⟨i + 1, ?_, by simpa using h2, ?_⟩
        · simp only [nonzeroFrom, Bool.false_eq_true, if_false, h1]
          congr 1; omega
        · intro j hj
          cases j with
          | zero => rfl
          | succ j => simpa using h3 j (by omega)
    · right
      exact ⟨0, by simp [nonzeroFrom], by simp, by simp⟩

theorem nMatch_spec {a b : List Nat} (h : b.length = a.length) :
    nMatch a b ≤ a.length ∧ (∀ p < nMatch a b, a[p]? = b[p]?) ∧ (nMatch a b < a.length → a[nMatch a b]? ≠ b[nMatch a b]?) := by
  unfold nMatch nonzero
  have hz : ∀ (i : Nat) (y : Bool), (List.zipWith (fun a b => decide (a ≠ b)) a b)[i]? = some y →
      i < a.length ∧ (y = true ↔ a[i]? ≠ b[i]?) := by
    intro i y hy
    rw [List.getElem?_zipWith_eq_some] at hy
    obtain ⟨u, v, h1, h2, rfl⟩ := hy
    have := (List.getElem?_eq_some_iff.1 h1).1
    refine ⟨this, ?_⟩
    rw [h1, h2]
    simp
  rcases nonzeroFrom_head 0 (List.zipWith (fun a b => decide (a ≠ b)) a b) with ⟨h1, h2⟩ | ⟨i, h1, h2, h3⟩
  · have : nonzeroFrom 0 (List.zipWith (fun a b => decide (a ≠ b)) a b) = [] := by simpa using h1
    rw [this]
    refine ⟨le_refl _, ?_, fun h => absurd h (by simp)⟩
    intro p hp
    simp only [List.headD_nil] at hp
    have hlt : p < (List.zipWith (fun a b => decide (a ≠ b)) a b).length := by simp [h]; omega
    have hy := hz p _ (List.getElem?_eq_getElem hlt)
    have := h2 _ (List.getElem_mem hlt)
    rw [this] at hy
    simpa using hy.2
  · have : (nonzeroFrom 0 (List.zipWith (fun a b => decide (a ≠ b)) a b)).headD a.length = i := by
      cases hl : nonzeroFrom 0 (List.zipWith (fun a b => decide (a ≠ b)) a b) with
      | nil => rw [hl] at h1; simp at h1
      | cons x l => rw [hl] at h1; simpa using h1
    rw [this]
    obtain ⟨h4, h5⟩ := hz i true h2
    refine ⟨by omega, ?_, fun _ => h5.1 rfl⟩
    intro p hp
    have := (hz p false (h3 p hp)).2
    simpa using this

theorem Grid.assign_ok {g : Grid W} {b : Bool} {start n col : Nat} {vals : List W} (hc : col < g.cols) (hl : vals.length = n) :
    ∃ g', g.assign b start n col vals = .ok g' ∧ g'.rows = g.rows ∧ g'.cols = g.cols ∧
      (∀ j v, vals[j]? = some v → g'.cell (start + j) col = v) ∧
      ∀ r c, (c ≠ col ∨ r < start ∨ start + n ≤ r) → g'.cell r c = g.cell r c := by
  unfold Grid.assign
  rw [if_neg (by omega), if_pos hl]
  refine ⟨_, rfl, rfl, rfl, ?_, ?_⟩
  · intro j v hj
    have hlt := (List.getElem?_eq_some_iff.1 hj).1
    simp only
    rw [if_pos (by refine ⟨?_, ?_, ?_⟩ <;> first | trivial | omega)]
    have : start + j - start = j := by omega
    rw [this, hj]
  · intro r c h
    simp only
    rw [if_neg]
    rintro ⟨h1, h2, h3⟩
    rcases h with h | h | h
    · exact h h1
    · omega
    · omega

/-- A strictly increasing list contained in another one fits after the position of its first item. -/
theorem sorted_fits {T us : List Nat} {u i : Nat} (hT : T.Pairwise (· < ·)) (hus : (u :: us).Pairwise (· < ·))
    (hsub : ∀ x ∈ u :: us, x ∈ T) (hi : T[i]? = some u) : i + (us.length + 1) ≤ T.length := by
  have : (u :: us).length ≤ (T.drop i).length := by
    apply List.Subperm.length_le
    apply List.subperm_of_subset
    · exact hus.imp (fun h => ne_of_lt h)
    · intro x hx
      obtain ⟨j, hj⟩ := List.mem_iff_getElem?.1 (hsub x hx)
      have hji : i ≤ j := by
        by_contra hlt
        have hux : u ≤ x := by
          rcases List.mem_cons.1 hx with rfl | hx
          · exact le_refl _
          · exact le_of_lt ((List.pairwise_cons.1 hus).1 x hx)
        have e1 := List.getElem?_eq_some_iff.1 hj
        have e2 := List.getElem?_eq_some_iff.1 hi
        have := (List.pairwise_iff_getElem.1 hT) j i e1.1 e2.1 (by omega)
        rw [e1.2, e2.2] at this
        omega
      apply List.mem_iff_getElem?.2
      exact ⟨j - i, by rw [List.getElem?_drop]; simpa [Nat.add_sub_cancel' hji] using hj⟩
  simp only [List.length_cons, List.length_drop] at this
  have := (List.getElem?_eq_some_iff.1 hi).1
  omega

/-- What one run of the loop of `_map_chunk` does, for a chunk with trains `us` of `F` frames each. -/
theorem mapLoop_spec {T : List Nat} {F : Nat} (hF : 0 < F) (hT : T.Pairwise (· < ·)) {ix : Dict Nat Nat}
    (hix : ∀ (i t : Nat), T[i]? = some t → ix.get? t = some (i * F)) {b : Bool} {data : List W} {col : Nat} :
    ∀ (fuel : Nat) (us : List Nat) (start : Nat) (g : Grid W), us.length * F ≤ fuel → us.Pairwise (· < ·) → (∀ u ∈ us, u ∈ T) →
      start + us.length * F ≤ data.length → col < g.cols →
      ∃ g', mapLoop ix (T.flatMap (List.replicate F)) b data col fuel start (us.flatMap (List.replicate F)) g = .ok g' ∧
        g'.rows = g.rows ∧ g'.cols = g.cols ∧
        (∀ (i j k t : Nat), us[j]? = some t → T[i]? = some t → k < F → ∀ v, data[start + j * F + k]? = some v →
          g'.cell (i * F + k) col = v) ∧
        ∀ r c, (c ≠ col ∨ ∀ t ∈ us, T[r / F]? ≠ some t) → g'.cell r c = g.cell r c := by
  intro fuel
  induction fuel using Nat.strong_induction_on with
  | _ fuel ih =>
  intro us start g hfuel hus hsub hdata hcol
  cases us with
  | nil =>
    refine ⟨g, by unfold mapLoop; rfl, rfl, rfl, ?_, fun _ _ _ => rfl⟩
    intro i j k t h
    simp at h
  | cons u us =>
    obtain ⟨i0, hi0⟩ := List.mem_iff_getElem?.1 (hsub u (by simp))
    have hfit := sorted_fits hT hus hsub hi0
    -- the labels as a cons
    have hL : ∃ ts, (u :: us).flatMap (List.replicate F) = u :: ts := by
      obtain ⟨n, rfl⟩ : ∃ n, F = n + 1 := ⟨F - 1, by omega⟩
      exact ⟨_, by rw [List.flatMap_cons, List.replicate_succ, List.cons_append]⟩
    obtain ⟨ts, hts⟩ := hL
    have hlen : (u :: ts).length = (us.length + 1) * F := by rw [← hts, rep_length, List.length_cons]
    have hLp : ∀ p : Nat, (u :: ts)[p]? = (u :: us)[p / F]? := by
      intro p; rw [← hts]; exact rep_getElem? F hF _ p
    set n := nMatch (u :: ts) (sl (T.flatMap (List.replicate F)) (i0 * F) (i0 * F + (u :: ts).length)) with hn
    have htl : (sl (T.flatMap (List.replicate F)) (i0 * F) (i0 * F + (u :: ts).length)).length = (u :: ts).length := by
      rw [sl_eq_slice, slice_length]
      rw [rep_length, hlen, ← Nat.add_mul]
      exact Nat.mul_le_mul_right _ hfit
    have htp : ∀ p, p < (us.length + 1) * F →
        (sl (T.flatMap (List.replicate F)) (i0 * F) (i0 * F + (u :: ts).length))[p]? = T[i0 + p / F]? := by
      intro p hp
      unfold sl
      rw [List.getElem?_take, if_pos (by rw [hlen]; omega), List.getElem?_drop, rep_getElem? F hF]
      congr 1
      rw [Nat.mul_comm, Nat.mul_add_div hF]
    obtain ⟨m1, m2, m3⟩ := nMatch_spec htl
    rw [← hn] at m1 m2 m3
    rw [hlen] at m1
    have m3 : n < (us.length + 1) * F → (u :: ts)[n]? ≠
        (sl (T.flatMap (List.replicate F)) (i0 * F) (i0 * F + (u :: ts).length))[n]? := fun h => m3 (by rw [hlen]; exact h)
    have hposF : 0 < (us.length + 1) * F := Nat.mul_pos (by omega) hF
    -- at least one match
    have hn0 : 0 < n := by
      by_contra h0
      have h0 : n = 0 := by omega
      apply m3 (by omega)
      rw [h0, htp 0 hposF, hLp 0]
      simp [hi0]
    -- the matches are whole trains
    have hdiv : n = (n / F) * F := by
      by_contra hne
      have hmod := Nat.div_add_mod n F
      have hmod' : n % F < F := Nat.mod_lt _ hF
      have hcomm : F * (n / F) = (n / F) * F := Nat.mul_comm _ _
      have hlt : n < (us.length + 1) * F := by
        rcases Nat.lt_or_ge n ((us.length + 1) * F) with h | h
        · exact h
        · exfalso; apply hne
          have : n = (us.length + 1) * F := by omega
          rw [this, Nat.mul_div_cancel _ hF]
      have hq : (n / F) * F < n := by omega
      have e1 := m2 _ hq
      rw [hLp, htp _ (by omega), Nat.mul_div_cancel _ hF] at e1
      apply m3 hlt
      rw [hLp, htp _ hlt, e1]
    set q := n / F with hq
    have hq0 : 0 < q := by
      rcases Nat.eq_zero_or_pos q with h | h
      · rw [h] at hdiv; omega
      · exact h
    have hql : q ≤ us.length + 1 := by
      have : q * F ≤ (us.length + 1) * F := by omega
      exact Nat.le_of_mul_le_mul_right this hF
    have hsame : ∀ j < q, (u :: us)[j]? = T[i0 + j]? := by
      intro j hj
      have hjF : j * F < n := by
        rw [hdiv]; exact Nat.mul_lt_mul_of_pos_right hj hF
      have := m2 _ hjF
      rwa [hLp, htp _ (by omega), Nat.mul_div_cancel _ hF] at this
    have hvl : (sl data start (start + n)).length = n := by
      rw [sl_eq_slice, slice_length]
      rw [List.length_cons] at hdata
      omega
    obtain ⟨g1, a1, a2, a3, a4, a5⟩ := Grid.assign_ok (g := g) (b := b) (start := i0 * F) (n := n) (col := col) hcol hvl
    have hrest : ((u :: us).drop q).flatMap (List.replicate F) = (u :: ts).drop n := by
      rw [← rep_drop, hts, ← hdiv]
    have hdl : ((u :: us).drop q).length = us.length + 1 - q := by simp
    obtain ⟨f', rfl⟩ : ∃ f', fuel = f' + 1 := ⟨fuel - 1, by rw [List.length_cons] at hfuel; omega⟩
    have hmulsub : (us.length + 1 - q) * F = (us.length + 1) * F - n := by rw [Nat.sub_mul, ← hdiv]
    obtain ⟨g', b1, b2, b3, b4, b5⟩ := ih f' (by omega) ((u :: us).drop q) (start + n) g1
      (by rw [hdl, hmulsub]; rw [List.length_cons] at hfuel; omega)
      (hus.sublist (List.drop_sublist _ _))
      (fun x hx => hsub x (List.drop_subset _ _ hx))
      (by rw [hdl, hmulsub]; rw [List.length_cons] at hdata; omega) (by omega)
    refine ⟨g', ?_, by omega, by omega, ?_, ?_⟩
    · rw [hts]
      unfold mapLoop
      rw [hix i0 u hi0]
      simp only
      rw [if_neg (not_not.2 htl), if_neg, ← hn, a1]
      · simp only
        rw [← hrest]
        exact b1
      · rw [not_not, List.head?_eq_getElem?, htp 0 hposF]
        simpa using hi0
    · intro i j k t hj hi hk v hv
      by_cases hjq : j < q
      · -- in this round
        have hij : i = i0 + j := by
          have := hsame j hjq
          rw [hj] at this
          have e1 := List.getElem?_eq_some_iff.1 hi
          have e2 := List.getElem?_eq_some_iff.1 this.symm
          by_contra hne
          have hnd : T.Nodup := hT.imp (fun h => ne_of_lt h)
          exact hne ((List.Nodup.getElem_inj_iff hnd).1 (e1.2.trans e2.2.symm))
        rw [b5]
        · have : i * F + k = i0 * F + (j * F + k) := by rw [hij]; ring
          rw [this]
          apply a4
          unfold sl
          rw [List.getElem?_take, if_pos, List.getElem?_drop]
          · rw [← hv]; congr 1; omega
          · have : (j + 1) * F ≤ q * F := Nat.mul_le_mul_right _ hjq
            rw [Nat.succ_mul] at this
            omega
        · right
          intro t' ht' hT'
          have hrow : (i * F + k) / F = i := by
            rw [Nat.mul_comm, Nat.mul_add_div hF, Nat.div_eq_of_lt hk, Nat.add_zero]
          rw [hrow, hi] at hT'
          obtain rfl := Option.some.inj hT'
          obtain ⟨j', hj'⟩ := List.mem_iff_getElem?.1 ht'
          rw [List.getElem?_drop] at hj'
          have hnd : (u :: us).Nodup := hus.imp (fun h => ne_of_lt h)
          have e1 := List.getElem?_eq_some_iff.1 hj
          have e2 := List.getElem?_eq_some_iff.1 hj'
          have := (List.Nodup.getElem_inj_iff hnd).1 (e1.2.trans e2.2.symm)
          omega
      · refine b4 i (j - q) k t ?_ hi hk v ?_
        · rw [List.getElem?_drop, ← hj]; congr 1; omega
        · rw [← hv]
          congr 1
          have : (j - q) * F = j * F - n := by rw [Nat.sub_mul, ← hdiv]
          have h2 : q * F ≤ j * F := Nat.mul_le_mul_right _ (by omega)
          omega
    · intro r c h
      rw [b5 r c, a5 r c]
      · rcases h with h | h
        · exact Or.inl h
        · right
          by_contra hcon
          have h1 : i0 * F ≤ r := by omega
          have h2 : r < i0 * F + n := by omega
          have h3 : r / F = i0 + (r - i0 * F) / F := by
            have : r = F * i0 + (r - i0 * F) := by rw [Nat.mul_comm F]; omega
            conv_lhs => rw [this]
            rw [Nat.mul_add_div hF]
          have h4 : (r - i0 * F) / F < q := by
            rw [Nat.div_lt_iff_lt_mul hF, ← hdiv]; omega
          have h5 := hsame _ h4
          rw [← h3] at h5
          have h6 : (r - i0 * F) / F < (u :: us).length := by rw [List.length_cons]; omega
          rw [List.getElem?_eq_getElem h6] at h5
          exact h _ (List.getElem_mem h6) h5.symm
      · rcases h with h | h
        · exact Or.inl h
        · exact Or.inr (fun t ht => h t (List.drop_subset _ _ ht))


/-! ### The loop ends -/

theorem nMatch_pos {t : Nat} {ts b : List Nat} (h : b.length = (t :: ts).length) (hb : b.head? = some t) :
    0 < nMatch (t :: ts) b := by
  obtain ⟨-, -, h3⟩ := nMatch_spec h
  by_contra h0
  have h0 : nMatch (t :: ts) b = 0 := by omega
  apply h3 (by rw [h0]; simp)
  rw [h0, List.getElem?_cons_zero, ← hb, List.head?_eq_getElem?]

theorem Grid.assign_ne {g : Grid W} {b : Bool} {start n col : Nat} {vals : List W} :
    g.assign b start n col vals ≠ .error .noReturn := by
  unfold Grid.assign
  split
  · simp
  · split
    · simp
    · split
      · split <;> simp
      · simp

theorem mapLoop_returns {ix : Dict Nat Nat} {perFrame : List Nat} {b : Bool} {data : List W} {col : Nat} :
    ∀ (fuel start : Nat) (tids : List Nat) (g : Grid W), tids.length ≤ fuel →
      mapLoop ix perFrame b data col fuel start tids g ≠ .error .noReturn := by
  intro fuel
  induction fuel with
  | zero =>
    intro start tids g h
    have : tids = [] := List.length_eq_zero_iff.1 (by omega)
    subst this
    unfold mapLoop
    simp
  | succ fuel ih =>
    intro start tids g h
    cases tids with
    | nil => unfold mapLoop; simp
    | cons t ts =>
      unfold mapLoop
      split
      · simp
      · rename_i tgt htgt
        simp only
        split
        · simp
        · rename_i h1
          split
          · simp
          · rename_i h2
            have hp := nMatch_pos (not_not.1 h1) (not_not.1 h2)
            split
            · rename_i e he
              intro hcon
              rw [Except.error.inj hcon] at he
              exact Grid.assign_ne he
            · apply ih
              rw [List.length_drop]
              omega

/-! ### Mapping one chunk -/

theorem npRepeatE_eq {α : Type _} {l : List α} {ns : List Nat} (h : ns.length = l.length) :
    npRepeatE l ns = .ok (npRepeat l ns) := by
  unfold npRepeatE
  split
  · rename_i n
    match l, h with
    | [a], _ => simp [npRepeat]
  · rw [if_pos h]

/-- The trains with frames of a part of an index. -/
def full (w : List (Nat × Nat × Nat)) : List (Nat × Nat × Nat) := w.filter (fun x => decide (0 < x.2.2))

theorem full_repeat {F : Nat} (w : List (Nat × Nat × Nat)) (hw : ∀ x ∈ w, x.2.2 = 0 ∨ x.2.2 = F) :
    npRepeat (w.map (fun x => x.1)) (w.map (fun x => x.2.2)) = ((full w).map (fun x => x.1)).flatMap (List.replicate F) := by
  induction w with
  | nil => rfl
  | cons x w ih =>
    have ih := ih (fun y hy => hw y (by simp [hy]))
    simp only [List.map_cons, npRepeat, full, List.filter_cons]
    rw [ih]
    by_cases hx : 0 < x.2.2
    · have : x.2.2 = F := by rcases hw x (by simp) with h | h <;> omega
      rw [if_pos (by simpa using hx), List.map_cons, List.flatMap_cons, this]
      rfl
    · rw [if_neg (by simpa using hx)]
      have : x.2.2 = 0 := by omega
      rw [this]
      rfl

theorem full_first {F : Nat} (w : List (Nat × Nat × Nat)) : ∀ (a : Nat), (w.head?.map (fun x => x.2.1) = some a ∨ w = []) →
    List.IsChain (fun x y : Nat × Nat × Nat => y.2.1 = x.2.1 + x.2.2) w → (∀ x ∈ w, x.2.2 = 0 ∨ x.2.2 = F) →
    ∀ (j : Nat) x, (full w)[j]? = some x → x.2.1 = a + j * F ∧ x.2.2 = F := by
  induction w with
  | nil => intro a _ _ _ j x h; simp [full] at h
  | cons y w ih =>
    intro a ha hc hw j x hj
    have ha' : y.2.1 = a := by simpa using ha
    subst ha'
    have ih' := ih (y.2.1 + y.2.2) (by
        cases w with
        | nil => simp
        | cons z w => simp [(List.isChain_cons_cons.1 hc).1])
      (by cases w with
        | nil => simp
        | cons z w => exact (List.isChain_cons_cons.1 hc).2)
      (fun z hz => hw z (by simp [hz]))
    unfold full at hj
    rw [List.filter_cons] at hj
    by_cases hy : 0 < y.2.2
    · have hyF : y.2.2 = F := by rcases hw y (by simp) with h | h <;> omega
      rw [if_pos (by simpa using hy)] at hj
      cases j with
      | zero =>
        obtain rfl := Option.some.inj hj
        exact ⟨by omega, hyF⟩
      | succ j =>
        rw [List.getElem?_cons_succ] at hj
        obtain ⟨h1, h2⟩ := ih' j x hj
        refine ⟨?_, h2⟩
        rw [h1, hyF]; ring
    · rw [if_neg (by simpa using hy)] at hj
      obtain ⟨h1, h2⟩ := ih' j x hj
      exact ⟨by omega, h2⟩

/-- The conditions on the detector object used here. -/
structure GoodDet (d : Det V) : Prop where
  sorted : d.data.trainIds.Pairwise (· < ·)
  frames : 0 < d.framesPerTrain
  files : NoConflict d.data.files

theorem trainIdToIx_get {d : Det V} (hd : GoodDet d) (i t : Nat) (h : d.data.trainIds[i]? = some t) :
    d.trainIdToIx.get? t = some (i * d.framesPerTrain) := by
  unfold Det.trainIdToIx
  apply Dict.get?_update_mem
  · rw [List.map_fst_zip (by simp)]
    exact hd.sorted.imp (fun h => ne_of_lt h)
  · apply List.mem_iff_getElem?.2
    have hlt := (List.getElem?_eq_some_iff.1 h).1
    exact ⟨i, by rw [List.getElem?_zip_eq_some]; exact ⟨h, by simp [hlt]⟩⟩

theorem mapChunk_spec {d : Det V} (hd : GoodDet d) {f : FileAccess V} {source key : Str} {ds : Dataset V} {ch : Chunk V}
    {w : List (Nat × Nat × Nat)} (hw : ChunkOf f source key ds ch w) (hsort : ch.trainIds.Pairwise (· < ·))
    (hsub : ∀ t ∈ ch.trainIds, t ∈ d.data.trainIds) (hcnt : ∀ x ∈ w, x.2.2 = 0 ∨ x.2.2 = d.framesPerTrain)
    {b : Bool} {col : Nat} (φ : V → W) (g : Grid W) (hcol : col < g.cols) :
    ∃ g', mapChunk d b col ch (ds.rows.map φ) g = .ok g' ∧ g'.rows = g.rows ∧ g'.cols = g.cols ∧
      (∀ x ∈ w, ∀ r k v, RowOf d.data.trainIds d.framesPerTrain r x.1 k → k < x.2.2 → ds.rows[x.2.1 + k]? = some v →
        g'.cell r col = φ v) ∧
      ∀ r c, (c ≠ col ∨ ∀ x ∈ w, 0 < x.2.2 → d.data.trainIds[r / d.framesPerTrain]? ≠ some x.1) → g'.cell r c = g.cell r c := by
  have hrep : npRepeatE ch.trainIds ch.counts = .ok (((full w).map (fun x => x.1)).flatMap (List.replicate d.framesPerTrain)) := by
    rw [npRepeatE_eq (by rw [hw.counts, hw.tids]; simp), hw.tids, hw.counts, full_repeat w hcnt]
  have hfirst := full_first w ch.first hw.head hw.chain hcnt
  have hfw : ∀ x ∈ full w, x ∈ w := fun x hx => (List.mem_filter.1 hx).1
  have hsl : ((full w).map (fun x => x.1)).Sublist ch.trainIds := by
    rw [hw.tids]; exact List.filter_sublist.map _
  have hlen : ch.first + ((full w).map (fun x => x.1)).length * d.framesPerTrain ≤ (ds.rows.map φ).length ∨ full w = [] := by
    by_cases hne : full w = []
    · exact Or.inr hne
    · left
      obtain ⟨x, hx⟩ : ∃ x, (full w)[(full w).length - 1]? = some x := by
        have : (full w).length ≠ 0 := by simpa using hne
        exact ⟨_, List.getElem?_eq_getElem (by omega)⟩
      obtain ⟨h1, h2⟩ := hfirst _ x hx
      have h3 := hw.bound x (hfw x (List.mem_of_getElem? hx))
      have h4 : (full w).length ≠ 0 := by simpa using hne
      have h5 : ((full w).length - 1) * d.framesPerTrain + d.framesPerTrain = (full w).length * d.framesPerTrain := by
        rw [← Nat.succ_mul]; congr 1; omega
      simp only [List.length_map]
      omega
  unfold mapChunk
  rw [hrep]
  simp only
  rcases hlen with hlen | hnil
  · obtain ⟨g', h1, h2, h3, h4, h5⟩ := mapLoop_spec hd.frames hd.sorted (ix := d.trainIdToIx) (trainIdToIx_get hd) (b := b)
      (data := ds.rows.map φ) (col := col) _ ((full w).map (fun x => x.1)) ch.first g (le_of_eq (rep_length _ _).symm)
      (hsort.sublist hsl) (fun u hu => hsub u (hsl.subset hu)) hlen hcol
    refine ⟨g', h1, h2, h3, ?_, ?_⟩
    · rintro x hx r k v ⟨i, hi, hk, rfl⟩ hkx hv
      have hxf : x ∈ full w := List.mem_filter.2 ⟨hx, by simpa using (by omega : 0 < x.2.2)⟩
      obtain ⟨j, hj⟩ := List.mem_iff_getElem?.1 hxf
      obtain ⟨e1, e2⟩ := hfirst j x hj
      refine h4 i j k x.1 (by rw [List.getElem?_map, hj]; rfl) hi hk (φ v) ?_
      rw [List.getElem?_map, ← e1, hv]; rfl
    · intro r c h
      apply h5
      rcases h with h | h
      · exact Or.inl h
      · right
        intro t ht
        obtain ⟨x, hx, rfl⟩ := List.mem_map.1 ht
        exact h x (hfw x hx) (by simpa using (List.mem_filter.1 hx).2)
  · rw [hnil]
    refine ⟨g, by simp [mapLoop], rfl, rfl, ?_, fun _ _ _ => rfl⟩
    intro x hx r k v _ hk
    have : x ∈ full w := List.mem_filter.2 ⟨hx, by simpa using (by omega : 0 < x.2.2)⟩
    rw [hnil] at this
    simp at this

/-! ### Mapping the chunks of a source -/

/-- All trains of a source have no frames or `F`. -/
def Spec.UniformFrames (c : DC V) (source key : Str) (F : Nat) : Prop :=
  ∀ f ∈ c.files, Holds f source → ∀ t ∈ c.trainIds, (fileEntries f true source key t).length = 0 ∨
    (fileEntries f true source key t).length = F

theorem entry_filter {rows : List V} {w : List (Nat × Nat × Nat)} (hn : (w.map (fun x => x.1)).Nodup) {x : Nat × Nat × Nat}
    (hx : x ∈ w) : (w.flatMap (entry rows)).filter (fun p => p.1 = x.1) = (slice rows x.2.1 x.2.2).map (fun v => (x.1, v)) := by
  induction w with
  | nil => simp at hx
  | cons y w ih =>
    rw [List.map_cons, List.nodup_cons] at hn
    rw [List.flatMap_cons, List.filter_append]
    rcases List.mem_cons.1 hx with rfl | hx
    · rw [List.filter_eq_self.2 (fun p hp => by simp [entry_fst hp]), List.filter_eq_nil_iff.2]
      · simp [entry]
      · intro p hp
        obtain ⟨z, hz, hpz⟩ := List.mem_flatMap.1 hp
        rw [entry_fst hpz]
        simp only [decide_eq_true_eq]
        intro he
        exact hn.1 (List.mem_map.2 ⟨z, hz, he⟩)
    · rw [ih hn.2 hx, List.filter_eq_nil_iff.2]
      · rfl
      · intro p hp
        rw [entry_fst hp]
        simp only [decide_eq_true_eq]
        intro he
        exact hn.1 (List.mem_map.2 ⟨x, hx, he.symm⟩)

theorem frames_flatMap {c : DC V} {source key : Str} {t k : Nat} {v : V} (hc : NoConflict c.files) (ht : t ∈ c.trainIds) :
    FrameAt c source key t k v ↔ ((c.sourceIndex source).flatMap (fun f =>
      if t ∈ c.trainIds then (fileEntries f true source key t).map (fun v => (t, v)) else []))[k]? = some (t, v) := by
  have hg : ∀ f' : FileAccess V, t ∉ f'.trainIds →
      (if t ∈ c.trainIds then (fileEntries f' true source key t).map (fun v => (t, v)) else []) = [] := by
    intro f' h
    rw [fileEntries_notMem h]
    simp
  constructor
  · rintro ⟨f, hf, hh, hv⟩
    have htf : t ∈ f.trainIds := by
      by_contra h
      rw [fileEntries_notMem h] at hv
      simp at hv
    rw [sourceIndex_flatMap hc hf hh htf _ hg, if_pos ht, List.getElem?_map, hv]
    rfl
  · intro h
    by_cases hex : ∃ f ∈ c.sourceIndex source, t ∈ f.trainIds
    · obtain ⟨f, hf, htf⟩ := hex
      obtain ⟨h1, h2⟩ := mem_sourceIndex.1 hf
      rw [sourceIndex_flatMap hc h1 h2 htf _ hg, if_pos ht, List.getElem?_map] at h
      refine ⟨f, h1, h2, ?_⟩
      cases he : (fileEntries f true source key t)[k]? with
      | none => rw [he] at h; simp at h
      | some u => rw [he] at h; simpa using h
    · rw [List.flatMap_eq_nil_iff.2] at h
      · simp at h
      · intro f hf
        exact hg f (fun htf => hex ⟨f, hf, htf⟩)

/-- The chunks of a source, as needed for mapping them. -/
theorem chunks_frames {c : DC V} {source key : Str} (hc : NoConflict c.files) (hv : FollowsIn c c.trainIds true source key)
    (hk : source ∈ c.selection.keys) :
    ∃ chunks, c.findDataChunks source key = .ok chunks ∧
      (∀ ch ∈ chunks, ch.trainIds.Pairwise (· < ·) ∧ (∀ t ∈ ch.trainIds, t ∈ c.trainIds) ∧
        ∃ f ds w, f ∈ c.files ∧ Holds f source ∧ f.dataset (ch! "INSTRUMENT") source key = .ok ds ∧ ch.dataset = .ok ds ∧
          ChunkOf f source key ds ch w ∧
          ∀ x ∈ w, ∀ k v, FrameAt c source key x.1 k v ↔ k < x.2.2 ∧ ds.rows[x.2.1 + k]? = some v) ∧
      chunks.Pairwise (fun a b => ∀ t ∈ a.trainIds, t ∉ b.trainIds) ∧
      ∀ t ∈ c.trainIds, ∀ k v, FrameAt c source key t k v → ∃ ch ∈ chunks, t ∈ ch.trainIds := by
  by_cases hex : ∃ f ∈ c.files, Holds f source
  · have hs : source ∈ c.allSources := mem_allSources.2 ⟨hk, hex⟩
    have hr : ∀ f ∈ c.files, Holds f source → ReadableField f c.trainIds true source key := fun f hf hh =>
      followsOn_readable (hv f hf hh).2.2.1 (hv f hf hh).2.1 (hv f hf hh).2.2.2
    obtain ⟨sorted, h1, hc3, h7', hc6, h5⟩ := sortedChunks_any hc hr hs
    have h3 : ∀ ch ∈ sorted, ∃ f ∈ c.files, Holds f source ∧ ch.file = f ∧ ∃ ds w,
        f.dataset (sectionName true) source key = .ok ds ∧ ch.dataset = .ok ds ∧ ChunkOf f source key ds ch w := by
      intro ch hch
      obtain ⟨ds, w, d1, d2⟩ := hc3 ch hch
      obtain ⟨e1, e2, e3, -⟩ := hc6 ch hch
      exact ⟨ch.file, e1, e2, rfl, ds, w, e3 ds d1, d1, d2⟩
    have h6 : ∀ ch ∈ sorted, ∀ t ∈ ch.trainIds, t ∈ c.trainIds ∧ t ∈ ch.file.trainIds := fun ch hch t ht =>
      ⟨(hc6 ch hch).2.2.2.2 t ht, (hc6 ch hch).2.2.2.1.subset ht⟩
    have h8 : ∀ ch ∈ sorted, ch.trainIds.Pairwise (· < ·) := fun ch hch =>
      (hv _ (hc6 ch hch).1 (hc6 ch hch).2.1).1.sublist (hc6 ch hch).2.2.2.1
    have h7 : ∀ t, (sorted.flatMap lab).filter (fun x => x.1 = t) = (c.sourceIndex source).flatMap (fun f =>
        if t ∈ c.trainIds then (fileEntries f true source key t).map (fun v => (t, v)) else []) := by
      intro t
      rw [h7' t]
      apply List.flatMap_congr
      intro f hf
      by_cases ht : t ∈ c.trainIds
      · obtain ⟨-, -, a3, a4⟩ := hv f (mem_sourceIndex.1 hf).1 (mem_sourceIndex.1 hf).2
        rw [if_pos ht, if_pos ht, readEntries_follows a3 a4 ht]
      · rw [if_neg ht, if_neg ht]
    unfold DC.sortedChunks at h1
    cases hf : c.findDataChunks source key with
    | error e => rw [hf] at h1; simp at h1
    | ok chunks =>
      rw [hf] at h1
      obtain rfl := Except.ok.inj h1
      have hperm : (sortBy Chunk.sortKey chunks).Perm chunks := List.perm_insertionSort _ _
      refine ⟨chunks, rfl, ?_, ?_, ?_⟩
      · intro ch hch
        have hch' := hperm.mem_iff.2 hch
        obtain ⟨f, hf', hh, hfile, ds, w, g1, g2, g3⟩ := h3 ch hch'
        refine ⟨h8 ch hch', fun t ht => (h6 ch hch' t ht).1, f, ds, w, hf', hh, g1, g2, g3, ?_⟩
        intro x hx k v
        have htc : x.1 ∈ ch.trainIds := by rw [g3.tids]; exact List.mem_map.2 ⟨x, hx, rfl⟩
        rw [frames_flatMap hc (h6 ch hch' _ htc).1, ← h7 x.1]
        -- only this chunk has the train
        have hone : ((sortBy Chunk.sortKey chunks).flatMap lab).filter (fun p => p.1 = x.1) = (lab ch).filter (fun p => p.1 = x.1) := by
          obtain ⟨l1, l2, hl⟩ := List.append_of_mem hch'
          rw [hl] at h5 ⊢
          rw [List.pairwise_append, List.pairwise_cons] at h5
          have hno : ∀ ch' : Chunk V, x.1 ∉ ch'.trainIds → (lab ch').filter (fun p => decide (p.1 = x.1)) = [] := by
            intro ch' hn
            rw [List.filter_eq_nil_iff]
            intro p hp
            simp only [decide_eq_true_eq]
            intro he
            exact hn (he ▸ lab_mem hp)
          rw [List.flatMap_append, List.flatMap_cons, List.filter_append, List.filter_append]
          have e1 : (l1.flatMap lab).filter (fun p => decide (p.1 = x.1)) = [] := by
            rw [List.filter_flatMap, List.flatMap_eq_nil_iff]
            intro ch' hch''
            exact hno ch' (fun hin => h5.2.2 ch' hch'' ch (by simp) _ hin htc)
          have e2 : (l2.flatMap lab).filter (fun p => decide (p.1 = x.1)) = [] := by
            rw [List.filter_flatMap, List.flatMap_eq_nil_iff]
            intro ch' hch''
            exact hno ch' (h5.2.1.1 ch' hch'' _ htc)
          rw [e1, e2]; simp
        have hnd : (w.map (fun x => x.1)).Nodup := by
          rw [← g3.tids]; exact (h8 ch hch').imp (fun h => ne_of_lt h)
        rw [hone, (chunkOf_lab g2 g3).1, entry_filter hnd hx, List.getElem?_map]
        unfold slice
        rw [List.getElem?_take]
        by_cases hkx : k < x.2.2
        · rw [if_pos hkx, List.getElem?_drop]
          cases ds.rows[x.2.1 + k]? with
          | none => simp
          | some u => simp [hkx]
        · simp [hkx]
      · refine (hperm.pairwise_iff (fun {a b} h t ht htb => ?_)).1 h5
        exact h t htb ht
      · intro t ht k v hfr
        rw [frames_flatMap hc ht, ← h7 t] at hfr
        have := List.mem_of_getElem? hfr
        obtain ⟨hm, -⟩ := List.mem_filter.1 this
        obtain ⟨ch, hch, hm⟩ := List.mem_flatMap.1 hm
        exact ⟨ch, hperm.mem_iff.1 hch, lab_mem hm⟩
  · have hnil : c.sourceIndex source = [] := by
      by_contra hne
      obtain ⟨f, hf⟩ := List.exists_mem_of_ne_nil _ hne
      exact hex ⟨f, (mem_sourceIndex.1 hf).1, (mem_sourceIndex.1 hf).2⟩
    refine ⟨[], ?_, by simp, by simp, ?_⟩
    · unfold DC.findDataChunks
      rw [hnil]
      rfl
    · rintro t ht k v ⟨f, hf, hh, -⟩
      exact absurd ⟨f, hf, hh⟩ hex

theorem rowOf_div {T : List Nat} {F r t k : Nat} (h : RowOf T F r t k) : T[r / F]? = some t ∧ k = r % F := by
  obtain ⟨i, hi, hk, rfl⟩ := h
  have hF : 0 < F := by omega
  rw [Nat.mul_comm, Nat.mul_add_div hF, Nat.div_eq_of_lt hk, Nat.add_zero, Nat.mul_add_mod, Nat.mod_eq_of_lt hk]
  exact ⟨hi, rfl⟩

theorem rowOf_of_div {T : List Nat} {F r t : Nat} (hF : 0 < F) (h : T[r / F]? = some t) : RowOf T F r t (r % F) :=
  ⟨r / F, h, Nat.mod_lt _ hF, by rw [Nat.mul_comm]; exact (Nat.div_add_mod r F).symm⟩

/-- Mapping one source into its column. -/
theorem mapSource_spec {d : Det V} (hd : GoodDet d) {source key : Str} {col : Nat} (hv : FollowsIn d.data d.data.trainIds true source key)
    (hk : source ∈ d.data.selection.keys) (hu : UniformFrames d.data source key d.framesPerTrain)
    {b : Bool} {conv : Dataset V → R (List W)} {φ : V → W}
    (hconv : ∀ f ∈ d.data.files, Holds f source → ∀ ds, f.dataset (ch! "INSTRUMENT") source key = .ok ds →
      conv ds = .ok (ds.rows.map φ)) (g : Grid W) (hcol : col < g.cols) :
    ∃ g', mapSource d b key conv g (source, col) = .ok g' ∧ g'.rows = g.rows ∧ g'.cols = g.cols ∧
      (∀ r t k v, RowOf d.data.trainIds d.framesPerTrain r t k → FrameAt d.data source key t k v → g'.cell r col = φ v) ∧
      ∀ r c, (c ≠ col ∨ ∀ t k v, RowOf d.data.trainIds d.framesPerTrain r t k → ¬ FrameAt d.data source key t k v) →
        g'.cell r c = g.cell r c := by
  obtain ⟨chunks, h1, h2, h3, h4⟩ := chunks_frames hd.files hv hk
  unfold mapSource
  simp only [h1]
  have key' : ∀ (l : List (Chunk V)) (g : Grid W), (∀ ch ∈ l, ch ∈ chunks) →
      l.Pairwise (fun a b => ∀ t ∈ a.trainIds, t ∉ b.trainIds) → col < g.cols →
      ∃ g', foldE (fun g (ch : Chunk V) =>
        match ch.dataset with
        | .error e => .error e
        | .ok ds =>
          match conv ds with
          | .error e =>
            match npRepeatE ch.trainIds ch.counts with
            | .ok [] => .ok g
            | _ => .error e
          | .ok data => mapChunk d b col ch data g) g l = .ok g' ∧ g'.rows = g.rows ∧ g'.cols = g.cols ∧
        (∀ ch ∈ l, ∀ r t k v, t ∈ ch.trainIds → RowOf d.data.trainIds d.framesPerTrain r t k → FrameAt d.data source key t k v →
          g'.cell r col = φ v) ∧
        ∀ r c, (c ≠ col ∨ ∀ ch ∈ l, ∀ t k v, t ∈ ch.trainIds → RowOf d.data.trainIds d.framesPerTrain r t k →
          ¬ FrameAt d.data source key t k v) → g'.cell r c = g.cell r c := by
    intro l
    induction l with
    | nil => intro g _ _ _; exact ⟨g, rfl, rfl, rfl, by simp, fun _ _ _ => rfl⟩
    | cons ch l ih =>
      intro g hl hp hcol
      obtain ⟨p1, p2⟩ := List.pairwise_cons.1 hp
      obtain ⟨q1, q2, f, ds, w, q3, q4, q5, q6, q7, q8⟩ := h2 ch (hl ch (by simp))
      have hcnt : ∀ x ∈ w, x.2.2 = 0 ∨ x.2.2 = d.framesPerTrain := by
        intro x hx
        by_cases h0 : x.2.2 = 0
        · exact Or.inl h0
        · right
          have hb := q7.bound x hx
          have htx : x.1 ∈ d.data.trainIds := q2 _ (by rw [q7.tids]; exact List.mem_map.2 ⟨x, hx, rfl⟩)
          have hfr := (q8 x hx (x.2.2 - 1) (ds.rows[x.2.1 + (x.2.2 - 1)]'(by omega))).2
            ⟨by omega, List.getElem?_eq_getElem _⟩
          obtain ⟨f', e1, e2, e3⟩ := hfr
          have elen : (fileEntries f' true source key x.1).length = x.2.2 := by
            apply le_antisymm
            · by_contra hlt
              have hlt : x.2.2 < (fileEntries f' true source key x.1).length := by omega
              have := (q8 x hx x.2.2 _).1 ⟨f', e1, e2, List.getElem?_eq_getElem hlt⟩
              omega
            · have := (List.getElem?_eq_some_iff.1 e3).1
              omega
          rcases hu f' e1 e2 x.1 htx with h | h <;> omega
      obtain ⟨g1, m1, m2, m3, m4, m5⟩ := mapChunk_spec hd q7 q1 q2 hcnt (b := b) φ g hcol
      obtain ⟨g', n1, n2, n3, n4, n5⟩ := ih g1 (fun c hc => hl c (by simp [hc])) p2 (by omega)
      refine ⟨g', ?_, by omega, by omega, ?_, ?_⟩
      · unfold foldE
        simp only [q6, hconv f q3 q4 ds q5, m1]
        exact n1
      · intro ch' hch' r t k v ht hr hfr
        rcases List.mem_cons.1 hch' with rfl | hch'
        · rw [n5]
          · obtain ⟨x, hx, rfl⟩ := List.mem_map.1 (q7.tids ▸ ht)
            obtain ⟨e1, e2⟩ := (q8 x hx k v).1 hfr
            exact m4 x hx r k v hr e1 e2
          · right
            intro ch'' hch'' t' k' v' ht' hr' _
            have : t' = t := by
              have a1 := (rowOf_div hr).1
              have a2 := (rowOf_div hr').1
              rw [a1] at a2
              exact (Option.some.inj a2).symm
            subst this
            exact p1 ch'' hch'' _ ht ht'
        · exact n4 ch' hch' r t k v ht hr hfr
      · intro r c h
        rw [n5 r c, m5 r c]
        · rcases h with h | h
          · exact Or.inl h
          · right
            intro x hx hpos hT
            have hb := q7.bound x hx
            have hr := rowOf_of_div hd.frames hT
            have hxF : x.2.2 = d.framesPerTrain := by rcases hcnt x hx with h | h <;> omega
            have hlt : r % d.framesPerTrain < x.2.2 := by rw [hxF]; exact Nat.mod_lt _ hd.frames
            exact h ch (by simp) x.1 _ (ds.rows[x.2.1 + r % d.framesPerTrain]'(by omega))
              (by rw [q7.tids]; exact List.mem_map.2 ⟨x, hx, rfl⟩) hr
              ((q8 x hx _ _).2 ⟨hlt, List.getElem?_eq_getElem _⟩)
        · rcases h with h | h
          · exact Or.inl h
          · exact Or.inr (fun ch' hch' => h ch' (by simp [hch']))
  obtain ⟨g', k1, k2, k3, k4, k5⟩ := key' chunks g (fun _ h => h) h3 hcol
  refine ⟨g', k1, k2, k3, ?_, ?_⟩
  · intro r t k v hr hfr
    have ht : t ∈ d.data.trainIds := by
      obtain ⟨i, hi, -⟩ := hr
      exact List.mem_of_getElem? hi
    obtain ⟨ch, hch, htc⟩ := h4 t ht k v hfr
    exact k4 ch hch r t k v htc hr hfr
  · intro r c h
    apply k5
    rcases h with h | h
    · exact Or.inl h
    · exact Or.inr (fun ch _ t k v _ => h t k v)

/-- Mapping all sources. -/
theorem mapSources_spec {d : Det V} (hd : GoodDet d) {key : Str} {b : Bool} {conv : Dataset V → R (List W)} {φ : V → W} :
    ∀ (l : List (Str × Nat)) (g : Grid W), (∀ x ∈ l, FollowsIn d.data d.data.trainIds true x.1 key ∧ x.1 ∈ d.data.selection.keys ∧
      UniformFrames d.data x.1 key d.framesPerTrain ∧ x.2 < g.cols ∧
      ∀ f ∈ d.data.files, Holds f x.1 → ∀ ds, f.dataset (ch! "INSTRUMENT") x.1 key = .ok ds → conv ds = .ok (ds.rows.map φ)) →
    (l.map Prod.snd).Nodup →
    ∃ g', foldE (mapSource d b key conv) g l = .ok g' ∧ g'.rows = g.rows ∧ g'.cols = g.cols ∧
      (∀ x ∈ l, ∀ r t k v, RowOf d.data.trainIds d.framesPerTrain r t k → FrameAt d.data x.1 key t k v → g'.cell r x.2 = φ v) ∧
      ∀ r c, (∀ x ∈ l, x.2 = c → ∀ t k v, RowOf d.data.trainIds d.framesPerTrain r t k → ¬ FrameAt d.data x.1 key t k v) →
        g'.cell r c = g.cell r c := by
  intro l
  induction l with
  | nil => intro g _ _; exact ⟨g, rfl, rfl, rfl, by simp, fun _ _ _ => rfl⟩
  | cons x l ih =>
    intro g hl hn
    rw [List.map_cons, List.nodup_cons] at hn
    obtain ⟨h1, h2, h3, h4, h5⟩ := hl x (by simp)
    obtain ⟨g1, m1, m2, m3, m4, m5⟩ := mapSource_spec hd h1 h2 h3 h5 (b := b) g h4
    obtain ⟨g', n1, n2, n3, n4, n5⟩ := ih g1 (fun y hy => by
      obtain ⟨a1, a2, a3, a4, a5⟩ := hl y (by simp [hy])
      exact ⟨a1, a2, a3, by omega, a5⟩) hn.2
    refine ⟨g', ?_, by omega, by omega, ?_, ?_⟩
    · unfold foldE
      simp only [m1]
      exact n1
    · intro y hy r t k v hr hfr
      rcases List.mem_cons.1 hy with rfl | hy
      · rw [n5]
        · exact m4 r t k v hr hfr
        · intro z hz he
          exact absurd (List.mem_map.2 ⟨z, hz, he⟩) hn.1
      · exact n4 y hy r t k v hr hfr
    · intro r c h
      rw [n5 r c (fun y hy => h y (by simp [hy])), m5 r c]
      by_cases hc : c = x.2
      · exact Or.inr (h x (by simp) hc.symm)
      · exact Or.inl hc

end KD
