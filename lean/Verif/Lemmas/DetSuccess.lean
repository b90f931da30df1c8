/- When arrays of detector data can be made. -/
import Verif.Lemmas.DetArray

set_option linter.unusedSimpArgs false

namespace KD
open Spec

variable {V : Type}

theorem strictlyIncreasing_iff : ∀ (l : List Nat), strictlyIncreasing l = true ↔ l.Pairwise (· < ·) := by
  intro l
  induction l with
  | nil => simp [strictlyIncreasing]
  | cons a l ih =>
    cases l with
    | nil => simp [strictlyIncreasing]
    | cons b l =>
      simp only [strictlyIncreasing, Bool.and_eq_true, decide_eq_true_eq, ih]
      constructor
      · rintro ⟨h1, h2⟩
        rw [List.pairwise_cons]
        refine ⟨?_, h2⟩
        intro x hx
        rcases List.mem_cons.1 hx with rfl | hx
        · exact h1
        · have := (List.pairwise_cons.1 h2).1 x hx
          omega
      · intro h
        rw [List.pairwise_cons] at h
        exact ⟨h.1 b (by simp), h.2⟩

theorem mapE_nth_ok {α : Type _} {l : List α} {qs : List Nat} (h : ∀ q ∈ qs, q < l.length) : ∃ r, mapE (nth l) qs = .ok r :=
  mapE_exists_ok (fun q hq => ⟨l[q]'(h q hq), (nth_ok_iff).2 (List.getElem?_eq_getElem (h q hq))⟩)

theorem npTake_ok {α : Type _} {l : List α} {pos : Positions} {qs : List Nat} (hp : Reads pos qs l.length)
    (h : ∀ q ∈ qs, q < l.length) : ∃ r, npTake l pos = .ok r := by
  rcases hp with ⟨rfl, rfl⟩ | rfl
  · exact ⟨_, rfl⟩
  · exact mapE_nth_ok h

theorem h5Take_ok {rows : List V} {a n : Nat} {pos : Positions} {qs : List Nat} (hn : a + n ≤ rows.length) (hp : Reads pos qs n)
    (h : ∀ q ∈ qs, q < n) (hs : qs.Pairwise (· < ·)) : ∃ r, h5Take true rows a pos = .ok r := by
  rcases hp with ⟨rfl, rfl⟩ | rfl
  · exact ⟨_, rfl⟩
  · cases qs with
    | nil => exact ⟨_, rfl⟩
    | cons q qs =>
      simp only [h5Take, h5Fancy]
      rw [if_pos]
      · obtain ⟨r, hr⟩ := mapE_nth_ok (l := rows) (qs := (q :: qs).map (fun p => a + p)) (by
          intro x hx
          obtain ⟨y, hy, rfl⟩ := List.mem_map.1 hx
          have := h y hy
          omega)
        rw [hr]
        exact ⟨_, rfl⟩
      · rw [strictlyIncreasing_iff, List.pairwise_map]
        exact hs.imp (fun h => by omega)

theorem selectPulseIndices_ok {set : PulseSet} {a : Nat} {fs cs : List Nat}
    (hc : Follow fs cs a) (hl : fs.length = cs.length) (hset : set.desired.Pairwise (· < ·)) :
    ∃ pos qs, selectPulseIndices set a fs cs = .ok pos ∧ Reads pos qs cs.sum ∧ qs.Pairwise (· < ·) ∧ ∀ q ∈ qs, q < cs.sum := by
  unfold selectPulseIndices
  split
  · exact ⟨_, List.range cs.sum, rfl, Or.inl ⟨rfl, rfl⟩, List.pairwise_lt_range, fun q hq => List.mem_range.1 hq⟩
  · have hall : ∀ fc ∈ fs.zip cs, trainPositions set.desired a fc =
        .ok ((set.desired.filter (fun k => decide (k < fc.2))).map (fun k => fc.1 - a + k)) := by
      intro fc hfc
      obtain ⟨i, e1, e2⟩ := mem_zip_get.1 (show (fc.1, fc.2) ∈ fs.zip cs from hfc)
      unfold trainPositions
      simp only
      by_cases hz : fc.2 = 0
      · rw [if_neg]
        rw [hz]
        simp
      · have := hc _ _ _ e1 e2 hz
        rw [if_neg (by omega)]
    have hm := mapE_ok_of_forall hall
    rw [hm]
    refine ⟨_, _, rfl, Or.inr rfl, ?_, ?_⟩
    · rw [List.pairwise_flatten]
      constructor
      · intro l hl
        obtain ⟨fc, -, rfl⟩ := List.mem_map.1 hl
        rw [List.pairwise_map]
        exact (hset.filter _).imp (fun h => by omega)
      · rw [List.pairwise_map, List.pairwise_iff_getElem]
        intro i j hi hj hij x hx y hy
        simp only [List.length_zip] at hi hj
        simp only [List.getElem_zip, List.mem_map, List.mem_filter, decide_eq_true_eq] at hx hy
        obtain ⟨k, ⟨-, hk⟩, rfl⟩ := hx
        obtain ⟨k', ⟨-, hk'⟩, rfl⟩ := hy
        have e1 := hc _ _ _ (List.getElem?_eq_getElem (show i < fs.length by omega))
          (List.getElem?_eq_getElem (show i < cs.length by omega)) (by omega)
        have e2 := hc _ _ _ (List.getElem?_eq_getElem (show j < fs.length by omega))
          (List.getElem?_eq_getElem (show j < cs.length by omega)) (by omega)
        have e3 := take_sum_succ (List.getElem?_eq_getElem (show i < cs.length by omega))
        have e4 := take_sum_mono cs (show i + 1 ≤ j by omega)
        omega
    · intro q hq
      obtain ⟨l, hl', hq⟩ := List.mem_flatten.1 hq
      obtain ⟨fc, hfc, rfl⟩ := List.mem_map.1 hl'
      obtain ⟨i, e1, e2⟩ := mem_zip_get.1 (show (fc.1, fc.2) ∈ fs.zip cs from hfc)
      simp only [List.mem_map, List.mem_filter, decide_eq_true_eq] at hq
      obtain ⟨k, ⟨-, hk⟩, rfl⟩ := hq
      have e := hc _ _ _ e1 e2 (by omega)
      have e3 := take_sum_succ e2
      have e4 := take_sum_mono cs (show i + 1 ≤ cs.length by
        have := (List.getElem?_eq_some_iff.1 e2).1; omega)
      rw [List.take_length] at e4
      omega

theorem selectPulseIds_ok (set : PulseSet) (ids : List Nat) :
    ∃ qs, Reads (selectPulseIds set ids) qs ids.length ∧ qs.Pairwise (· < ·) ∧ ∀ q ∈ qs, q < ids.length := by
  unfold selectPulseIds
  split
  · exact ⟨List.range ids.length, Or.inl ⟨rfl, rfl⟩, List.pairwise_lt_range, fun q hq => List.mem_range.1 hq⟩
  · refine ⟨_, Or.inr rfl, nonzero_pairwise _, ?_⟩
    intro q hq
    unfold isinPositions at hq
    rw [mem_nonzero] at hq
    simpa using (List.getElem?_eq_some_iff.1 hq).1

theorem pulsePositions_ok {ps : Pulses} {tids fs cs ids : List Nat} {a : Nat}
    (hc : Follow fs cs a) (hl : fs.length = cs.length) (h1 : tids.length = cs.sum)
    (h2 : ids.length = cs.sum) (hset : ps.byId = false → ps.set.desired.Pairwise (· < ·)) :
    ∃ pos qs ts qps, pulsePositions ps tids a fs cs ids = .ok (pos, ts.zip qps) ∧ Reads pos qs cs.sum ∧
      mapE (nth tids) qs = .ok ts ∧ mapE (nth ids) qs = .ok qps ∧ qs.Pairwise (· < ·) ∧ ∀ q ∈ qs, q < cs.sum := by
  have key : ∃ pos qs, (if ps.byId then .ok (selectPulseIds ps.set ids) else selectPulseIndices ps.set a fs cs) = .ok pos ∧
      Reads pos qs cs.sum ∧ qs.Pairwise (· < ·) ∧ ∀ q ∈ qs, q < cs.sum := by
    by_cases hb : ps.byId
    · rw [if_pos hb]
      obtain ⟨qs, r1, r2, r3⟩ := selectPulseIds_ok ps.set ids
      rw [h2] at r1 r3
      exact ⟨_, qs, rfl, r1, r2, r3⟩
    · rw [if_neg hb]
      exact selectPulseIndices_ok hc hl (hset (by simpa using hb))
  obtain ⟨pos, qs, e, r1, r2, r3⟩ := key
  obtain ⟨ts, hts⟩ := npTake_ok (l := tids) (by rw [h1]; exact r1) (by rw [h1]; exact r3)
  obtain ⟨qps, hqps⟩ := npTake_ok (l := ids) (by rw [h2]; exact r1) (by rw [h2]; exact r3)
  have m1 := npTake_reads (by rw [h1]; exact r1) hts
  have m2 := npTake_reads (by rw [h2]; exact r1) hqps
  refine ⟨pos, qs, ts, qps, ?_, r1, m1, m2, r2, r3⟩
  unfold pulsePositions
  rw [e]
  simp only [hts, hqps]
  rw [if_pos]
  rw [mapE_length m1, mapE_length m2]

/-- If all numbers between two members are members, positions and numbers have the same distance. -/
theorem increasing_dense {l : List Nat} (h : l.Pairwise (· < ·)) {i j x y : Nat} (hi : l[i]? = some x) (hj : l[j]? = some y)
    (hxy : x ≤ y) (hd : ∀ t, x ≤ t → t ≤ y → t ∈ l) : j = i + (y - x) := by
  have hstep : ∀ n, x + n ≤ y → l[i + n]? = some (x + n) := by
    intro n
    induction n with
    | zero => intro _; simpa using hi
    | succ n ih =>
      intro hn
      have hn' := ih (by omega)
      obtain ⟨m, hm⟩ := List.getElem?_of_mem (hd (x + n + 1) (by omega) (by omega))
      have hlt : i + n < m := by
        by_contra hc
        have := increasing_step h (i := m) (d := i + n - m) hm (by rw [show m + (i + n - m) = i + n by omega]; exact hn')
        omega
      have hml := (List.getElem?_eq_some_iff.1 hm).1
      have e : l[i + n + 1]? = some l[i + n + 1] := List.getElem?_eq_getElem (by omega)
      have h1 := increasing_step h (i := i + n) (d := 1) hn' e
      have h2 := increasing_step h (i := i + n + 1) (d := m - (i + n + 1)) e (by
        rw [show i + n + 1 + (m - (i + n + 1)) = m by omega]; exact hm)
      have : m = i + n + 1 := by omega
      subst this
      exact hm
  have e := hstep (y - x) (by omega)
  rw [show x + (y - x) = y by omega] at e
  have hn : l.Nodup := h.imp (fun h => by omega)
  obtain ⟨ha, ha'⟩ := List.getElem?_eq_some_iff.1 hj
  obtain ⟨hb, hb'⟩ := List.getElem?_eq_some_iff.1 e
  exact (List.Nodup.getElem_inj_iff hn).1 (ha'.trans hb'.symm)

/-- The shape of entries without the extra dimension. -/
theorem squeezeShape_eq (shape : List Nat) : squeezeShape shape = if shape.head? = some 1 then shape.tail else shape := by
  cases shape with
  | nil => rfl
  | cons a l =>
    by_cases h : a = 1
    · subst h; rfl
    · unfold squeezeShape
      simp only [List.head?_cons, Option.some.injEq, h, if_false]
      split
      · rename_i e; exact absurd (List.cons.inj e).1 h
      · rfl

theorem rangeData_ok {num : V → Nat} {source key : Str} {ps : Pulses} {f : FileAccess V} {firsts counts : List Nat}
    {x y i j : Nat} (hi : f.trainIds[i]? = some x) (hj : f.trainIds[j]? = some y) (hxy : x ≤ y)
    (hix : f.getIndex source (partition '.' key).1 = .ok (firsts, counts)) (hp : f.trainIds.Pairwise (· < ·))
    (l1 : firsts.length = f.trainIds.length) (l1' : counts.length = f.trainIds.length) {ds1 ds2 : Dataset V}
    (d1 : f.dataset (ch! "INSTRUMENT") source key = .ok ds1)
    (d2 : f.dataset (ch! "INSTRUMENT") source (pulseIdKey key) = .ok ds2)
    (r1 : y = x + (j - i) → RunRange firsts counts i j ds1.rows.length)
    (r2 : y = x + (j - i) → RunRange firsts counts i j ds2.rows.length)
    (hdense : ∀ t, x ≤ t → t ≤ y → t ∈ f.trainIds) (hset : ps.byId = false → ps.set.desired.Pairwise (· < ·))
    (hshape : ∀ ds, f.dataset (ch! "INSTRUMENT") source key = .ok ds → (squeezeShape ds.rowShape).length = 3 ∨
      (squeezeShape ds.rowShape).length = 2 ∨ (squeezeShape ds.rowShape).length = 0)
    (huniq : ∀ t k k' p v v', FrameIn num f source key t k p v → FrameIn num f source key t k' p v' → k = k') :
    ∃ a, rangeData num source key ps f firsts counts x y i j = .ok a := by
  have hilt : i < f.trainIds.length := (List.getElem?_eq_some_iff.1 hi).1
  have hjlt : j < f.trainIds.length := (List.getElem?_eq_some_iff.1 hj).1
  have hji := increasing_dense hp hi hj hxy hdense
  have flen : (sl firsts i (j + 1)).length = j + 1 - i := sl_length _ _ _ (by omega)
  have clen : (sl counts i (j + 1)).length = j + 1 - i := sl_length _ _ _ (by omega)
  have lensame : (sl firsts i (j + 1)).length = (sl counts i (j + 1)).length := by omega
  obtain ⟨a0, ha0⟩ : ∃ a0, (sl firsts i (j + 1))[0]? = some a0 := ⟨_, List.getElem?_eq_getElem (by omega)⟩
  obtain ⟨lf, hlf⟩ : ∃ lf, firsts[j]? = some lf := ⟨_, List.getElem?_eq_getElem (by omega)⟩
  obtain ⟨lc, hlc⟩ : ∃ lc, counts[j]? = some lc := ⟨_, List.getElem?_eq_getElem (by omega)⟩
  have htids : npRepeatE (arange x (y + 1) 1) (sl counts i (j + 1)) =
      .ok (npRepeat (List.range' x (y + 1 - x)) (sl counts i (j + 1))) := by
    rw [arange_cons]
    unfold npRepeatE
    split
    · rename_i n hn
      rw [hn] at clen
      simp at clen
      have : y + 1 - x = 1 := by omega
      rw [hn, this]
      simp [npRepeat]
    · rw [if_pos (by rw [clen]; simp; omega)]
  have htlen : (npRepeat (List.range' x (y + 1 - x)) (sl counts i (j + 1))).length = (sl counts i (j + 1)).sum :=
    npRepeat_length _ _ (by simp; omega)
  have hyx : y = x + (j - i) := by omega
  have hfa : firsts[i]? = some a0 := by
    rw [sl_getElem?, if_pos (by omega)] at ha0; exact ha0
  obtain ⟨bd1, w1⟩ := r1 hyx a0 hfa
  obtain ⟨bd2, -⟩ := r2 hyx a0 hfa
  have cont : Follow (sl firsts i (j + 1)) (sl counts i (j + 1)) a0 := by
    intro k b n e1 e2 hn
    have hk : k < j + 1 - i := by
      have := (List.getElem?_eq_some_iff.1 e1).1
      omega
    rw [sl_getElem?, if_pos (by omega)] at e1 e2
    rw [sl_take _ (by omega)]
    exact w1 (i + k) b n (by omega) (by omega) e1 e2 (Or.inl hn)
  have hend : lf + lc = a0 + (sl counts i (j + 1)).sum := by
    have e2 : (sl counts i (j + 1))[j - i]? = some lc := by
      rw [sl_getElem?, if_pos (by omega), show i + (j - i) = j by omega]; exact hlc
    have e3 := w1 j lf lc (by omega) (le_refl _) hlf hlc (Or.inr rfl)
    have e4 := take_sum_succ e2
    rw [List.take_of_length_le (by omega), sl_take _ (by omega), show i + (j - i) = j by omega] at e4
    omega
  have idlen : ((sl ds2.rows a0 (lf + lc)).map num).length = (sl counts i (j + 1)).sum := by
    rw [List.length_map, sl_length _ _ _ (by omega)]; omega
  obtain ⟨pos, qs, ts, qps, hpp, hreads, m1, m2, hinc, hlt⟩ := pulsePositions_ok (ps := ps) cont lensame htlen idlen hset
  obtain ⟨rws, hrows⟩ := h5Take_ok bd1 hreads hlt hinc
  have m3 := h5Take_reads bd1 hreads hrows
  have q1 : nth (sl firsts i (j + 1)) 0 = .ok a0 := (nth_ok_iff).2 ha0
  have q2 : lastOf (sl firsts i (j + 1)) = .ok lf := (lastOf_ok).2 (by rw [getLast?_sl _ (by omega) (by omega)]; exact hlf)
  have q3 : lastOf (sl counts i (j + 1)) = .ok lc := (lastOf_ok).2 (by rw [getLast?_sl _ (by omega) (by omega)]; exact hlc)
  have hk : (partition '.' key).1 ++ ch! ".pulseId" = pulseIdKey key := rfl
  unfold rangeData
  simp only [q1, q2, q3, htids, hk, d2, hpp, d1, hrows]
  unfold guessAxes
  simp only
  have hsh := hshape ds1 d1
  have lts := mapE_length m1
  have lqps := mapE_length m2
  have lr := mapE_length m3
  have hnd : (ts.zip qps).Nodup := by
    rw [List.nodup_iff_injective_get]
    rintro ⟨u, hu⟩ ⟨w, hw⟩ he
    simp only [List.length_zip] at hu hw
    simp only [List.get_eq_getElem, List.getElem_zip, Prod.mk.injEq] at he
    have hF1 := (mapE_ok_iff.1 m1)
    have hF2 := (mapE_ok_iff.1 m2)
    rw [List.forall₂_iff_get] at hF1 hF2
    have frame : ∀ u (h1 : u < qs.length) (h2 : u < ts.length) (h3 : u < qps.length),
        ∃ k i' c, (sl counts i (j + 1))[i']? = some c ∧ k < c ∧ qs[u] = ((sl counts i (j + 1)).take i').sum + k ∧
          ts[u] = x + i' ∧ ∃ v, FrameIn num f source key ts[u] k qps[u] v := by
      intro u h1 h2 h3
      have e1 := hF1.2 u h1 h2
      have e2 := hF2.2 u h1 h3
      simp only [List.get_eq_getElem, nth_ok_iff] at e1 e2
      have hq := hlt _ (List.getElem_mem h1)
      obtain ⟨i', k, c, r1, r2, r3, r4⟩ := (npRepeat_get (by simp; omega)).1 e1
      have hi' : i' < y + 1 - x := by
        have := (List.getElem?_eq_some_iff.1 r1).1
        simpa using this
      rw [List.getElem?_range' (by omega)] at r1
      have ht : ts[u] = x + i' := by have := Option.some.inj r1; omega
      have hv : ds1.rows[a0 + qs[u]]? = some (ds1.rows[a0 + qs[u]]'(by omega)) := List.getElem?_eq_getElem (by omega)
      refine ⟨k, i', c, r2, r3, r4, ht, ds1.rows[a0 + qs[u]]'(by omega), ?_⟩
      have hf : (sl firsts i (j + 1))[i']? = some ((sl firsts i (j + 1))[i']'(by omega)) := List.getElem?_eq_getElem (by omega)
      have hfe := cont _ _ _ hf r2 (by omega)
      rw [sl_getElem?] at r2 hf
      rw [if_pos (by omega)] at r2 hf
      refine ⟨i + i', firsts, counts, _, c, ?_, hix, hf, r2, r3, ⟨ds2, d2, ?_⟩, ds1, d1, ?_⟩
      · rw [ht]
        exact increasing_consecutive hp hi (n := j - i) (by rw [show i + (j - i) = j by omega]; exact hj) (by omega) (by omega)
      · rw [List.getElem?_map, Option.map_eq_some_iff] at e2
        obtain ⟨z, hz, hzp⟩ := e2
        rw [sl_getElem?] at hz
        split at hz
        · refine ⟨z, ?_, hzp⟩
          rw [hfe, ← hz]
          congr 1
          omega
        · simp at hz
      · rw [hfe, ← hv]
        congr 1
        omega
    obtain ⟨k1, i1, cc1, a1, a2, a3, a4, v1, a5⟩ := frame u (by omega) (by omega) (by omega)
    obtain ⟨k2, i2, cc2, z1, z2, z3, z4, v2, z5⟩ := frame w (by omega) (by omega) (by omega)
    have hi12 : i1 = i2 := by omega
    subst hi12
    rw [he.1, he.2] at a5
    have := huniq _ _ _ _ _ _ a5 z5
    subst this
    have hqq : qs[u]'(by omega) = qs[w]'(by omega) := by omega
    have hqn : qs.Nodup := hinc.imp (fun h => by omega)
    have := (List.Nodup.getElem_inj_iff hqn).1 hqq
    simpa using this
  rw [if_neg (by omega), if_neg (by rw [lr, List.length_zip, lts, lqps]; simp), if_neg (by rw [List.Nodup.dedup hnd]; simp)]
  exact ⟨_, rfl⟩

theorem positionOf_exists {l : List Nat} {x : Nat} (h : x ∈ l) : ∃ i, positionOf l x = .ok i := by
  obtain ⟨i, hi⟩ := List.getElem?_of_mem h
  have hm : i ∈ nonzero (l.map (fun y => decide (y = x))) := by
    rw [mem_nonzero, List.getElem?_map, hi]
    simp
  unfold positionOf
  obtain ⟨z, hz⟩ : ∃ z, (nonzero (l.map (fun y => decide (y = x))))[0]? = some z :=
    ⟨_, List.getElem?_eq_getElem (List.length_pos_of_mem hm)⟩
  exact ⟨z, (nth_ok_iff).2 hz⟩

/-- A file has all trains from one selected train between its first and last to the other. -/
def CoversIn (f : FileAccess V) (l : List Nat) : Prop :=
  ∀ t ∈ l, ∀ x y, f.trainIds[0]? = some x → f.trainIds.getLast? = some y → x ≤ t → t ≤ y → t ∈ f.trainIds

theorem chunkData_ok {num : V → Nat} {source key : Str} {ps : Pulses} {f : FileAccess V} {firsts counts chunk : List Nat}
    (hr : Run chunk) (hne : chunk ≠ []) (hix : f.getIndex source (partition '.' key).1 = .ok (firsts, counts))
    (hv1 : ChunkField f chunk source key) (hv2 : ChunkField f chunk source (pulseIdKey key))
    (hcov : CoversIn f chunk) (hset : ps.byId = false → ps.set.desired.Pairwise (· < ·))
    (hshape : ∀ ds, f.dataset (ch! "INSTRUMENT") source key = .ok ds → (squeezeShape ds.rowShape).length = 3 ∨
      (squeezeShape ds.rowShape).length = 2 ∨ (squeezeShape ds.rowShape).length = 0)
    (huniq : ∀ t k k' p v v', FrameIn num f source key t k p v → FrameIn num f source key t k' p v' → k = k') :
    ∃ o, chunkData num source key ps f firsts counts chunk = .ok o := by
  obtain ⟨c0, hc0⟩ : ∃ c0, chunk[0]? = some c0 := ⟨_, List.getElem?_eq_getElem (List.length_pos_iff.2 hne)⟩
  obtain ⟨f0, hf0⟩ : ∃ f0, f.trainIds[0]? = some f0 := ⟨_, List.getElem?_eq_getElem (List.length_pos_iff.2 hv1.someTrain)⟩
  obtain ⟨cl, hcl⟩ : ∃ cl, chunk.getLast? = some cl := ⟨_, List.getLast?_eq_some_getLast hne⟩
  obtain ⟨fl, hfl⟩ : ∃ fl, f.trainIds.getLast? = some fl := ⟨_, List.getLast?_eq_some_getLast hv1.someTrain⟩
  have hchunk := run_mem hr hc0 hcl
  have hc : c0 ≤ cl := ((hchunk c0).1 (List.mem_of_getElem? hc0)).2
  have hf := increasing_bounds hv1.trains hf0 hfl (List.mem_of_getElem? hf0)
  unfold chunkData
  rw [(nth_ok_iff).2 hc0, (nth_ok_iff).2 hf0, (lastOf_ok).2 hcl, (lastOf_ok).2 hfl]
  simp only
  by_cases hov : cl < f0 ∨ c0 > fl
  · rw [if_pos hov]; exact ⟨_, rfl⟩
  · rw [if_neg hov]
    have hd : ∀ t, max c0 f0 ≤ t → t ≤ min cl fl → t ∈ f.trainIds := fun t h1 h2 =>
      hcov t ((hchunk t).2 (by omega)) f0 fl hf0 hfl (by omega) (by omega)
    obtain ⟨i, hi⟩ := positionOf_exists (hd (max c0 f0) (by omega) (by omega))
    obtain ⟨j, hj⟩ := positionOf_exists (hd (min cl fl) (by omega) (by omega))
    obtain ⟨fi1, co1, ds1, ix1, d1, l1, l1', r1⟩ := hv1.data
    obtain ⟨fi2, co2, ds2, ix2, d2, l2, l2', r2⟩ := hv2.data
    rw [hix] at ix1
    obtain ⟨rfl, rfl⟩ := Prod.mk.inj (Except.ok.inj ix1)
    have g2 : (partition '.' (pulseIdKey key)).1 = (partition '.' key).1 := pulseIdKey_group key
    rw [g2, hix] at ix2
    obtain ⟨rfl, rfl⟩ := Prod.mk.inj (Except.ok.inj ix2)
    have pi := positionOf_ok hi
    have pj := positionOf_ok hj
    have hle : max c0 f0 ≤ min cl fl := by omega
    obtain ⟨hij, hb, he⟩ := chunk_ends hv1.trains hc0 hcl hf0 hfl pi pj hle
    have hx := (hchunk (max c0 f0)).2 (by omega)
    have hy := (hchunk (min cl fl)).2 (by omega)
    obtain ⟨a, ha⟩ := rangeData_ok (ps := ps) pi pj hle hix hv1.trains l1 l1' d1 d2
      (fun hyx => r1 i j _ _ hij pi pj hyx hx hy hb he) (fun hyx => r2 i j _ _ hij pi pj hyx hx hy hb he) hd hset hshape huniq
    simp only [hi, hj, ha]
    exact ⟨_, rfl⟩

theorem moduleData_ok {d : Det V} {num : V → Nat} {source key : Str} {ps : Pulses} {shape : List Nat}
    (hv : ∀ f ∈ d.data.files, Holds f source → ∀ chunk ∈ trainChunks d.data.trainIds,
      ChunkField f chunk source key ∧ ChunkField f chunk source (pulseIdKey key)) (ht : d.data.trainIds.Nodup)
    (hcov : ∀ f ∈ d.data.files, Holds f source → CoversIn f d.data.trainIds)
    (hset : ps.byId = false → ps.set.desired.Pairwise (· < ·))
    (hshape : ∀ f ∈ d.data.files, Holds f source → ∀ ds, f.dataset (ch! "INSTRUMENT") source key = .ok ds → ds.rowShape = shape)
    (hdim : (squeezeShape shape).length = 3 ∨ (squeezeShape shape).length = 2 ∨ (squeezeShape shape).length = 0)
    (huniq : ∀ t k k' p v v', FrameOf num d.data source key t k p v → FrameOf num d.data source key t k' p v' → k = k')
    (hsome : ∃ f ∈ d.data.files, Holds f source ∧ ∃ t ∈ d.data.trainIds, t ∈ f.trainIds)
    (hn : NoConflict d.data.files) :
    ∃ a, d.moduleData num source key ps = .ok a ∧ a.rowShape = squeezeShape shape := by
  have hne : d.data.trainIds ≠ [] := by
    obtain ⟨_, _, _, t, ht, _⟩ := hsome
    intro hc
    rw [hc] at ht
    simp at ht
  have hv' : ∀ f ∈ d.data.files, Holds f source → f.trainIds.Pairwise (· < ·) ∧ ∀ chunk ∈ trainChunks d.data.trainIds,
      ChunkField f chunk source key ∧ ChunkField f chunk source (pulseIdKey key) := by
    intro f h1 h2
    refine ⟨?_, hv f h1 h2⟩
    obtain ⟨chunk, hc⟩ : ∃ chunk, chunk ∈ trainChunks d.data.trainIds := by
      cases hch : trainChunks d.data.trainIds with
      | nil =>
        have := trainChunks_flatten d.data.trainIds
        rw [hch] at this
        exact absurd this.symm hne
      | cons x xs => exact ⟨x, by simp⟩
    exact (hv f h1 h2 chunk hc).1.trains
  have fd : ∀ {f : FileAccess V} {as : List (PArr V)}, fileData num source key ps (trainChunks d.data.trainIds) f = .ok as →
      f ∈ d.data.files → Holds f source → _ :=
    fun {f as} hfd h1 h2 => fileData_runs hfd ht (hv' f h1 h2).1 (fun ch hch => (hv f h1 h2 ch hch).1)
      (fun ch hch => (hv f h1 h2 ch hch).2)
  have hfiles : ∀ f ∈ d.data.sourceIndex source, f ∈ d.data.files ∧ Holds f source := by
    intro f hf
    simp only [DC.sourceIndex, List.mem_filter, decide_eq_true_eq] at hf
    exact hf
  have hfd : ∀ f ∈ d.data.sourceIndex source, ∃ as, fileData num source key ps (trainChunks d.data.trainIds) f = .ok as := by
    intro f hf
    obtain ⟨h1, h2⟩ := hfiles f hf
    obtain ⟨fi, co, hix'⟩ : ∃ fi co, f.getIndex source (partition '.' key).1 = .ok (fi, co) := by
      obtain ⟨_, _, _, t, ht', _⟩ := hsome
      rw [← trainChunks_flatten d.data.trainIds, List.mem_flatten] at ht'
      obtain ⟨ch, hch, -⟩ := ht'
      obtain ⟨fi, co, _, hix, _⟩ := (hv f h1 h2 ch hch).1.data
      exact ⟨fi, co, hix⟩
    unfold fileData
    rw [hix']
    simp only
    obtain ⟨r, hr⟩ := mapE_exists_ok (f := chunkData num source key ps f fi co) (l := trainChunks d.data.trainIds) (by
      intro chunk hc
      refine chunkData_ok (chunks_run hc) ((trainChunks_runs hne).nonempty chunk hc) hix' (hv f h1 h2 chunk hc).1 (hv f h1 h2 chunk hc).2 ?_ hset ?_ ?_
      · intro t htc
        refine hcov f h1 h2 t ?_
        rw [← trainChunks_flatten d.data.trainIds]
        exact List.mem_flatten.2 ⟨chunk, hc, htc⟩
      · intro ds hds
        rw [hshape f h1 h2 ds hds]
        exact hdim
      · intro t k k' p v v' e1 e2
        exact huniq t k k' p v v' ⟨f, h1, h2, e1⟩ ⟨f, h1, h2, e2⟩)
    rw [hr]
    exact ⟨_, rfl⟩
  obtain ⟨l, hl⟩ := mapE_exists_ok hfd
  have key : ∃ a, d.moduleData num source key ps = .ok a := by
    unfold Det.moduleData
    rw [hl]
    simp only
    split
    · split
      · rename_i hemp
        exfalso
        obtain ⟨f, h1, h2, t, h3, h4⟩ := hsome
        have hfi : f ∈ d.data.sourceIndex source := by
          simp only [DC.sourceIndex, List.mem_filter, decide_eq_true_eq]
          exact ⟨h1, h2⟩
        obtain ⟨as, has, hfda⟩ := mapE_ok_all hl hfi
        obtain ⟨a, ha, _⟩ := (fd hfda h1 h2).2.1 t h3 h4
        have : a ∈ l.flatten := List.mem_flatten.2 ⟨as, has, ha⟩
        rw [hemp] at this
        simp at this
      · exact ⟨_, rfl⟩
    · unfold concatTrains
      simp only
      obtain ⟨t, ht'⟩ := joinImageSizes_exists (l := (sortBy PArr.firstTrain (l.flatten.filter (fun a => !a.cells.isEmpty))).map PArr.rowShape)
        (u := squeezeShape shape) (by
        intro s hs
        obtain ⟨a, ha, rfl⟩ := List.mem_map.1 hs
        rw [(sortBy_perm _ _).mem_iff, List.mem_filter] at ha
        obtain ⟨as, has, ha⟩ := List.mem_flatten.1 ha.1
        obtain ⟨f, hfi, hfda⟩ := (mapE_mem hl).1 has
        obtain ⟨h1, h2⟩ := hfiles f hfi
        obtain ⟨ch, _, spec⟩ := (fd hfda h1 h2).1 a ha
        obtain ⟨ds, e1, e2⟩ := spec.shape
        rw [e2, hshape f h1 h2 ds e1]
        exact List.suffix_refl _)
      rw [ht']
      exact ⟨_, rfl⟩
  obtain ⟨a, ha⟩ := key
  refine ⟨a, ha, ?_⟩
  obtain ⟨f, h1, h2, ds, e1, e2⟩ := (moduleData_chunks ha hn hv' ht).shape
  rw [e2, hshape f h1 h2 ds e1]

/-- If `h5Fancy` reads several rows their numbers increase. -/
theorem h5Take_increasing {rows : List V} {a : Nat} {qs : List Nat} {r : List V} {empty : Bool}
    (h : h5Take empty rows a (.list qs) = .ok r) : qs.Pairwise (· < ·) := by
  cases qs with
  | nil => exact List.Pairwise.nil
  | cons q qs =>
    simp only [h5Take, h5Fancy] at h
    split at h
    · rename_i hs
      rw [strictlyIncreasing_iff, List.pairwise_map] at hs
      exact hs.imp (fun h => by omega)
    · simp at h

/-- Where `rangeData` gives an array for `by_index` with a list, the wanted numbers below the number of frames of each train
increase. -/
theorem rangeData_increasing {num : V → Nat} {source key : Str} {ns : List Nat} {f : FileAccess V} {firsts counts : List Nat}
    {x y i j : Nat} {a : PArr V} (h : rangeData num source key ⟨false, .list ns⟩ f firsts counts x y i j = .ok a)
    {n first count : Nat}
    (hn : i ≤ n) (hn' : n ≤ j) (h1 : firsts[n]? = some first) (h2 : counts[n]? = some count) :
    (ns.filter (fun k => decide (k < count))).Pairwise (· < ·) := by
  unfold rangeData at h
  simp only at h
  split at h
  · split at h
    · simp at h
    · split at h
      · simp at h
      · split at h
        · simp at h
        · rename_i pos labels hpp
          split at h
          · simp at h
          · split at h
            · simp at h
            · rename_i rows hrows
              unfold pulsePositions at hpp
              simp only [Bool.false_eq_true, if_false] at hpp
              split at hpp
              · simp at hpp
              · rename_i pos' hpos
                have : pos' = pos := by
                  split at hpp
                  · simp at hpp
                  · split at hpp
                    · simp at hpp
                    · split at hpp
                      · exact (Prod.mk.inj (Except.ok.inj hpp)).1
                      · simp at hpp
                subst this
                unfold selectPulseIndices at hpos
                rw [if_neg (by simp)] at hpos
                split at hpos
                · simp at hpos
                · rename_i l hl
                  obtain rfl := Except.ok.inj hpos
                  have hinc := h5Take_increasing hrows
                  rw [List.pairwise_flatten] at hinc
                  have hmem : (first, count) ∈ (sl firsts i (j + 1)).zip (sl counts i (j + 1)) := by
                    rw [mem_zip_get]
                    refine ⟨n - i, ?_, ?_⟩
                    · rw [sl_getElem?, if_pos (by omega), show i + (n - i) = n by omega]; exact h1
                    · rw [sl_getElem?, if_pos (by omega), show i + (n - i) = n by omega]; exact h2
                  obtain ⟨m, hm, he⟩ := mapE_ok_all hl hmem
                  unfold trainPositions at he
                  simp only at he
                  split at he
                  · simp at he
                  · obtain rfl := Except.ok.inj he
                    have := hinc.1 _ hm
                    rw [List.pairwise_map] at this
                    exact this.imp (fun h => by omega)
  · simp at h

theorem chunkData_increasing {num : V → Nat} {source key : Str} {ns : List Nat} {f : FileAccess V} {firsts counts chunk : List Nat}
    {o : Option (PArr V)} (h : chunkData num source key ⟨false, .list ns⟩ f firsts counts chunk = .ok o) (hr : Run chunk)
    (hp : f.trainIds.Pairwise (· < ·)) {n t first count : Nat}
    (ht : t ∈ chunk) (hn : f.trainIds[n]? = some t) (h1 : firsts[n]? = some first) (h2 : counts[n]? = some count) :
    (ns.filter (fun k => decide (k < count))).Pairwise (· < ·) := by
  cases o with
  | none => exact absurd ⟨ht, List.mem_of_getElem? hn⟩ (chunkData_none h hr hp t)
  | some a =>
    unfold chunkData at h
    split at h
    · rename_i c0 cl f0 fl e1 e2 e3 e4
      rw [nth_ok_iff] at e1 e3
      rw [lastOf_ok] at e2 e4
      split at h
      · simp at h
      · split at h
        · simp at h
        · rename_i i hi
          split at h
          · simp at h
          · rename_i j hj
            split at h
            · simp at h
            · rename_i a' ha
              have b1 := (run_mem hr e1 e2 t).1 ht
              have b2 := increasing_bounds hp e3 e4 (List.mem_of_getElem? hn)
              have p1 := positionOf_ok hi
              have p2 := positionOf_ok hj
              refine rangeData_increasing ha (n := n) ?_ ?_ h1 h2
              · by_contra hc
                have := increasing_step hp (i := n) (d := i - n) hn (by rw [show n + (i - n) = i by omega]; exact p1)
                omega
              · by_contra hc
                have := increasing_step hp (i := j) (d := n - j) p2 (by rw [show j + (n - j) = n by omega]; exact hn)
                omega
    · simp at h

end KD
