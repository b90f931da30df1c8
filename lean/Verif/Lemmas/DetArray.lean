/- Helper lemmas for reading the frames of a detector module. -/
import Verif.Lemmas.Sizes
import Verif.Lemmas.Components
import Verif.Props.Series
import Verif.Props.WriteIndex

set_option linter.unusedSimpArgs false

namespace KD
open Spec

variable {V : Type}

/-! ### Lists -/

theorem npRepeat_get {α : Type _} {l : List α} : ∀ {ns : List Nat}, ns.length = l.length → ∀ {q : Nat} {x : α},
    (npRepeat l ns)[q]? = some x ↔
      ∃ i k c, l[i]? = some x ∧ ns[i]? = some c ∧ k < c ∧ q = (ns.take i).sum + k := by
  induction l with
  | nil =>
    intro ns h q x
    simp [npRepeat]
  | cons a l ih =>
    intro ns h q x
    cases ns with
    | nil => simp at h
    | cons n ns =>
      simp only [npRepeat]
      rw [List.getElem?_append, List.length_replicate]
      split
      · rename_i hq
        rw [List.getElem?_replicate, if_pos hq]
        constructor
        · intro hx
          exact ⟨0, q, n, by simpa using hx, by simp, hq, by simp⟩
        · rintro ⟨i, k, c, h1, h2, h3, h4⟩
          cases i with
          | zero => simpa using h1
          | succ i => simp at h4; omega
      · rename_i hq
        rw [ih (by simpa using h)]
        constructor
        · rintro ⟨i, k, c, h1, h2, h3, h4⟩
          exact ⟨i + 1, k, c, by simpa using h1, by simpa using h2, h3, by simp; omega⟩
        · rintro ⟨i, k, c, h1, h2, h3, h4⟩
          cases i with
          | zero => simp at h2 h4; omega
          | succ i => exact ⟨i, k, c, by simpa using h1, by simpa using h2, h3, by simp at h4; omega⟩

theorem take_sum_succ {cs : List Nat} {i c : Nat} (h : cs[i]? = some c) : (cs.take (i + 1)).sum = (cs.take i).sum + c := by
  rw [List.take_add_one, h]
  simp

theorem take_sum_mono (cs : List Nat) {i j : Nat} (h : i ≤ j) : (cs.take i).sum ≤ (cs.take j).sum := by
  have : cs.take i = (cs.take j).take i := by rw [List.take_take, Nat.min_eq_left h]
  rw [this]
  conv_rhs => rw [← List.take_append_drop i (cs.take j)]
  rw [List.sum_append]
  omega

/-- The position of an entry among all determines the train and the number in the train. -/
theorem offset_unique {cs : List Nat} {i i' k k' c c' : Nat} (h1 : cs[i]? = some c) (h2 : cs[i']? = some c') (hk : k < c)
    (hk' : k' < c') (h : (cs.take i).sum + k = (cs.take i').sum + k') : i = i' ∧ k = k' := by
  rcases Nat.lt_trichotomy i i' with hlt | heq | hgt
  · have := take_sum_mono cs (show i + 1 ≤ i' from hlt)
    rw [take_sum_succ h1] at this
    omega
  · subst heq; exact ⟨rfl, by omega⟩
  · have := take_sum_mono cs (show i' + 1 ≤ i from hgt)
    rw [take_sum_succ h2] at this
    omega

theorem contiguous_first {fs cs : List Nat} (h : Contiguous fs cs) (hl : fs.length = cs.length) {a : Nat}
    (h0 : fs[0]? = some a) : ∀ {i b : Nat}, fs[i]? = some b → b = a + (cs.take i).sum := by
  intro i
  induction i with
  | zero => intro b hb; rw [h0] at hb; simp [Option.some.inj hb]
  | succ i ih =>
    intro b hb
    have hi : i + 1 < fs.length := (List.getElem?_eq_some_iff.1 hb).1
    have e1 : fs[i]? = some fs[i] := List.getElem?_eq_getElem (by omega)
    have e2 : cs[i]? = some (cs[i]'(by omega)) := List.getElem?_eq_getElem (by omega)
    rw [take_sum_succ e2, h i _ _ b e1 e2 hb, ih e1]
    omega

theorem contiguous_sl {firsts counts : List Nat} (h : Contiguous firsts counts) (i j : Nat) :
    Contiguous (sl firsts i j) (sl counts i j) := by
  intro k a n b h1 h2 h3
  rw [sl_getElem?] at h1 h2 h3
  split at h1
  · rename_i hk
    split at h3
    · rw [if_pos hk] at h2
      exact h (i + k) a n b h1 h2 h3
    · simp at h3
  · simp at h1

theorem increasing_step {l : List Nat} (h : l.Pairwise (· < ·)) {i d x y : Nat} (hx : l[i]? = some x)
    (hy : l[i + d]? = some y) : x + d ≤ y := by
  induction d generalizing y with
  | zero => rw [Nat.add_zero, hx] at hy; simp [Option.some.inj hy]
  | succ d ih =>
    have hi : i + d + 1 < l.length := (List.getElem?_eq_some_iff.1 hy).1
    have e := ih (List.getElem?_eq_getElem (by omega))
    have hy' := (List.getElem?_eq_some_iff.1 hy).2
    have := List.pairwise_iff_getElem.1 h (i + d) (i + d + 1) (by omega) hi (by omega)
    have e2 : l[i + d + 1] = y := hy'
    omega

/-- Increasing numbers from x to y, as many as there can be, are consecutive. -/
theorem increasing_consecutive {l : List Nat} (h : l.Pairwise (· < ·)) {i n x y : Nat} (hx : l[i]? = some x)
    (hy : l[i + n]? = some y) (hn : y = x + n) {d : Nat} (hd : d ≤ n) : l[i + d]? = some (x + d) := by
  have hlen : i + n < l.length := (List.getElem?_eq_some_iff.1 hy).1
  have e : l[i + d]? = some l[i + d] := List.getElem?_eq_getElem (by omega)
  have h1 := increasing_step h hx e
  have h2 : l[i + d] + (n - d) ≤ y := increasing_step h (i := i + d) (d := n - d) e (by rw [show i + d + (n - d) = i + n by omega]; exact hy)
  rw [e]
  congr 1
  omega

theorem mapE_map {α β γ : Type _} (f : β → R γ) (g : α → β) (l : List α) : mapE f (l.map g) = mapE (fun x => f (g x)) l := by
  induction l with
  | nil => rfl
  | cons a l ih => simp only [List.map_cons, mapE, ih]

theorem zip3_mem {α β γ δ : Type _} {f : α → R β} {g : α → R γ} {h : α → R δ} : ∀ {qs : List α} {ts : List β} {ps : List γ}
    {rs : List δ}, mapE f qs = .ok ts → mapE g qs = .ok ps → mapE h qs = .ok rs → ∀ {t p v},
    ((t, p), v) ∈ (ts.zip ps).zip rs ↔ ∃ q ∈ qs, f q = .ok t ∧ g q = .ok p ∧ h q = .ok v := by
  intro qs
  induction qs with
  | nil =>
    intro ts ps rs h1 h2 h3 t p v
    obtain rfl := Except.ok.inj h1
    simp
  | cons q qs ih =>
    intro ts ps rs h1 h2 h3 t p v
    obtain ⟨t0, ts, a1, a2, rfl⟩ := mapE_cons_ok.1 h1
    obtain ⟨p0, ps, b1, b2, rfl⟩ := mapE_cons_ok.1 h2
    obtain ⟨v0, rs, c1, c2, rfl⟩ := mapE_cons_ok.1 h3
    simp only [List.zip_cons_cons, List.mem_cons, ih a2 b2 c2, exists_eq_or_imp, a1, b1, c1, Prod.mk.injEq, Except.ok.injEq]
    constructor
    · rintro (⟨⟨rfl, rfl⟩, rfl⟩ | h)
      · exact Or.inl ⟨rfl, rfl, rfl⟩
      · exact Or.inr h
    · rintro (⟨rfl, rfl, rfl⟩ | h)
      · exact Or.inl ⟨⟨rfl, rfl⟩, rfl⟩
      · exact Or.inr h

theorem mapE_nth_range {α : Type _} (l : List α) : mapE (nth l) (List.range l.length) = .ok l := by
  rw [mapE_ok_iff]
  rw [List.forall₂_iff_get]
  refine ⟨by simp, ?_⟩
  intro i h1 h2
  simp [nth, h2]

/-! ### Positions -/

/-- The normalised selection `ps` asks for frame number `k` with pulse ID `p`. -/
def AskedSet (ps : Pulses) (k p : Nat) : Prop :=
  ps.set = .slice 0 maxPulses 1 ∨ (if ps.byId then p else k) ∈ ps.set.desired

/-- The positions `qs` are those `pos` stands for, among `n`. -/
def Reads (pos : Positions) (qs : List Nat) (n : Nat) : Prop :=
  (pos = .slice 0 n 1 ∧ qs = List.range n) ∨ pos = .list qs

theorem npTake_reads {α : Type _} {l : List α} {pos : Positions} {qs : List Nat} {r : List α}
    (hp : Reads pos qs l.length) (h : npTake l pos = .ok r) : mapE (nth l) qs = .ok r := by
  rcases hp with ⟨rfl, rfl⟩ | rfl
  · simp only [npTake] at h
    obtain rfl := Except.ok.inj h
    rw [slStep_one]
    have : sl l 0 l.length = l := by simp [sl]
    rw [this]
    exact mapE_nth_range l
  · exact h

theorem h5Take_reads {rows : List V} {a n : Nat} (hn : a + n ≤ rows.length) {pos : Positions} {qs : List Nat} {r : List V}
    {e : Bool} (hp : Reads pos qs n) (h : h5Take e rows a pos = .ok r) : mapE (fun q => nth rows (a + q)) qs = .ok r := by
  rcases hp with ⟨rfl, rfl⟩ | rfl
  · simp only [h5Take] at h
    obtain rfl := Except.ok.inj h
    rw [slStep_one, mapE_ok_iff, List.forall₂_iff_get]
    simp only [Nat.add_zero]
    refine ⟨by simp [sl]; omega, ?_⟩
    intro i h1 h2
    simp at h1
    have hi : a + i < rows.length := by omega
    simp [nth, sl, hi]
  · cases qs with
    | nil =>
      simp only [h5Take] at h
      split at h
      · obtain rfl := Except.ok.inj h
        rfl
      · simp at h
    | cons q qs =>
      simp only [h5Take, h5Fancy] at h
      split at h
      · split at h
        · simp at h
        · rename_i l hl
          obtain rfl := Except.ok.inj h
          rw [mapE_map] at hl
          exact hl
      · simp at h

theorem trainPositions_ok {desired : List Nat} {start : Nat} {fc : Nat × Nat} {l : List Nat}
    (h : trainPositions desired start fc = .ok l) (hs : start ≤ fc.1) {q : Nat} :
    q ∈ l ↔ ∃ k, k ∈ desired ∧ k < fc.2 ∧ q = fc.1 - start + k := by
  unfold trainPositions at h
  simp only at h
  rw [if_neg (by omega)] at h
  obtain rfl := Except.ok.inj h
  simp only [List.mem_map, List.mem_filter, decide_eq_true_eq]
  constructor
  · rintro ⟨k, ⟨h1, h2⟩, rfl⟩; exact ⟨k, h1, h2, rfl⟩
  · rintro ⟨k, h1, h2, rfl⟩; exact ⟨k, ⟨h1, h2⟩, rfl⟩

theorem mem_zip_get {α β : Type _} {l : List α} {m : List β} {x : α} {y : β} :
    (x, y) ∈ l.zip m ↔ ∃ i : Nat, l[i]? = some x ∧ m[i]? = some y := by
  rw [List.mem_iff_getElem?]
  constructor
  · rintro ⟨i, hi⟩; exact ⟨i, List.getElem?_zip_eq_some.1 hi⟩
  · rintro ⟨i, hi⟩; exact ⟨i, List.getElem?_zip_eq_some.2 hi⟩

/-- The entries of trains with some follow on from `a`. -/
def Follow (fs cs : List Nat) (a : Nat) : Prop :=
  ∀ i b n, fs[i]? = some b → cs[i]? = some n → n ≠ 0 → b = a + (cs.take i).sum

theorem selectPulseIndices_reads {set : PulseSet} {a : Nat} {fs cs : List Nat} {pos : Positions}
    (h : selectPulseIndices set a fs cs = .ok pos) (hc : Follow fs cs a) (hl : fs.length = cs.length) :
    ∃ qs, Reads pos qs cs.sum ∧ ∀ q, q < cs.sum → ∀ i c k, cs[i]? = some c → k < c → q = (cs.take i).sum + k →
      (q ∈ qs ↔ set = .slice 0 maxPulses 1 ∨ k ∈ set.desired) := by
  unfold selectPulseIndices at h
  split at h
  · rename_i hset
    obtain rfl := Except.ok.inj h
    refine ⟨List.range cs.sum, Or.inl ⟨rfl, rfl⟩, fun q hq i c k _ _ _ => ?_⟩
    simp [hset, hq]
  · rename_i hset
    split at h
    · simp at h
    · rename_i l hm
      obtain rfl := Except.ok.inj h
      refine ⟨l.flatten, Or.inr rfl, fun q hq i c k h1 h2 h3 => ?_⟩
      rw [List.mem_flatten]
      constructor
      · rintro ⟨r, hr, hqr⟩
        obtain ⟨⟨b, n⟩, hx, hy⟩ := (mapE_mem hm).1 hr
        obtain ⟨i', e1, e2⟩ := mem_zip_get.1 hx
        have hn : n ≠ 0 := by
          rintro rfl
          simp [trainPositions] at hy
          subst hy
          simp at hqr
        have hb := hc _ _ _ e1 e2 hn
        obtain ⟨k', hk1, hk2, hk3⟩ := (trainPositions_ok hy (by simp [hb])).1 hqr
        simp only at hk2 hk3
        have := offset_unique h1 e2 h2 hk2 (by rw [← h3, hk3, hb]; omega)
        exact Or.inr (this.2 ▸ hk1)
      · rintro (h4 | h4)
        · exact absurd h4 hset
        · have hi : i < cs.length := (List.getElem?_eq_some_iff.1 h1).1
          have e1 : fs[i]? = some (fs[i]'(by omega)) := List.getElem?_eq_getElem (by omega)
          have hb := hc _ _ _ e1 h1 (by omega)
          have hx : (fs[i]'(by omega), c) ∈ fs.zip cs := mem_zip_get.2 ⟨i, e1, h1⟩
          obtain ⟨r, hrl, hr⟩ := mapE_ok_all hm hx
          refine ⟨r, hrl, ?_⟩
          exact (trainPositions_ok hr (by simp only; omega)).2 ⟨k, h4, h2, by simp only; omega⟩

theorem selectPulseIds_reads (set : PulseSet) (ids : List Nat) :
    ∃ qs, Reads (selectPulseIds set ids) qs ids.length ∧
      ∀ (q p : Nat), ids[q]? = some p → (q ∈ qs ↔ set = .slice 0 maxPulses 1 ∨ p ∈ set.desired) := by
  unfold selectPulseIds
  split
  · rename_i hset
    refine ⟨List.range ids.length, Or.inl ⟨rfl, rfl⟩, fun q p hq => ?_⟩
    have := (List.getElem?_eq_some_iff.1 hq).1
    simp [hset, this]
  · rename_i hset
    refine ⟨_, Or.inr rfl, fun q p hq => ?_⟩
    rw [mem_isin, hq]
    simp [hset]

theorem pulsePositions_reads {ps : Pulses} {tids fs cs ids : List Nat} {a : Nat} {pos : Positions}
    {labels : List (Nat × Nat)} (h : pulsePositions ps tids a fs cs ids = .ok (pos, labels))
    (hc : Follow fs cs a) (hl : fs.length = cs.length) (h1 : tids.length = cs.sum)
    (h2 : ids.length = cs.sum) :
    ∃ qs ts qps, Reads pos qs cs.sum ∧ mapE (nth tids) qs = .ok ts ∧ mapE (nth ids) qs = .ok qps ∧ labels = ts.zip qps ∧
      ∀ q i c k p, ids[q]? = some p → cs[i]? = some c → k < c → q = (cs.take i).sum + k → (q ∈ qs ↔ AskedSet ps k p) := by
  unfold pulsePositions at h
  split at h
  · simp at h
  · rename_i pos' hpos
    split at h
    · simp at h
    · rename_i ts hts
      split at h
      · simp at h
      · rename_i qps hqps
        split at h
        · have e := Except.ok.inj h
          obtain ⟨rfl, rfl⟩ := Prod.mk.inj e
          have key : ∃ qs, Reads pos' qs cs.sum ∧ ∀ q i c k p, ids[q]? = some p → cs[i]? = some c → k < c →
              q = (cs.take i).sum + k → (q ∈ qs ↔ AskedSet ps k p) := by
            unfold AskedSet
            by_cases hb : ps.byId
            · rw [if_pos hb] at hpos
              obtain rfl := Except.ok.inj hpos
              obtain ⟨qs, r1, r2⟩ := selectPulseIds_reads ps.set ids
              rw [h2] at r1
              refine ⟨qs, r1, fun q i c k p hq _ _ _ => ?_⟩
              simp only [hb, if_true]
              exact r2 q p hq
            · rw [if_neg hb] at hpos
              obtain ⟨qs, r1, r2⟩ := selectPulseIndices_reads hpos hc hl
              refine ⟨qs, r1, fun q i c k p hq e1 e2 e3 => ?_⟩
              simp only [hb]
              have := (List.getElem?_eq_some_iff.1 hq).1
              exact r2 q (by omega) i c k e1 e2 e3
          obtain ⟨qs, r1, r2⟩ := key
          refine ⟨qs, ts, qps, r1, npTake_reads (by rw [h1]; exact r1) hts, npTake_reads (by rw [h2]; exact r1) hqps, rfl, r2⟩
        · simp at h

/-! ### One file -/

theorem guessAxes_ok {rows : List V} {shape : List Nat} {labels : List (Nat × Nat)} {a : PArr V}
    (h : guessAxes rows shape labels = .ok a) : a.cells = labels.zip rows ∧ labels.Nodup ∧ rows.length = labels.length ∧
      a.trains = sortedSet (labels.map Prod.fst) ∧ a.pulses = sortedSet (labels.map Prod.snd) ∧
      a.rowShape = squeezeShape shape ∧
      ((squeezeShape shape).length = 3 ∨ (squeezeShape shape).length = 2 ∨ (squeezeShape shape).length = 0) := by
  unfold guessAxes at h
  simp only at h
  split at h
  · simp at h
  · rename_i h1
    split at h
    · simp at h
    · rename_i h2
      split at h
      · simp at h
      · rename_i h3
        obtain rfl := Except.ok.inj h
        refine ⟨rfl, ?_, by simpa using h2, rfl, rfl, rfl, by tauto⟩
        have h3 : labels.dedup.length = labels.length := by simpa using h3
        rw [← (List.dedup_sublist labels).eq_of_length h3]
        exact List.nodup_dedup _

theorem arange_cons (x y : Nat) : arange x (y + 1) 1 = List.range' x (y + 1 - x) := arange_one x (y + 1)

theorem npRepeatE_consecutive {x y : Nat} {cs tids : List Nat} (h : npRepeatE (arange x (y + 1) 1) cs = .ok tids)
    (h1 : cs.length = 1 → y = x) : cs.length = y + 1 - x ∧ tids = npRepeat (List.range' x (y + 1 - x)) cs := by
  rw [arange_cons] at h
  unfold npRepeatE at h
  split at h
  · rename_i n
    have := h1 rfl
    subst this
    obtain rfl := Except.ok.inj h
    simp [npRepeat]
  · split at h
    · rename_i hlen
      obtain rfl := Except.ok.inj h
      simp at hlen
      exact ⟨hlen, rfl⟩
    · simp at h

theorem sl_length {α : Type _} (l : List α) (i j : Nat) (h : j ≤ l.length) : (sl l i j).length = j - i := by
  simp [sl]
  omega

theorem getLast?_sl {α : Type _} (l : List α) {i j : Nat} (h : j < l.length) (hij : i ≤ j) :
    (sl l i (j + 1)).getLast? = l[j]? := by
  rw [List.getLast?_eq_getElem?, sl_length _ _ _ (by omega), sl_getElem?, if_pos (by omega)]
  congr 1
  omega

theorem lastOf_ok {α : Type _} {l : List α} {a : α} : lastOf l = .ok a ↔ l.getLast? = some a := by
  unfold lastOf
  cases l.getLast? <;> simp

/-- What the array read from one file for the trains from x to y has. -/
structure RangeSpec (num : V → Nat) (source key : Str) (ps : Pulses) (f : FileAccess V) (x y : Nat) (a : PArr V) : Prop where
  nodup : (a.cells.map Prod.fst).Nodup
  cells : ∀ t p v, ((t, p), v) ∈ a.cells ↔ x ≤ t ∧ t ≤ y ∧ ∃ k, FrameIn num f source key t k p v ∧ AskedSet ps k p
  trains : a.trains = sortedSet (a.cells.map (fun c => c.1.1))
  pulses : a.pulses = sortedSet (a.cells.map (fun c => c.1.2))
  shape : ∃ ds, f.dataset (ch! "INSTRUMENT") source key = .ok ds ∧ a.rowShape = squeezeShape ds.rowShape
  covered : ∀ t, x ≤ t → t ≤ y → t ∈ f.trainIds

theorem zip_map_fst_eq {α β : Type _} {l : List α} {m : List β} (h : m.length = l.length) : (l.zip m).map Prod.fst = l :=
  List.map_fst_zip (by omega)

/-- The index is right for the trains number `i` to `j`, and there are as many rows. -/
def RunRange (firsts counts : List Nat) (i j rows : Nat) : Prop :=
  ∀ a, firsts[i]? = some a → a + (sl counts i (j + 1)).sum ≤ rows ∧
    ∀ k b n, i ≤ k → k ≤ j → firsts[k]? = some b → counts[k]? = some n → n ≠ 0 ∨ k = j → b = a + (sl counts i k).sum

theorem sl_take {α : Type _} (l : List α) {i j k : Nat} (h : i + k ≤ j) : (sl l i j).take k = sl l i (i + k) := by
  unfold sl
  rw [List.take_take]
  congr 1
  omega

theorem rangeData_spec {num : V → Nat} {source key : Str} {ps : Pulses} {f : FileAccess V} {firsts counts : List Nat}
    {x y i j : Nat} {a : PArr V} (h : rangeData num source key ps f firsts counts x y i j = .ok a)
    (hi : f.trainIds[i]? = some x) (hj : f.trainIds[j]? = some y) (hxy : x ≤ y)
    (hix : f.getIndex source (partition '.' key).1 = .ok (firsts, counts)) (hp : f.trainIds.Pairwise (· < ·))
    (l1 : firsts.length = f.trainIds.length) (l1' : counts.length = f.trainIds.length) {ds1 ds2 : Dataset V}
    (d1 : f.dataset (ch! "INSTRUMENT") source key = .ok ds1)
    (d2 : f.dataset (ch! "INSTRUMENT") source (pulseIdKey key) = .ok ds2)
    (r1 : y = x + (j - i) → RunRange firsts counts i j ds1.rows.length)
    (r2 : y = x + (j - i) → RunRange firsts counts i j ds2.rows.length) :
    RangeSpec num source key ps f x y a := by
  have hilt : i < f.trainIds.length := (List.getElem?_eq_some_iff.1 hi).1
  have hjlt : j < f.trainIds.length := (List.getElem?_eq_some_iff.1 hj).1
  have hij : i ≤ j := by
    by_contra hc
    have e := increasing_step hp (i := j) (d := i - j) hj (by rw [show j + (i - j) = i by omega]; exact hi)
    omega
  unfold rangeData at h
  simp only at h
  split at h
  · rename_i a0 lf lc ha0 hlf hlc
    rw [nth_ok_iff] at ha0
    rw [lastOf_ok, getLast?_sl _ (by omega) hij] at hlf hlc
    have flen : (sl firsts i (j + 1)).length = j + 1 - i := sl_length _ _ _ (by omega)
    have clen : (sl counts i (j + 1)).length = j + 1 - i := sl_length _ _ _ (by omega)
    have lensame : (sl firsts i (j + 1)).length = (sl counts i (j + 1)).length := by omega
    split at h
    · simp at h
    · rename_i tids htids
      obtain ⟨hlen, rfl⟩ := npRepeatE_consecutive htids (by
        intro h1
        rw [clen] at h1
        have : i = j := by omega
        subst this
        rw [hi] at hj
        exact (Option.some.inj hj).symm)
      rw [clen] at hlen
      have hyx : y = x + (j - i) := by omega
      have htlen : (npRepeat (List.range' x (y + 1 - x)) (sl counts i (j + 1))).length = (sl counts i (j + 1)).sum :=
        npRepeat_length _ _ (by simp; omega)
      have hfa : firsts[i]? = some a0 := by
        rw [sl_getElem?, if_pos (by omega)] at ha0; exact ha0
      obtain ⟨bd1, q1⟩ := r1 hyx a0 hfa
      obtain ⟨bd2, -⟩ := r2 hyx a0 hfa
      have cont : Follow (sl firsts i (j + 1)) (sl counts i (j + 1)) a0 := by
        intro k b n e1 e2 hn
        have hk : k < j + 1 - i := by
          have := (List.getElem?_eq_some_iff.1 e1).1
          omega
        rw [sl_getElem?, if_pos (by omega)] at e1 e2
        rw [sl_take _ (by omega)]
        exact q1 (i + k) b n (by omega) (by omega) e1 e2 (Or.inl hn)
      have hend : lf + lc = a0 + (sl counts i (j + 1)).sum := by
        have e2 : (sl counts i (j + 1))[j - i]? = some lc := by
          rw [sl_getElem?, if_pos (by omega), show i + (j - i) = j by omega]; exact hlc
        have e3 := q1 j lf lc hij (le_refl _) hlf hlc (Or.inr rfl)
        have e4 := take_sum_succ e2
        rw [List.take_of_length_le (by omega), sl_take _ (by omega), show i + (j - i) = j by omega] at e4
        omega
      have hk : (partition '.' key).1 ++ ch! ".pulseId" = pulseIdKey key := rfl
      rw [hk, d2] at h
      simp only at h
      split at h
      · simp at h
      · rename_i pos labels hpp
        rw [d1] at h
        simp only at h
        split at h
        · simp at h
        · rename_i rws hrows
          have idlen : ((sl ds2.rows a0 (lf + lc)).map num).length = (sl counts i (j + 1)).sum := by
            rw [List.length_map, sl_length _ _ _ (by omega)]; omega
          obtain ⟨qs, ts, qps, hreads, m1, m2, rfl, hask⟩ := pulsePositions_reads hpp cont lensame htlen idlen
          have m3 := h5Take_reads bd1 hreads hrows
          obtain ⟨hcells, hnd, hrl, htr, hpl, hsh, hdim⟩ := guessAxes_ok h
          have hkeys : a.cells.map Prod.fst = ts.zip qps := by rw [hcells]; exact zip_map_fst_eq hrl
          refine ⟨by rw [hkeys]; exact hnd, ?_, ?_, ?_, ⟨ds1, d1, hsh⟩, ?_⟩
          · intro t p v
            rw [hcells, zip3_mem m1 m2 m3]
            simp only [nth_ok_iff]
            constructor
            · rintro ⟨q, hq, e1, e2, e3⟩
              obtain ⟨i', k, c, r1, r2, r3, r4⟩ := (npRepeat_get (by simp; omega)).1 e1
              have hi' : i' < y + 1 - x := by
                have := (List.getElem?_eq_some_iff.1 r1).1
                simpa using this
              rw [List.getElem?_range' (by omega)] at r1
              have ht : t = x + i' := by have := Option.some.inj r1; omega
              refine ⟨by omega, by omega, k, ?_, (hask q i' c k p e2 r2 r3 r4).1 hq⟩
              have hf : (sl firsts i (j + 1))[i']? = some ((sl firsts i (j + 1))[i']'(by omega)) :=
                List.getElem?_eq_getElem (by omega)
              have hfe := cont _ _ _ hf r2 (by omega)
              rw [sl_getElem?] at r2 hf
              rw [if_pos (by omega)] at r2 hf
              refine ⟨i + i', firsts, counts, _, c, ?_, hix, hf, r2, r3, ⟨ds2, d2, ?_⟩, ds1, d1, ?_⟩
              · rw [ht]
                exact increasing_consecutive hp hi (n := j - i) (by rw [show i + (j - i) = j by omega]; exact hj) hyx (by omega)
              · rw [List.getElem?_map, Option.map_eq_some_iff] at e2
                obtain ⟨z, hz, hzp⟩ := e2
                rw [sl_getElem?] at hz
                split at hz
                · refine ⟨z, ?_, hzp⟩
                  rw [hfe, ← hz]
                  congr 1
                  omega
                · simp at hz
              · rw [hfe, ← e3]
                congr 1
                omega
            · rintro ⟨hx1, hy1, k, ⟨i', firsts', counts', first, count, w1, w2, w3, w4, w5, ⟨pds, w6, z, w7, w8⟩, ds, w9, w10⟩, hak⟩
              rw [hix] at w2
              obtain ⟨rfl, rfl⟩ := Prod.mk.inj (Except.ok.inj w2)
              rw [d2] at w6
              obtain rfl := Except.ok.inj w6
              rw [d1] at w9
              obtain rfl := Except.ok.inj w9
              have hpos : f.trainIds[i + (t - x)]? = some (x + (t - x)) :=
                increasing_consecutive hp hi (n := j - i) (by rw [show i + (j - i) = j by omega]; exact hj) hyx (by omega)
              have hi' : i' = i + (t - x) := by
                rw [show x + (t - x) = t by omega] at hpos
                have hn : f.trainIds.Nodup := hp.imp (fun h => by omega)
                exact (List.nodup_iff_injective_get.1 hn |> fun hinj => by
                  obtain ⟨ha, ha'⟩ := List.getElem?_eq_some_iff.1 w1
                  obtain ⟨hb, hb'⟩ := List.getElem?_eq_some_iff.1 hpos
                  have := @hinj ⟨i', ha⟩ ⟨i + (t - x), hb⟩ (by simp [ha', hb'])
                  simpa using this)
              have hf : (sl firsts i (j + 1))[t - x]? = some first := by
                rw [sl_getElem?, if_pos (by omega), ← hi']; exact w3
              have hcn : (sl counts i (j + 1))[t - x]? = some count := by
                rw [sl_getElem?, if_pos (by omega), ← hi']; exact w4
              have hfe := cont _ _ _ hf hcn (by omega)
              have hle : ((sl counts i (j + 1)).take (t - x)).sum + k < (sl counts i (j + 1)).sum := by
                have e1 := take_sum_succ hcn
                have e2 := take_sum_mono (sl counts i (j + 1)) (show t - x + 1 ≤ (sl counts i (j + 1)).length by omega)
                rw [List.take_length] at e2
                omega
              have hid : ((sl ds2.rows a0 (lf + lc)).map num)[((sl counts i (j + 1)).take (t - x)).sum + k]? = some p := by
                rw [List.getElem?_map, sl_getElem?, if_pos (by omega), Option.map_eq_some_iff]
                refine ⟨z, ?_, w8⟩
                rw [← w7, hfe]
                congr 1
                omega
              refine ⟨((sl counts i (j + 1)).take (t - x)).sum + k, (hask _ _ _ _ p hid hcn w5 rfl).2 hak, ?_, hid, ?_⟩
              · refine (npRepeat_get (by simp; omega)).2 ⟨t - x, k, count, ?_, hcn, w5, rfl⟩
                rw [List.getElem?_range' (by omega)]
                congr 1
                omega
              · rw [← w10, hfe]
                congr 1
                omega
          · rw [htr, ← hkeys, List.map_map]; rfl
          · rw [hpl, ← hkeys, List.map_map]; rfl
          · intro t h1 h2
            have := increasing_consecutive hp hi (n := j - i) (d := t - x) (by rw [show i + (j - i) = j by omega]; exact hj) hyx (by omega)
            rw [show x + (t - x) = t by omega] at this
            exact List.mem_of_getElem? this
  · simp at h

theorem positionOf_ok {l : List Nat} {x i : Nat} (h : positionOf l x = .ok i) : l[i]? = some x := by
  unfold positionOf at h
  rw [nth_ok_iff] at h
  have := List.mem_of_getElem? h
  rw [mem_nonzero, List.getElem?_map, Option.map_eq_some_iff] at this
  obtain ⟨y, hy, he⟩ := this
  rw [hy]
  simpa using he

theorem increasing_bounds {l : List Nat} (h : l.Pairwise (· < ·)) {x y t : Nat} (hx : l[0]? = some x)
    (hy : l.getLast? = some y) (ht : t ∈ l) : x ≤ t ∧ t ≤ y := by
  obtain ⟨i, hi⟩ := List.getElem?_of_mem ht
  have hlt := (List.getElem?_eq_some_iff.1 hi).1
  rw [List.getLast?_eq_getElem?] at hy
  have h1 := increasing_step h (i := 0) (d := i) hx (by simpa using hi)
  have h2 := increasing_step h (i := i) (d := l.length - 1 - i) hi (by rw [show i + (l.length - 1 - i) = l.length - 1 by omega]; exact hy)
  omega

/-- Consecutive numbers. -/
def Run (r : List Nat) : Prop := ∀ (i a b : Nat), r[i]? = some a → r[i + 1]? = some b → b = a + 1

/-- What the array read from one file for a chunk of trains has. -/
structure ChunkSpec (num : V → Nat) (source key : Str) (ps : Pulses) (chunk : List Nat) (f : FileAccess V) (a : PArr V) :
    Prop where
  nodup : (a.cells.map Prod.fst).Nodup
  cells : ∀ t p v, ((t, p), v) ∈ a.cells ↔ t ∈ chunk ∧ ∃ k, FrameIn num f source key t k p v ∧ AskedSet ps k p
  trains : a.trains = sortedSet (a.cells.map (fun c => c.1.1))
  pulses : a.pulses = sortedSet (a.cells.map (fun c => c.1.2))
  shape : ∃ ds, f.dataset (ch! "INSTRUMENT") source key = .ok ds ∧ a.rowShape = squeezeShape ds.rowShape
  interval : ∃ x y, x ≤ y ∧ ∀ t, t ∈ chunk ∧ t ∈ f.trainIds ↔ x ≤ t ∧ t ≤ y

/-- The index is right for the trains of the chunk which are in the file. -/
structure ChunkField (f : FileAccess V) (chunk : List Nat) (source key : Str) : Prop where
  trains : f.trainIds.Pairwise (· < ·)
  someTrain : f.trainIds ≠ []
  data : ∃ firsts counts ds, f.getIndex source (partition '.' key).1 = .ok (firsts, counts) ∧
    f.dataset (ch! "INSTRUMENT") source key = .ok ds ∧
    firsts.length = f.trainIds.length ∧ counts.length = f.trainIds.length ∧
    ∀ i j x y, i ≤ j → f.trainIds[i]? = some x → f.trainIds[j]? = some y → y = x + (j - i) → x ∈ chunk → y ∈ chunk →
      (i = 0 ∨ chunk[0]? = some x) → (j + 1 = f.trainIds.length ∨ chunk.getLast? = some y) →
      RunRange firsts counts i j ds.rows.length

theorem runRange_of_valid {f : FileAccess V} {source key : Str} (h : ValidField f true source key) :
    ∃ firsts counts ds, f.getIndex source (partition '.' key).1 = .ok (firsts, counts) ∧
    f.dataset (ch! "INSTRUMENT") source key = .ok ds ∧
    firsts.length = f.trainIds.length ∧ counts.length = f.trainIds.length ∧
    ∀ i j, i ≤ j → j < f.trainIds.length → RunRange firsts counts i j ds.rows.length := by
  obtain ⟨firsts, counts, ds, h1, h2, h3, h4, h5, h6⟩ := h.data
  refine ⟨firsts, counts, ds, h1, h2, h3, h4, ?_⟩
  intro i j hij hjl a ha
  have cont := contiguous_sl h5 i (j + 1)
  have flen : (sl firsts i (j + 1)).length = j + 1 - i := sl_length _ _ _ (by omega)
  have clen : (sl counts i (j + 1)).length = j + 1 - i := sl_length _ _ _ (by omega)
  have h0 : (sl firsts i (j + 1))[0]? = some a := by rw [sl_getElem?, if_pos (by omega)]; exact ha
  have follow : ∀ k b, i ≤ k → k ≤ j → firsts[k]? = some b → b = a + (sl counts i k).sum := by
    intro k b h7 h8 h9
    have := contiguous_first cont (by omega) h0 (i := k - i) (b := b)
      (by rw [sl_getElem?, if_pos (by omega), show i + (k - i) = k by omega]; exact h9)
    rw [sl_take _ (by omega), show i + (k - i) = k by omega] at this
    exact this
  refine ⟨?_, fun k b _ h7 h8 h9 _ _ => follow k b h7 h8 h9⟩
  have e1 : firsts[j]? = some (firsts[j]'(by omega)) := List.getElem?_eq_getElem (by omega)
  have e2 : counts[j]? = some (counts[j]'(by omega)) := List.getElem?_eq_getElem (by omega)
  have e3 := follow j _ hij (le_refl _) e1
  have e4 := h6 j _ _ e1 e2
  have e5 : (sl counts i (j + 1))[j - i]? = some (counts[j]'(by omega)) := by
    rw [sl_getElem?, if_pos (by omega), show i + (j - i) = j by omega]; exact e2
  have e6 := take_sum_succ e5
  rw [List.take_of_length_le (by omega), sl_take _ (by omega), show i + (j - i) = j by omega] at e6
  omega

theorem chunkField_of_valid {f : FileAccess V} {source key : Str} (h : ValidField f true source key) (chunk : List Nat) :
    ChunkField f chunk source key := by
  obtain ⟨firsts, counts, ds, h1, h2, h3, h4, h5⟩ := runRange_of_valid h
  exact ⟨h.trains, h.someTrain, firsts, counts, ds, h1, h2, h3, h4,
    fun i j _ _ hij _ hj _ _ _ _ _ => h5 i j hij (List.getElem?_eq_some_iff.1 hj).1⟩

theorem chunk_ends {l chunk : List Nat} (hl : l.Pairwise (· < ·)) {c0 cl f0 fl i j : Nat} (h1 : chunk[0]? = some c0)
    (h2 : chunk.getLast? = some cl) (h3 : l[0]? = some f0) (h4 : l.getLast? = some fl) (hi : l[i]? = some (max c0 f0))
    (hj : l[j]? = some (min cl fl)) (hle : max c0 f0 ≤ min cl fl) :
    i ≤ j ∧ (i = 0 ∨ chunk[0]? = some (max c0 f0)) ∧ (j + 1 = l.length ∨ chunk.getLast? = some (min cl fl)) := by
  have hlast : l[l.length - 1]? = some fl := by rw [← List.getLast?_eq_getElem?]; exact h4
  have hilt := (List.getElem?_eq_some_iff.1 hi).1
  have hjlt := (List.getElem?_eq_some_iff.1 hj).1
  refine ⟨?_, ?_, ?_⟩
  · by_contra hc
    have e := increasing_step hl (i := j) (d := i - j) hj (by rw [show j + (i - j) = i by omega]; exact hi)
    omega
  · by_cases hm : f0 ≤ c0
    · right; rw [max_eq_left hm]; exact h1
    · left
      have e := increasing_step hl (i := 0) (d := i) h3 (by rw [Nat.zero_add]; exact hi)
      omega
  · by_cases hm : cl ≤ fl
    · right; rw [min_eq_left hm]; exact h2
    · left
      have e := increasing_step hl (i := j) (d := l.length - 1 - j) hj
        (by rw [show j + (l.length - 1 - j) = l.length - 1 by omega]; exact hlast)
      omega

theorem chunkData_some {num : V → Nat} {source key : Str} {ps : Pulses} {f : FileAccess V} {firsts counts chunk : List Nat}
    {a : PArr V} (h : chunkData num source key ps f firsts counts chunk = .ok (some a)) (hr : Run chunk)
    (hix : f.getIndex source (partition '.' key).1 = .ok (firsts, counts))
    (hv1 : ChunkField f chunk source key) (hv2 : ChunkField f chunk source (pulseIdKey key)) :
    ChunkSpec num source key ps chunk f a := by
  obtain ⟨fi1, co1, ds1, ix1, d1, l1, l1', r1⟩ := hv1.data
  obtain ⟨fi2, co2, ds2, ix2, d2, l2, l2', r2⟩ := hv2.data
  rw [hix] at ix1
  obtain ⟨rfl, rfl⟩ := Prod.mk.inj (Except.ok.inj ix1)
  have g2 : (partition '.' (pulseIdKey key)).1 = (partition '.' key).1 := pulseIdKey_group key
  rw [g2, hix] at ix2
  obtain ⟨rfl, rfl⟩ := Prod.mk.inj (Except.ok.inj ix2)
  unfold chunkData at h
  split at h
  · rename_i c0 cl f0 fl h1 h2 h3 h4
    rw [nth_ok_iff] at h1 h3
    rw [lastOf_ok] at h2 h4
    split at h
    · simp at h
    · rename_i hov
      split at h
      · simp at h
      · rename_i i hi
        split at h
        · simp at h
        · rename_i j hj
          split at h
          · simp at h
          · rename_i a' ha
            obtain rfl := Option.some.inj (Except.ok.inj h)
            have hchunk := run_mem hr h1 h2
            have hc : c0 ≤ cl := ((hchunk c0).1 (List.mem_of_getElem? h1)).2
            have hf0 := increasing_bounds hv1.trains h3 h4 (List.mem_of_getElem? h3)
            have hi := positionOf_ok hi
            have hj := positionOf_ok hj
            have hle : max c0 f0 ≤ min cl fl := by omega
            obtain ⟨hij, hb, he⟩ := chunk_ends hv1.trains h1 h2 h3 h4 hi hj hle
            have hx := (hchunk (max c0 f0)).2 (by omega)
            have hy := (hchunk (min cl fl)).2 (by omega)
            have spec := rangeData_spec ha hi hj hle hix hv1.trains l1 l1' d1 d2
              (fun hyx => r1 i j _ _ hij hi hj hyx hx hy hb he) (fun hyx => r2 i j _ _ hij hi hj hyx hx hy hb he)
            have hint : ∀ t, t ∈ chunk ∧ t ∈ f.trainIds ↔ max c0 f0 ≤ t ∧ t ≤ min cl fl := by
              intro t
              constructor
              · rintro ⟨e1, e2⟩
                have e3 := (hchunk t).1 e1
                have e4 := increasing_bounds hv1.trains h3 h4 e2
                omega
              · rintro ⟨e1, e2⟩
                exact ⟨(hchunk t).2 (by omega), spec.covered t e1 e2⟩
            refine ⟨spec.nodup, ?_, spec.trains, spec.pulses, spec.shape, _, _, by omega, hint⟩
            intro t p v
            rw [spec.cells, ← and_assoc, ← hint]
            constructor
            · rintro ⟨⟨e1, e2⟩, e3⟩; exact ⟨e1, e3⟩
            · rintro ⟨e1, k, e2, e3⟩
              refine ⟨⟨e1, ?_⟩, k, e2, e3⟩
              obtain ⟨i', _, _, _, _, w1, _⟩ := e2
              exact List.mem_of_getElem? w1
  · simp at h

theorem chunkData_none {num : V → Nat} {source key : Str} {ps : Pulses} {f : FileAccess V} {firsts counts chunk : List Nat}
    (h : chunkData num source key ps f firsts counts chunk = .ok none) (hr : Run chunk)
    (hv1 : f.trainIds.Pairwise (· < ·)) (t : Nat) : ¬ (t ∈ chunk ∧ t ∈ f.trainIds) := by
  unfold chunkData at h
  split at h
  · rename_i c0 cl f0 fl h1 h2 h3 h4
    rw [nth_ok_iff] at h1 h3
    rw [lastOf_ok] at h2 h4
    split at h
    · rename_i hov
      rintro ⟨e1, e2⟩
      have e3 := (run_mem hr h1 h2 t).1 e1
      have e4 := increasing_bounds hv1 h3 h4 e2
      omega
    · split at h
      · simp at h
      · split at h
        · simp at h
        · split at h <;> simp at h
  · simp at h

/-- One lies before the other. -/
def Sep (a b : PArr V) : Prop :=
  (∀ s ∈ a.trains, ∀ t ∈ b.trains, s < t) ∨ (∀ s ∈ a.trains, ∀ t ∈ b.trains, t < s)

theorem Sep.symm {a b : PArr V} (h : Sep a b) : Sep b a := by
  rcases h with h | h
  · exact Or.inr (fun s hs t ht => h t ht s hs)
  · exact Or.inl (fun s hs t ht => h t ht s hs)

theorem ChunkSpec.mem_trains {num : V → Nat} {source key : Str} {ps : Pulses} {chunk : List Nat} {f : FileAccess V} {a : PArr V}
    (h : ChunkSpec num source key ps chunk f a) {t : Nat} (ht : t ∈ a.trains) : t ∈ chunk ∧ t ∈ f.trainIds := by
  rw [h.trains, mem_sortedSet, List.mem_map] at ht
  obtain ⟨⟨⟨t', p⟩, v⟩, hx, rfl⟩ := ht
  obtain ⟨h1, k, ⟨i', _, _, _, _, w1, _⟩, _⟩ := (h.cells t' p v).1 hx
  exact ⟨h1, List.mem_of_getElem? w1⟩

theorem ChunkSpec.sep {num : V → Nat} {source key : Str} {ps : Pulses} {chunk chunk' : List Nat} {f f' : FileAccess V}
    {a a' : PArr V} (h : ChunkSpec num source key ps chunk f a) (h' : ChunkSpec num source key ps chunk' f' a')
    (hd : ∀ t, t ∈ chunk → t ∈ f.trainIds → t ∈ chunk' → t ∉ f'.trainIds) : Sep a a' := by
  obtain ⟨x, y, hxy, hi⟩ := h.interval
  obtain ⟨x', y', hxy', hi'⟩ := h'.interval
  have hne : ¬ (x ≤ x' ∧ x' ≤ y) := by
    intro hc
    have h1 := (hi x').2 hc
    have h2 := (hi' x').2 ⟨by omega, by omega⟩
    exact hd x' h1.1 h1.2 h2.1 h2.2
  have hne' : ¬ (x' ≤ x ∧ x ≤ y') := by
    intro hc
    have h1 := (hi' x).2 hc
    have h2 := (hi x).2 ⟨by omega, by omega⟩
    exact hd x h2.1 h2.2 h1.1 h1.2
  have b1 : ∀ s ∈ a.trains, x ≤ s ∧ s ≤ y := fun s hs => (hi s).1 (h.mem_trains hs)
  have b2 : ∀ s ∈ a'.trains, x' ≤ s ∧ s ≤ y' := fun s hs => (hi' s).1 (h'.mem_trains hs)
  by_cases hlt : y < x'
  · exact Or.inl (fun s hs t ht => by have := b1 s hs; have := b2 t ht; omega)
  · exact Or.inr (fun s hs t ht => by have := b1 s hs; have := b2 t ht; omega)

theorem mapE_pairwise {α β : Type _} {f : α → R β} {R : α → α → Prop} {S : β → β → Prop}
    : ∀ {l : List α} {r : List β}, mapE f l = .ok r → l.Pairwise R →
      (∀ a ∈ l, ∀ b ∈ l, ∀ x y, R a b → f a = .ok x → f b = .ok y → S x y) → r.Pairwise S := by
  intro l
  induction l with
  | nil => intro r h _ _; obtain rfl := Except.ok.inj h; exact List.Pairwise.nil
  | cons a l ih =>
    intro r h hp hs
    obtain ⟨b, bs, h1, h2, rfl⟩ := mapE_cons_ok.1 h
    rw [List.pairwise_cons] at hp ⊢
    refine ⟨?_, ih h2 hp.2 (fun x hx y hy => hs x (by simp [hx]) y (by simp [hy]))⟩
    intro y hy
    obtain ⟨z, hz, hfz⟩ := (mapE_mem h2).1 hy
    exact hs a (by simp) z (by simp [hz]) b y (hp.1 z hz) h1 hfz

/-- The chunks of the selected trains: runs which have no train in common, if no train ID is repeated. -/
theorem chunks_disjoint {l : List Nat} (h : l.Nodup) : (trainChunks l).Pairwise (fun a b => ∀ t ∈ a, t ∉ b) := by
  have := trainChunks_flatten l
  rw [← this] at h
  rw [List.nodup_flatten] at h
  exact h.2.imp (fun hd t ht hb => hd ht hb)

theorem chunks_run {l : List Nat} {r : List Nat} (h : r ∈ trainChunks l) : Run r := by
  cases l with
  | nil =>
    have : trainChunks [] = [[]] := rfl
    rw [this, List.mem_singleton] at h
    subst h
    intro i a b h1
    simp at h1
  | cons x l => exact (trainChunks_runs (by simp)).consecutive r h

/-- What `fileData` gives. -/
theorem fileData_runs {num : V → Nat} {source key : Str} {ps : Pulses} {l : List Nat} {f : FileAccess V} {as : List (PArr V)}
    (h : fileData num source key ps (trainChunks l) f = .ok as) (hl : l.Nodup)
    (hf : f.trainIds.Pairwise (· < ·)) (hv1 : ∀ chunk ∈ trainChunks l, ChunkField f chunk source key)
    (hv2 : ∀ chunk ∈ trainChunks l, ChunkField f chunk source (pulseIdKey key)) :
    (∀ a ∈ as, ∃ chunk ∈ trainChunks l, ChunkSpec num source key ps chunk f a) ∧
    (∀ t ∈ l, t ∈ f.trainIds → ∃ a ∈ as, ∃ chunk ∈ trainChunks l, t ∈ chunk ∧ ChunkSpec num source key ps chunk f a) ∧
    as.Pairwise Sep := by
  unfold fileData at h
  split at h
  · simp at h
  · rename_i firsts counts hix
    split at h
    · simp at h
    · rename_i r hr
      obtain rfl := Except.ok.inj h
      refine ⟨?_, ?_, ?_⟩
      · intro a ha
        simp only [List.mem_filterMap, id_eq, exists_eq_right] at ha
        obtain ⟨chunk, hc, hd⟩ := (mapE_mem hr).1 ha
        exact ⟨chunk, hc, chunkData_some hd (chunks_run hc) hix (hv1 _ hc) (hv2 _ hc)⟩
      · intro t ht htf
        rw [← trainChunks_flatten l, List.mem_flatten] at ht
        obtain ⟨chunk, hc, htc⟩ := ht
        obtain ⟨o, ho, hd⟩ := mapE_ok_all hr hc
        cases o with
        | none => exact absurd ⟨htc, htf⟩ (chunkData_none hd (chunks_run hc) hf t)
        | some a =>
          refine ⟨a, ?_, chunk, hc, htc, chunkData_some hd (chunks_run hc) hix (hv1 _ hc) (hv2 _ hc)⟩
          simp only [List.mem_filterMap, id_eq, exists_eq_right]
          exact ho
      · rw [List.pairwise_filterMap]
        refine mapE_pairwise hr (chunks_disjoint hl) ?_
        intro c hc c' hc' o o' hcc ho ho' a ha a' ha'
        simp only [id_eq] at ha ha'
        subst ha; subst ha'
        exact (chunkData_some ho (chunks_run hc) hix (hv1 _ hc) (hv2 _ hc)).sep (chunkData_some ho' (chunks_run hc') hix (hv1 _ hc') (hv2 _ hc'))
          (fun t h1 _ h2 _ => hcc t h1 h2)

theorem fileData_spec {num : V → Nat} {source key : Str} {ps : Pulses} {l : List Nat} {f : FileAccess V} {as : List (PArr V)}
    (h : fileData num source key ps (trainChunks l) f = .ok as) (hl : l.Nodup)
    (hv1 : ValidField f true source key) (hv2 : ValidField f true source (pulseIdKey key)) :
    (∀ a ∈ as, ∃ chunk ∈ trainChunks l, ChunkSpec num source key ps chunk f a) ∧
    (∀ t ∈ l, t ∈ f.trainIds → ∃ a ∈ as, ∃ chunk ∈ trainChunks l, t ∈ chunk ∧ ChunkSpec num source key ps chunk f a) ∧
    as.Pairwise Sep :=
  fileData_runs h hl hv1.trains (fun chunk _ => chunkField_of_valid hv1 chunk) (fun chunk _ => chunkField_of_valid hv2 chunk)

/-! ### One module -/

theorem dict_get?_append {K W : Type} [DecidableEq K] (d e : Dict K W) (k : K) :
    Dict.get? (d ++ e) k = (match Dict.get? d k with | some v => some v | none => Dict.get? e k) := by
  induction d with
  | nil => rfl
  | cons x d ih =>
    obtain ⟨k', v⟩ := x
    rw [List.cons_append, Dict.get?_cons, Dict.get?_cons]
    split
    · rfl
    · exact ih

theorem dict_get?_flatten {K W : Type} [DecidableEq K] {ds : List (Dict K W)} {k : K}
    (hc : ∀ d ∈ ds, ∀ d' ∈ ds, ∀ v v', Dict.get? d k = some v → Dict.get? d' k = some v' → v = v') {v : W} :
    Dict.get? (List.flatten ds : Dict K W) k = some v ↔ ∃ d ∈ ds, Dict.get? d k = some v := by
  induction ds with
  | nil => simp
  | cons d ds ih =>
    rw [List.flatten_cons, dict_get?_append]
    have ih' := ih (fun x hx y hy => hc x (by simp [hx]) y (by simp [hy]))
    cases hd : Dict.get? d k with
    | some w =>
      simp only
      constructor
      · intro h; exact ⟨d, by simp, by rw [hd, h]⟩
      · rintro ⟨e, he, hv⟩
        rw [hc d (by simp) e he w v hd hv]
    | none =>
      simp only
      rw [ih']
      simp [hd]

theorem sortBy_perm {α : Type _} (key : α → Nat) (l : List α) : (sortBy key l).Perm l := List.perm_insertionSort _ _

theorem sortBy_pairwise {α : Type _} (key : α → Nat) (l : List α) : (sortBy key l).Pairwise (fun a b => key a ≤ key b) := by
  have : Std.Total (fun a b : α => key a ≤ key b) := ⟨fun a b => Nat.le_total _ _⟩
  have : IsTrans α (fun a b => key a ≤ key b) := ⟨fun a b c h1 h2 => Nat.le_trans h1 h2⟩
  exact List.pairwise_insertionSort _ _

theorem mem_joinLabels {ls : List (List Nat)} {t : Nat} : t ∈ joinLabels ls ↔ ∃ l ∈ ls, t ∈ l := by
  cases ls with
  | nil => simp [joinLabels]
  | cons l ls =>
    simp only [joinLabels]
    split
    · rename_i h
      constructor
      · intro ht; exact ⟨l, by simp, ht⟩
      · rintro ⟨m, hm, ht⟩
        simp only [List.mem_cons] at hm
        rcases hm with rfl | hm
        · exact ht
        · have := List.all_eq_true.1 h m hm
          simp only [decide_eq_true_eq] at this
          exact this ▸ ht
    · rw [mem_sortedSet, List.mem_flatten]

theorem joinLabels_pairwise {ls : List (List Nat)} (h : ∀ l ∈ ls, l.Pairwise (· < ·)) : (joinLabels ls).Pairwise (· < ·) := by
  cases ls with
  | nil => exact List.Pairwise.nil
  | cons l ls =>
    simp only [joinLabels]
    split
    · exact h l (by simp)
    · exact sortedSet_pairwise _

theorem headD_mem {l : List Nat} (h : l ≠ []) : l.headD 0 ∈ l := by
  cases l with
  | nil => exact absurd rfl h
  | cons a l => simp

theorem headD_le {l : List Nat} (hp : l.Pairwise (· < ·)) {t : Nat} (ht : t ∈ l) : l.headD 0 ≤ t := by
  cases l with
  | nil => simp at ht
  | cons a l =>
    simp only [List.mem_cons] at ht
    rcases ht with rfl | ht
    · simp
    · have := (List.pairwise_cons.1 hp).1 t ht
      simp; omega

/-- Arrays one before the other, in the order of their first trains, make an array with increasing trains. -/
theorem flatten_trains {as : List (PArr V)} (hs : as.Pairwise Sep) (ho : as.Pairwise (fun a b => a.firstTrain ≤ b.firstTrain))
    (hp : ∀ a ∈ as, a.trains.Pairwise (· < ·)) (hne : ∀ a ∈ as, a.trains ≠ []) :
    (as.map PArr.trains).flatten.Pairwise (· < ·) := by
  rw [List.pairwise_flatten]
  constructor
  · intro l hl
    rw [List.mem_map] at hl
    obtain ⟨a, ha, rfl⟩ := hl
    exact hp a ha
  · rw [List.pairwise_map]
    refine (hs.and ho).imp_of_mem ?_
    rintro a b ha hb ⟨h1, h2⟩ s hs t ht
    rcases h1 with h1 | h1
    · exact h1 s hs t ht
    · have e1 := headD_mem (hne a ha)
      have e2 := headD_mem (hne b hb)
      have e3 := h1 _ e1 _ e2
      unfold PArr.firstTrain at h2
      omega

theorem frameIn_mem {num : V → Nat} {f : FileAccess V} {source key : Str} {t k p : Nat} {v : V}
    (h : FrameIn num f source key t k p v) : t ∈ f.trainIds := by
  obtain ⟨i, _, _, _, _, w1, _⟩ := h
  exact List.mem_of_getElem? w1

theorem ChunkSpec.get {num : V → Nat} {source key : Str} {ps : Pulses} {chunk : List Nat} {f : FileAccess V} {a : PArr V}
    (h : ChunkSpec num source key ps chunk f a) (t p : Nat) (v : V) :
    Dict.get? a.cells (t, p) = some v ↔ t ∈ chunk ∧ ∃ k, FrameIn num f source key t k p v ∧ AskedSet ps k p := by
  rw [← h.cells]
  exact Dict.get?_eq_some_iff h.nodup

/-- Two files of the collection with the same source and train are the same. -/
theorem same_file {files : List (FileAccess V)} (hn : NoConflict files) {f g : FileAccess V} (hf : f ∈ files) (hg : g ∈ files)
    {source : Str} {t : Nat} (h1 : Holds f source) (h2 : Holds g source) (ht : t ∈ f.trainIds) (ht' : t ∈ g.trainIds) :
    f = g := by
  by_contra hne
  have : Std.Symm (Compatible (V := V)) := ⟨fun a b hc s t ha hb ht hta => hc s t hb ha hta ht⟩
  exact hn.forall hf hg hne source t h1 h2 ht ht'

/-- What the array of a module has. -/
structure ModuleSpec (num : V → Nat) (c : DC V) (source key : Str) (ps : Pulses) (a : PArr V) : Prop where
  cells : ∀ t p v, Dict.get? a.cells (t, p) = some v ↔
    t ∈ c.trainIds ∧ ∃ k, FrameOf num c source key t k p v ∧ AskedSet ps k p
  trains : ∀ t, t ∈ a.trains ↔ ∃ p v, Dict.get? a.cells (t, p) = some v
  pulses : ∀ p, p ∈ a.pulses ↔ ∃ t v, Dict.get? a.cells (t, p) = some v
  trainsOrder : a.trains.Pairwise (· < ·)
  pulsesOrder : a.pulses.Pairwise (· < ·)
  shape : ∃ f ∈ c.files, Holds f source ∧ ∃ ds, f.dataset (ch! "INSTRUMENT") source key = .ok ds ∧
    a.rowShape = squeezeShape ds.rowShape

theorem moduleData_chunks {d : Det V} {num : V → Nat} {source key : Str} {ps : Pulses} {a : PArr V}
    (h : d.moduleData num source key ps = .ok a) (hn : NoConflict d.data.files)
    (hv : ∀ f ∈ d.data.files, Holds f source → f.trainIds.Pairwise (· < ·) ∧ ∀ chunk ∈ trainChunks d.data.trainIds,
      ChunkField f chunk source key ∧ ChunkField f chunk source (pulseIdKey key))
    (ht : d.data.trainIds.Nodup) : ModuleSpec num d.data source key ps a := by
  unfold Det.moduleData at h
  split at h
  · simp at h
  · rename_i l hl
    have hf : ∀ f ∈ d.data.sourceIndex source, f ∈ d.data.files ∧ Holds f source := by
      intro f hf
      simp only [DC.sourceIndex, List.mem_filter, decide_eq_true_eq] at hf
      exact hf
    have fd : ∀ {f : FileAccess V} {as : List (PArr V)}, fileData num source key ps (trainChunks d.data.trainIds) f = .ok as →
        f ∈ d.data.files → Holds f source → _ :=
      fun {f as} hfd h1 h2 => fileData_runs hfd ht (hv f h1 h2).1 (fun ch hch => ((hv f h1 h2).2 ch hch).1)
        (fun ch hch => ((hv f h1 h2).2 ch hch).2)
    have A1 : ∀ a ∈ l.flatten, ∃ f ∈ d.data.files, Holds f source ∧ ∃ chunk ∈ trainChunks d.data.trainIds,
        ChunkSpec num source key ps chunk f a := by
      intro a ha
      obtain ⟨as, has, ha⟩ := List.mem_flatten.1 ha
      obtain ⟨f, hfi, hfd⟩ := (mapE_mem hl).1 has
      obtain ⟨h1, h2⟩ := hf f hfi
      exact ⟨f, h1, h2, (fd hfd h1 h2).1 a ha⟩
    have A2 : ∀ f ∈ d.data.files, Holds f source → ∀ t ∈ d.data.trainIds, t ∈ f.trainIds → ∃ a ∈ l.flatten,
        ∃ chunk, t ∈ chunk ∧ ChunkSpec num source key ps chunk f a := by
      intro f h1 h2 t htd htf
      have hfi : f ∈ d.data.sourceIndex source := by
        simp only [DC.sourceIndex, List.mem_filter, decide_eq_true_eq]
        exact ⟨h1, h2⟩
      obtain ⟨as, has, hfd⟩ := mapE_ok_all hl hfi
      obtain ⟨a, ha, chunk, _, htc, hs⟩ := (fd hfd h1 h2).2.1 t htd htf
      exact ⟨a, List.mem_flatten.2 ⟨as, has, ha⟩, chunk, htc, hs⟩
    have A3 : l.flatten.Pairwise Sep := by
      rw [List.pairwise_flatten]
      constructor
      · intro as has
        obtain ⟨f, hfi, hfd⟩ := (mapE_mem hl).1 has
        obtain ⟨h1, h2⟩ := hf f hfi
        exact (fd hfd h1 h2).2.2
      · refine mapE_pairwise hl (R := Compatible) (hn.sublist List.filter_sublist) ?_
        intro f hfi g hgi as bs hc h1 h2 a ha b hb
        obtain ⟨f1, f2⟩ := hf f hfi
        obtain ⟨g1, g2⟩ := hf g hgi
        obtain ⟨ch, _, s1⟩ := (fd h1 f1 f2).1 a ha
        obtain ⟨ch', _, s2⟩ := (fd h2 g1 g2).1 b hb
        exact s1.sep s2 (fun t _ e1 _ => hc source t f2 g2 e1)
    have chunkIn : ∀ {ch : List Nat} {t : Nat}, ch ∈ trainChunks d.data.trainIds → t ∈ ch → t ∈ d.data.trainIds := by
      intro ch t hch htc
      rw [← trainChunks_flatten d.data.trainIds]
      exact List.mem_flatten.2 ⟨ch, hch, htc⟩
    -- what the arrays have together
    have key1 : ∀ t p v, (∃ a ∈ l.flatten, Dict.get? a.cells (t, p) = some v) ↔
        t ∈ d.data.trainIds ∧ ∃ k, FrameOf num d.data source key t k p v ∧ AskedSet ps k p := by
      intro t p v
      constructor
      · rintro ⟨a, ha, hg⟩
        obtain ⟨f, h1, h2, ch, hch, hs⟩ := A1 a ha
        obtain ⟨htc, k, hfr, hak⟩ := (hs.get t p v).1 hg
        exact ⟨chunkIn hch htc, k, ⟨f, h1, h2, hfr⟩, hak⟩
      · rintro ⟨htd, k, ⟨f, h1, h2, hfr⟩, hak⟩
        obtain ⟨a, ha, ch, htc, hs⟩ := A2 f h1 h2 t htd (frameIn_mem hfr)
        exact ⟨a, ha, (hs.get t p v).2 ⟨htc, k, hfr, hak⟩⟩
    have key2 : ∀ a ∈ l.flatten, ∀ a' ∈ l.flatten, ∀ (x : Nat × Nat) v v', Dict.get? a.cells x = some v →
        Dict.get? a'.cells x = some v' → v = v' := by
      rintro a ha a' ha' ⟨t, p⟩ v v' hg hg'
      obtain ⟨f, h1, h2, ch, hch, hs⟩ := A1 a ha
      obtain ⟨f', h1', h2', ch', hch', hs'⟩ := A1 a' ha'
      obtain ⟨htc, k, hfr, hak⟩ := (hs.get t p v).1 hg
      obtain ⟨htc', k', hfr', hak'⟩ := (hs'.get t p v').1 hg'
      obtain rfl := same_file hn h1 h1' h2 h2' (frameIn_mem hfr) (frameIn_mem hfr')
      have := (hs.get t p v').2 ⟨htc, k', hfr', hak'⟩
      rw [hg] at this
      exact Option.some.inj this
    have memT : ∀ a ∈ l.flatten, ∀ t, t ∈ a.trains ↔ ∃ p v, Dict.get? a.cells (t, p) = some v := by
      intro a ha t
      obtain ⟨f, h1, h2, ch, hch, hs⟩ := A1 a ha
      rw [hs.trains, mem_sortedSet, List.mem_map]
      constructor
      · rintro ⟨⟨⟨t', p⟩, v⟩, hx, rfl⟩; exact ⟨p, v, (Dict.get?_eq_some_iff hs.nodup).2 hx⟩
      · rintro ⟨p, v, hx⟩; exact ⟨((t, p), v), Dict.mem_of_get? hx, rfl⟩
    have memP : ∀ a ∈ l.flatten, ∀ p, p ∈ a.pulses ↔ ∃ t v, Dict.get? a.cells (t, p) = some v := by
      intro a ha p
      obtain ⟨f, h1, h2, ch, hch, hs⟩ := A1 a ha
      rw [hs.pulses, mem_sortedSet, List.mem_map]
      constructor
      · rintro ⟨⟨⟨t, p'⟩, v⟩, hx, rfl⟩; exact ⟨t, v, (Dict.get?_eq_some_iff hs.nodup).2 hx⟩
      · rintro ⟨t, v, hx⟩; exact ⟨((t, p), v), Dict.mem_of_get? hx, rfl⟩
    split at h
    · rename_i hempty
      split at h
      · simp at h
      · rename_i a' as' has
        obtain rfl := Except.ok.inj h
        have ha : a' ∈ l.flatten := by rw [has]; simp
        have none_ : ∀ b ∈ l.flatten, b.cells = [] := by
          intro b hb
          by_contra hne
          have : b ∈ l.flatten.filter (fun a => !a.cells.isEmpty) := by
            rw [List.mem_filter]
            refine ⟨hb, ?_⟩
            cases hc : b.cells with
            | nil => exact absurd hc hne
            | cons => rfl
          rw [hempty] at this
          simp at this
        obtain ⟨f, h1, h2, ch, hch, hs⟩ := A1 a' ha
        refine ⟨?_, memT a' ha, memP a' ha, ?_, ?_, f, h1, h2, hs.shape⟩
        · intro t p v
          rw [← key1]
          constructor
          · intro hg; exact ⟨a', ha, hg⟩
          · rintro ⟨b, hb, hg⟩
            rw [none_ b hb] at hg
            simp at hg
        · rw [hs.trains]; exact sortedSet_pairwise _
        · rw [hs.pulses]; exact sortedSet_pairwise _
    · rename_i hfull
      unfold concatTrains at h
      simp only at h
      generalize hM : l.flatten.filter (fun a => !a.cells.isEmpty) = M at h hfull
      have hperm := sortBy_perm PArr.firstTrain M
      have hmem : ∀ a, a ∈ sortBy PArr.firstTrain M ↔ a ∈ l.flatten ∧ a.cells ≠ [] := by
        intro a
        rw [hperm.mem_iff, ← hM, List.mem_filter]
        simp
      have hsub : ∀ a ∈ sortBy PArr.firstTrain M, a ∈ l.flatten := fun a ha => ((hmem a).1 ha).1
      split at h
      · simp at h
      · rename_i shape hshape
        obtain rfl := Except.ok.inj h
        have key3 : ∀ t p v, Dict.get? ((sortBy PArr.firstTrain M).map PArr.cells).flatten (t, p) = some v ↔
            ∃ a ∈ sortBy PArr.firstTrain M, Dict.get? a.cells (t, p) = some v := by
          intro t p v
          rw [dict_get?_flatten]
          · simp
          · intro d1 hd1 d2 hd2 v v' e1 e2
            simp only [List.mem_map] at hd1 hd2
            obtain ⟨a, ha, rfl⟩ := hd1
            obtain ⟨a', ha', rfl⟩ := hd2
            exact key2 a (hsub a ha) a' (hsub a' ha') _ v v' e1 e2
        refine ⟨?_, ?_, ?_, ?_, ?_, ?_⟩
        · intro t p v
          rw [key3, ← key1]
          constructor
          · rintro ⟨a, ha, hg⟩; exact ⟨a, hsub a ha, hg⟩
          · rintro ⟨a, ha, hg⟩
            refine ⟨a, (hmem a).2 ⟨ha, ?_⟩, hg⟩
            intro hc
            rw [hc] at hg
            simp at hg
        · intro t
          simp only [List.mem_flatten, List.mem_map, key3]
          constructor
          · rintro ⟨_, ⟨a, ha, rfl⟩, hta⟩
            obtain ⟨p, v, hg⟩ := (memT a (hsub a ha) t).1 hta
            exact ⟨p, v, a, ha, hg⟩
          · rintro ⟨p, v, a, ha, hg⟩
            exact ⟨_, ⟨a, ha, rfl⟩, (memT a (hsub a ha) t).2 ⟨p, v, hg⟩⟩
        · intro p
          simp only [mem_joinLabels, List.mem_map, key3]
          constructor
          · rintro ⟨_, ⟨a, ha, rfl⟩, hta⟩
            obtain ⟨t, v, hg⟩ := (memP a (hsub a ha) p).1 hta
            exact ⟨t, v, a, ha, hg⟩
          · rintro ⟨t, v, a, ha, hg⟩
            exact ⟨_, ⟨a, ha, rfl⟩, (memP a (hsub a ha) p).2 ⟨t, v, hg⟩⟩
        · refine flatten_trains ?_ (sortBy_pairwise _ _) ?_ ?_
          · have : M.Pairwise Sep := by rw [← hM]; exact A3.filter _
            exact hperm.symm.pairwise this Sep.symm
          · intro a ha
            obtain ⟨f, _, _, ch, _, hs⟩ := A1 a (hsub a ha)
            rw [hs.trains]; exact sortedSet_pairwise _
          · intro a ha hc
            obtain ⟨f, _, _, ch, _, hs⟩ := A1 a (hsub a ha)
            cases hcc : a.cells with
            | nil => exact ((hmem a).1 ha).2 hcc
            | cons x xs =>
              have : x.1.1 ∈ a.trains := by
                rw [hs.trains, mem_sortedSet, List.mem_map]
                exact ⟨x, by rw [hcc]; simp, rfl⟩
              rw [hc] at this
              simp at this
        · refine joinLabels_pairwise ?_
          intro m hm
          rw [List.mem_map] at hm
          obtain ⟨a, ha, rfl⟩ := hm
          obtain ⟨f, _, _, ch, _, hs⟩ := A1 a (hsub a ha)
          rw [hs.pulses]; exact sortedSet_pairwise _
        · obtain ⟨a, ha, e⟩ := List.mem_map.1 ((joinImageSizes_ok hshape).2 (by
            rw [ne_eq, List.map_eq_nil_iff]
            intro hcs
            rw [hcs] at hperm
            exact hfull hperm.nil_eq.symm))
          obtain ⟨f, h1, h2, ch, _, hs⟩ := A1 a (hsub a ha)
          obtain ⟨ds, h3, h4⟩ := hs.shape
          exact ⟨f, h1, h2, ds, h3, e.symm.trans h4⟩

theorem moduleData_spec {d : Det V} {num : V → Nat} {source key : Str} {ps : Pulses} {a : PArr V}
    (h : d.moduleData num source key ps = .ok a) (hn : NoConflict d.data.files) (hv : FramesValid d.data source key)
    (ht : d.data.trainIds.Nodup) : ModuleSpec num d.data source key ps a :=
  moduleData_chunks h hn (fun f h1 h2 => ⟨(hv.1 f h1 h2).trains, fun ch _ =>
    ⟨chunkField_of_valid (hv.1 f h1 h2) ch, chunkField_of_valid (hv.2 f h1 h2) ch⟩⟩) ht

end KD
