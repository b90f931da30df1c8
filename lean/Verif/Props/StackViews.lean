/- Properties C51 and C52: indexing a stack view. -/
import Verif.Props.Stacking

set_option linter.unusedSimpArgs false

namespace KD
open Spec

variable {V : Type}

/-! ### Lists and picks -/

theorem filterMap_range_take {α : Type} (l : List α) (m : Nat) : (List.range m).filterMap (fun i => l[i]?) = l.take m := by
  induction m with
  | zero => simp
  | succ m ih =>
    rw [List.range_succ, List.filterMap_append, ih, List.take_add_one]
    cases h : l[m]? <;> simp [h]

theorem pySlice_take {α : Type} (l : List α) (k : Nat) : pySlice l none (some (k : Int)) none = .ok (l.take k) := by
  unfold pySlice slicePositions sliceBound
  simp only [Option.getD_none]
  rw [if_neg (by omega)]
  simp only [show decide ((1 : Int) < 0) = false by decide, Bool.false_eq_true, if_false, if_neg (show ¬ (k : Int) < 0 by omega)]
  congr 1
  rw [List.filterMap_map]
  have h1 : ∀ n : Nat, ((fun i => l[i]?) ∘ fun (j : Nat) => ((0 : Int) + (j : Int) * 1).toNat) = fun i => l[i]? := by
    intro n; funext j; simp
  rw [h1 0, filterMap_range_take]
  by_cases hk : (k : Int) ≥ l.length
  · rw [if_pos hk]
    have : l.length ≤ k := by omega
    rw [List.take_of_length_le this]
    apply List.take_of_length_le
    split <;> omega
  · rw [if_neg hk]
    congr 1
    split <;> omega

theorem pySlice_drop {α : Type} (l : List α) (k : Nat) : pySlice l (some (k : Int)) none none = .ok (l.drop k) := by
  unfold pySlice slicePositions sliceBound
  simp only [Option.getD_none]
  rw [if_neg (by omega)]
  simp only [show decide ((1 : Int) < 0) = false by decide, Bool.false_eq_true, if_false, if_neg (show ¬ (k : Int) < 0 by omega)]
  congr 1
  rw [List.filterMap_map]
  by_cases hk : (k : Int) ≥ l.length
  · rw [if_pos hk]
    rw [List.drop_of_length_le (by omega)]
    simp
  · rw [if_neg hk]
    have h1 : ((fun i => l[i]?) ∘ fun (j : Nat) => ((k : Int) + (j : Int) * 1).toNat) = fun i => (l.drop k)[i]? := by
      funext j; simp only [Function.comp, List.getElem?_drop]; congr 1; omega
    rw [h1, filterMap_range_take]
    apply List.take_of_length_le
    rw [List.length_drop]
    split <;> omega

theorem pickDims_append : ∀ (a b : List Ix) (s t : List Nat), a.length = s.length →
    pickDims (a ++ b) (s ++ t) = match pickDims a s with
      | .error e => .error e
      | .ok p => match pickDims b t with
        | .error e => .error e
        | .ok q => .ok (p ++ q) := by
  intro a
  induction a with
  | nil =>
    intro b s t h
    cases s with
    | nil =>
      simp only [List.nil_append, pickDims]
      cases pickDims b t <;> rfl
    | cons n s => simp at h
  | cons x a ih =>
    intro b s t h
    cases s with
    | nil => simp at h
    | cons n s =>
      simp only [List.cons_append, pickDims]
      cases pickDim x n with
      | error e => rfl
      | ok p =>
        simp only
        rw [ih b s t (by simpa using h)]
        cases pickDims a s with
        | error e => rfl
        | ok ps =>
          simp only
          cases pickDims b t <;> rfl

theorem pickDims_length : ∀ {a : List Ix} {s : List Nat} {p : List Pick}, pickDims a s = .ok p → p.length = s.length := by
  intro a
  induction a with
  | nil =>
    intro s p h
    cases s with
    | nil => obtain rfl := Except.ok.inj h; rfl
    | cons n s => simp [pickDims] at h
  | cons x a ih =>
    intro s p h
    cases s with
    | nil => simp [pickDims] at h
    | cons n s =>
      simp only [pickDims] at h
      split at h
      · simp at h
      · split at h
        · simp at h
        · next ps hps =>
          obtain rfl := Except.ok.inj h
          simp [ih hps]

theorem pickShape_append (p q : List Pick) : pickShape (p ++ q) = pickShape p ++ pickShape q := by
  induction p with
  | nil => rfl
  | cons x p ih => cases x <;> simp [pickShape, ih]

theorem pickIndex_length (p : List Pick) : ∀ idx, (pickIndex p idx).length = p.length := by
  induction p with
  | nil => intro idx; rfl
  | cons x p ih =>
    intro idx
    cases x with
    | one i => simp [pickIndex, ih]
    | many l => cases idx <;> simp [pickIndex, ih]

theorem pickIndex_append (p q : List Pick) : ∀ idx, pickIndex (p ++ q) idx =
    pickIndex p (idx.take (pickShape p).length) ++ pickIndex q (idx.drop (pickShape p).length) := by
  induction p with
  | nil => intro idx; simp [pickIndex, pickShape]
  | cons x p ih =>
    intro idx
    cases x with
    | one i => simp only [List.cons_append, pickIndex, pickShape, ih]
    | many l =>
      cases idx with
      | nil =>
        have := ih []
        simp only [List.cons_append, pickIndex, pickShape, this]
        simp [pickIndex]
      | cons j idx => simp only [List.cons_append, pickIndex, pickShape, ih, List.length_cons, List.take_succ_cons, List.drop_succ_cons]

theorem pickDims_kept : ∀ {a : List Ix} {s : List Nat} {p : List Pick}, pickDims a s = .ok p →
    (pickShape p).length = keptDims a := by
  intro a
  induction a with
  | nil =>
    intro s p h
    cases s with
    | nil => obtain rfl := Except.ok.inj h; rfl
    | cons n s => simp [pickDims] at h
  | cons x a ih =>
    intro s p h
    cases s with
    | nil => simp [pickDims] at h
    | cons n s =>
      simp only [pickDims] at h
      split at h
      · simp at h
      · next p0 hp0 =>
        split at h
        · simp at h
        · next ps hps =>
          obtain rfl := Except.ok.inj h
          have := ih hps
          cases x with
          | int i =>
            unfold pickDim at hp0
            have : ∃ j, p0 = .one j := by
              simp only at hp0
              generalize (if i < 0 then i + (n : Int) else i) = j at hp0
              split at hp0
              · exact ⟨_, (Except.ok.inj hp0).symm⟩
              · simp at hp0
            obtain ⟨j, rfl⟩ := this
            simpa [pickShape, keptDims] using ih hps
          | slice a b c =>
            unfold pickDim at hp0
            simp only at hp0
            split at hp0
            · simp at hp0
            · obtain rfl := Except.ok.inj hp0
              simpa [pickShape, keptDims] using this
          | ellipsis => simp [pickDim] at hp0

theorem slicePositions_full (n : Nat) : slicePositions none none none n = .ok (List.range n) := by
  unfold slicePositions
  simp only [Option.getD_none]
  rw [if_neg (by omega)]
  simp only [show decide ((1 : Int) < 0) = false by decide, Bool.false_eq_true, if_false]
  congr 1
  have : (fun (k : Nat) => ((0 : Int) + (k : Int) * 1).toNat) = id := by funext k; simp
  rw [this, List.map_id]
  congr 1
  split <;> omega

theorem pickDim_full (n : Nat) : pickDim Ix.full n = .ok (.many (List.range n)) := by
  simp only [pickDim, Ix.full, slicePositions_full]

/-! ### Complete indices -/

theorem expandIx_no_ellipsis {ixs : List Ix} (h : ixs.count .ellipsis ≤ 1) (n : Nat) : Ix.ellipsis ∉ expandIx ixs n := by
  have hfull : ∀ m, Ix.ellipsis ∉ List.replicate m Ix.full := by
    intro m hm
    have := List.eq_of_mem_replicate hm
    simp [Ix.full] at this
  unfold expandIx
  split
  · next hin =>
    obtain ⟨a, b, e, hna⟩ := List.append_of_mem hin |>.elim (fun a h => h.elim fun b h => by
      exact (⟨_, _, (List.take_append_drop (ixs.idxOf Ix.ellipsis) ixs).symm, trivial⟩ : ∃ a b, ixs = a ++ b ∧ True))
    have hlt : ixs.idxOf Ix.ellipsis < ixs.length := List.idxOf_lt_length_of_mem hin
    have hsplit : ixs = ixs.take (ixs.idxOf Ix.ellipsis) ++ Ix.ellipsis :: ixs.drop (ixs.idxOf Ix.ellipsis + 1) := by
      conv_lhs => rw [← List.take_append_drop (ixs.idxOf Ix.ellipsis) ixs]
      congr 1
      rw [List.drop_eq_getElem_cons hlt, List.getElem_idxOf hlt]
    have hcount : (ixs.take (ixs.idxOf Ix.ellipsis)).count .ellipsis + (ixs.drop (ixs.idxOf Ix.ellipsis + 1)).count .ellipsis + 1 ≤ 1 := by
      have := congrArg (List.count Ix.ellipsis) hsplit
      rw [List.count_append, List.count_cons_self] at this
      omega
    intro hmem
    rcases List.mem_append.1 hmem with hmem | hmem
    · rcases List.mem_append.1 hmem with hmem | hmem
      · have := List.count_pos_iff.2 hmem; omega
      · exact hfull _ hmem
    · have := List.count_pos_iff.2 hmem; omega
  · next hin =>
    intro hmem
    rcases List.mem_append.1 hmem with hmem | hmem
    · exact hin hmem
    · exact hfull _ hmem

theorem expandIx_length (ixs : List Ix) (n : Nat) : n ≤ (expandIx ixs n).length := by
  unfold expandIx
  split
  · next hin =>
    have hlt : ixs.idxOf Ix.ellipsis < ixs.length := List.idxOf_lt_length_of_mem hin
    simp only [List.length_append, List.length_take, List.length_replicate, List.length_drop]
    omega
  · simp only [List.length_append, List.length_replicate]; omega

/-- Indexing with a complete index without an ellipsis. -/
theorem index_complete {a : Arr V} {ixs : List Ix} (h : Ix.ellipsis ∉ ixs) (hl : ixs.length = a.shape.length) :
    a.index ixs = match pickDims ixs a.shape with
      | .error e => .error e
      | .ok ps => .ok (a.pick ps) := by
  unfold Arr.index
  have hc : ixs.count Ix.ellipsis = 0 := List.count_eq_zero.2 h
  have he : expandIx ixs a.shape.length = ixs := by
    unfold expandIx
    rw [if_neg h, hl]; simp
  rw [he, if_neg (by omega)]
  rfl

theorem index_too_long {a : Arr V} {ixs : List Ix} (h : Ix.ellipsis ∉ ixs) (hl : a.shape.length < ixs.length) :
    a.index ixs = .error .index := by
  unfold Arr.index
  rw [if_pos]
  right
  unfold expandIx
  rw [if_neg h]
  simp; omega

/-! ### One module -/

theorem moduleArray_shape {v : StackView V} {k : Nat} (hv : GoodView v k) (m : Nat) :
    (moduleArray v m).shape = v.modShape ∧ (moduleArray v m).dtype = v.dtype := by
  unfold moduleArray
  split
  · next a ha => exact hv.shapes _ _ ha
  · exact ⟨rfl, rfl⟩

theorem getSingle_fst {v : StackView V} {k : Nat} (hv : GoodView v k) (m : Int) (sl : List Ix) :
    (v.getSingle m sl).1 = if m ≥ v.nmodules then .error .index
      else if 0 ≤ m then (moduleArray v m.toNat).index sl
      else (Arr.full v.dtype v.modShape v.fill).index sl := by
  unfold StackView.getSingle
  cases hd : v.data.get? m with
  | some a =>
    have hr := hv.range _ _ hd
    simp only
    rw [if_neg (by omega), if_pos hr.1]
    unfold moduleArray
    rw [Int.toNat_of_nonneg hr.1, hd]
  | none =>
    simp only
    by_cases h1 : m ≥ v.nmodules
    · rw [if_pos h1, if_pos h1]
    · rw [if_neg h1, if_neg h1]
      by_cases h2 : 0 ≤ m
      · rw [if_pos h2]
        unfold moduleArray
        rw [Int.toNat_of_nonneg h2, hd]
        rfl
      · rw [if_neg h2]

/-- What `view[…]` does for a good view. -/
theorem getItem_good {v : StackView V} {k : Nat} (hv : GoodView v k) (ixs : List Ix) :
    ∃ before x after, expandIx ixs v.ndim = before ++ x :: after ∧ before.length = k ∧
      v.getItem ixs = match x with
        | .int i =>
          (match (v.getSingle (if i < 0 then i + v.nmodules else i) (before ++ after)).1 with
            | .error e => .error e
            | .ok x => .ok (.arr x),
           (v.getSingle (if i < 0 then i + v.nmodules else i) (before ++ after)).2)
        | x =>
          if x = Ix.full then
            (match v.getAll (before ++ after) with | .error e => .error e | .ok w => .ok (.view w), v)
          else (.error .generic, v) := by
  have hlen := expandIx_length ixs v.ndim
  have hk : k < (expandIx ixs v.ndim).length := by
    have := hv.axis_le
    have hn : v.ndim = v.modShape.length + 1 := rfl
    omega
  refine ⟨(expandIx ixs v.ndim).take k, (expandIx ixs v.ndim)[k], (expandIx ixs v.ndim).drop (k + 1), ?_, ?_, ?_⟩
  · conv_lhs => rw [← List.take_append_drop k (expandIx ixs v.ndim)]
    rw [List.drop_eq_getElem_cons hk]
  · rw [List.length_take]; omega
  · have h1 : pyIndex (expandIx ixs v.ndim) v.stackAxis = .ok (expandIx ixs v.ndim)[k] := by
      unfold pyIndex
      rw [hv.axis]
      simp only
      rw [if_neg (by omega : ¬ (k : Int) < 0), if_neg (by omega : ¬ (k : Int) < 0)]
      exact nth_ok_of_lt hk
    unfold StackView.getItem StackView.expand
    simp only
    rw [h1]
    simp only
    rw [hv.axis, pySlice_take, show ((k : Int) + 1) = ((k + 1 : Nat) : Int) by omega, pySlice_drop]
    cases (expandIx ixs v.ndim)[k] <;> rfl

/-- Splitting the picks of a complete index at the module axis. -/
theorem index_real {v : StackView V} {k : Nat} (hv : GoodView v k) {r : Arr V} (hr : v.asArray = .ok r) {ixs : List Ix}
    (hc : ixs.count .ellipsis ≤ 1) {before after : List Ix} {x : Ix} (he : expandIx ixs v.ndim = before ++ x :: after)
    (hb : before.length = k) :
    (after.length ≠ v.modShape.length - k → r.index ixs = .error .index) ∧
    (after.length = v.modShape.length - k →
      r.index ixs = match pickDims before (v.modShape.take k) with
        | .error e => .error e
        | .ok p => match pickDim x v.nmodules with
          | .error e => .error e
          | .ok px => match pickDims after (v.modShape.drop k) with
            | .error e => .error e
            | .ok q => .ok (r.pick (p ++ px :: q))) := by
  rw [asArray_good hv] at hr
  obtain rfl := Except.ok.inj hr
  have hkle := hv.axis_le
  have hnd : (v.modShape.take k ++ v.nmodules :: v.modShape.drop k).length = v.ndim := by
    unfold StackView.ndim
    simp; omega
  constructor
  · intro h
    unfold Arr.index
    rw [if_pos]
    right
    simp only
    rw [hnd, he]
    unfold StackView.ndim
    simp; omega
  · intro h
    unfold Arr.index
    simp only
    rw [hnd, he, if_neg]
    · rw [pickDims_append _ _ _ _ (by rw [hb, List.length_take]; omega)]
      simp only [pickDims]
      cases pickDims before (v.modShape.take k) with
      | error e => rfl
      | ok p =>
        simp only
        cases pickDim x v.nmodules with
        | error e => rfl
        | ok px =>
          simp only
          cases pickDims after (v.modShape.drop k) <;> rfl
    · unfold StackView.ndim
      simp; omega

theorem index_module {v : StackView V} {k : Nat} (hv : GoodView v k) {a : Arr V} (ha : a.shape = v.modShape)
    {before after : List Ix} (hn : Ix.ellipsis ∉ before ++ after) (hb : before.length = k) :
    (v.modShape.length - k < after.length → a.index (before ++ after) = .error .index) ∧
    (after.length = v.modShape.length - k →
      a.index (before ++ after) = match pickDims before (v.modShape.take k) with
        | .error e => .error e
        | .ok p => match pickDims after (v.modShape.drop k) with
            | .error e => .error e
            | .ok q => .ok (a.pick (p ++ q))) := by
  have hkle := hv.axis_le
  constructor
  · intro h
    apply index_too_long hn
    rw [ha, List.length_append]; omega
  · intro h
    rw [index_complete hn (by rw [ha, List.length_append]; omega), ha]
    conv_lhs => rw [← List.take_append_drop k v.modShape]
    rw [pickDims_append _ _ _ _ (by rw [hb, List.length_take]; omega)]
    cases pickDims before (v.modShape.take k) with
    | error e => rfl
    | ok p =>
      simp only
      cases pickDims after (v.modShape.drop k) <;> rfl

/-- **C51** (one module): indexing the view with an integer on the module axis, from `-modules` to `modules - 1`, gives
exactly what indexing the real array gives: the same array or the same error. -/
theorem view_single {v : StackView V} {k : Nat} (hv : GoodView v k) {r : Arr V} (hr : v.asArray = .ok r) {ixs : List Ix}
    (hc : ixs.count .ellipsis ≤ 1) {before after : List Ix} {i : Int}
    (he : expandIx ixs v.ndim = before ++ .int i :: after) (hb : before.length = k)
    (h0 : -(v.nmodules : Int) ≤ i) (h1 : i < v.nmodules) :
    (v.getItem ixs).1 = (r.index ixs).map Item.arr := by
  obtain ⟨b', x', a', e', l', hg⟩ := getItem_good hv ixs
  have hnoell := expandIx_no_ellipsis hc v.ndim
  obtain ⟨rfl, hxa⟩ := List.append_inj (e'.symm.trans he) (by omega)
  obtain ⟨rfl, rfl⟩ := List.cons.inj hxa
  rw [hg]
  simp only
  have hpos : ∃ j : Nat, (if i < 0 then i + (v.nmodules : Int) else i) = j ∧ j < v.nmodules := by
    refine ⟨(if i < 0 then i + (v.nmodules : Int) else i).toNat, ?_, ?_⟩ <;> split <;> omega
  obtain ⟨j, hj, hjn⟩ := hpos
  have hpd : pickDim (.int i) v.nmodules = .ok (.one j) := by
    unfold pickDim
    simp only
    rw [hj, if_pos (by omega)]
    simp
  rw [hj, getSingle_fst hv, if_neg (by omega), if_pos (by omega)]
  simp only [Int.toNat_natCast]
  obtain ⟨hsh, hdt⟩ := moduleArray_shape hv j
  have hne : Ix.ellipsis ∉ b' ++ a' := by
    rw [e'] at hnoell
    simp at hnoell ⊢
    exact hnoell
  obtain ⟨m1, m2⟩ := index_module hv hsh hne hb
  obtain ⟨r1, r2⟩ := index_real hv hr hc he hb
  by_cases hlen : a'.length = v.modShape.length - k
  · rw [m2 hlen, r2 hlen, hpd]
    rw [asArray_good hv] at hr
    obtain rfl := Except.ok.inj hr
    cases hp : pickDims b' (v.modShape.take k) with
    | error e => rfl
    | ok p =>
      simp only
      cases hq : pickDims a' (v.modShape.drop k) with
      | error e => rfl
      | ok q =>
        simp only [Except.map]
        congr 2
        unfold Arr.pick
        simp only [hdt]
        congr 1
        · simp [pickShape_append, pickShape]
        · funext idx
          have hpl : p.length = k := by
            rw [pickDims_length hp, List.length_take]
            have := hv.axis_le; omega
          rw [pickIndex_append, pickIndex_append]
          have hl : (pickIndex p (idx.take (pickShape p).length)).length = k := by rw [pickIndex_length, hpl]
          simp only [pickIndex]
          rw [getD_middle hl, remove_middle hl]
  · have : v.modShape.length - k < a'.length := by
      have h2 := expandIx_length ixs v.ndim
      rw [e'] at h2
      unfold StackView.ndim at h2
      simp at h2
      have := hv.axis_le
      omega
    rw [m1 this, r1 hlen]
    rfl

/-- **C51** (out of range): an index after the last module is an IndexError of the view, and an error of the real array. -/
theorem view_single_beyond {v : StackView V} {k : Nat} (hv : GoodView v k) {r : Arr V} (hr : v.asArray = .ok r) {ixs : List Ix}
    (hc : ixs.count .ellipsis ≤ 1) {before after : List Ix} {i : Int}
    (he : expandIx ixs v.ndim = before ++ .int i :: after) (hb : before.length = k) (h1 : v.nmodules ≤ i) :
    (v.getItem ixs).1.map (fun _ => ()) = .error .index ∧ ∃ e, r.index ixs = .error e := by
  obtain ⟨b', x', a', e', l', hg⟩ := getItem_good hv ixs
  obtain ⟨rfl, hxa⟩ := List.append_inj (e'.symm.trans he) (by omega)
  obtain ⟨rfl, rfl⟩ := List.cons.inj hxa
  constructor
  · rw [hg]
    simp only
    rw [if_neg (by omega : ¬ i < 0), getSingle_fst hv, if_pos h1]
    rfl
  · obtain ⟨r1, r2⟩ := index_real hv hr hc he hb
    by_cases hlen : a'.length = v.modShape.length - k
    · rw [r2 hlen]
      have : pickDim (.int i) v.nmodules = .error .index := by
        unfold pickDim
        simp only
        rw [if_neg (by omega : ¬ i < 0), if_neg (by omega)]
      rw [this]
      cases pickDims b' (v.modShape.take k) <;> exact ⟨_, rfl⟩
    · exact ⟨_, r1 hlen⟩

/-! ### All modules -/

theorem getAll_ok {v : StackView V} {k : Nat} (hv : GoodView v k) {before after : List Ix} {ps : List Pick}
    (h : ∀ a : Arr V, a.shape = v.modShape → a.index (before ++ after) = .ok (a.pick ps)) :
    ∃ w, v.getAll (before ++ after) = .ok w ∧ w.nmodules = v.nmodules ∧ w.modShape = pickShape ps ∧ w.dtype = v.dtype ∧
      w.fill = v.fill ∧ w.stackAxis = (if (-3 : Int) < 0 then (-3 : Int) + ((pickShape ps).length + 1 : Nat) else -3) ∧
      w.data = v.data.map (fun x => (x.1, x.2.pick ps)) := by
  unfold StackView.getAll
  rw [mapE_ok_of_forall (g := fun x : Int × Arr V => (x.1, x.2.pick ps)) (by
    intro x hx
    have hx' := (Dict.get?_eq_some_iff hv.keys).2 (show (x.1, x.2) ∈ v.data from hx)
    simp only [h x.2 (hv.shapes _ _ hx').1])]
  cases hd : v.data with
  | nil => exact absurd hd hv.some_data
  | cons x l =>
    simp only [List.map_cons]
    exact ⟨_, rfl, rfl, rfl, rfl, rfl, rfl, rfl⟩

theorem getAll_error {v : StackView V} {k : Nat} (hv : GoodView v k) {before after : List Ix} {e : PyErr}
    (h : ∀ a : Arr V, a.shape = v.modShape → a.index (before ++ after) = .error e) : v.getAll (before ++ after) = .error e := by
  unfold StackView.getAll
  cases hd : v.data with
  | nil => exact absurd hd hv.some_data
  | cons x l =>
    have hx' := (Dict.get?_eq_some_iff hv.keys).2 (show (x.1, x.2) ∈ v.data by rw [hd]; simp)
    simp only [mapE, h x.2 (hv.shapes _ _ hx').1]

theorem get?_map_snd {A B : Type} (l : Dict Int A) (f : A → B) (m : Int) :
    Dict.get? (l.map (fun x => (x.1, f x.2))) m = (l.get? m).map f := by
  induction l with
  | nil => rfl
  | cons x l ih =>
    obtain ⟨k, a⟩ := x
    rw [List.map_cons, Dict.get?_cons, Dict.get?_cons, ih]
    split <;> rfl

/-- **C51** (all modules): indexing the view with a full slice on the module axis fails exactly as the real array does, or
gives a view in which every module (also those without data) is the module indexed with the other items. -/
theorem view_all {v : StackView V} {k : Nat} (hv : GoodView v k) {r : Arr V} (hr : v.asArray = .ok r) {ixs : List Ix}
    (hc : ixs.count .ellipsis ≤ 1) {before after : List Ix} (he : expandIx ixs v.ndim = before ++ Ix.full :: after)
    (hb : before.length = k) :
    (∀ e, r.index ixs = .error e → (v.getItem ixs).1 = .error e) ∧
    (∀ y, r.index ixs = .ok y → ∃ w, (v.getItem ixs).1 = .ok (.view w) ∧ w.nmodules = v.nmodules ∧ w.dtype = v.dtype ∧
      ∀ m, (moduleArray v m).index (before ++ after) = .ok (moduleArray w m)) := by
  obtain ⟨b', x', a', e', l', hg⟩ := getItem_good hv ixs
  have hnoell := expandIx_no_ellipsis hc v.ndim
  obtain ⟨rfl, hxa⟩ := List.append_inj (e'.symm.trans he) (by omega)
  obtain ⟨rfl, rfl⟩ := List.cons.inj hxa
  have hne : Ix.ellipsis ∉ b' ++ a' := by
    rw [e'] at hnoell
    simp at hnoell ⊢
    exact ⟨hnoell.1, hnoell.2.2⟩
  obtain ⟨r1, r2⟩ := index_real hv hr hc he hb
  rw [hg]
  have hfull : (match Ix.full with
        | .int i =>
          ((match (v.getSingle (if i < 0 then i + v.nmodules else i) (b' ++ a')).1 with
            | .error e => .error e
            | .ok x => .ok (.arr x) : R (Item V)),
           (v.getSingle (if i < 0 then i + v.nmodules else i) (b' ++ a')).2)
        | x =>
          if x = Ix.full then
            (match v.getAll (b' ++ a') with | .error e => .error e | .ok w => .ok (.view w), v)
          else (.error .generic, v)).1 = match v.getAll (b' ++ a') with | .error e => .error e | .ok w => .ok (.view w) := rfl
  rw [hfull]
  by_cases hlen : a'.length = v.modShape.length - k
  · rw [r2 hlen, pickDim_full]
    have hmod := fun (a : Arr V) (ha : a.shape = v.modShape) => (index_module hv ha hne hb).2 hlen
    cases hp : pickDims b' (v.modShape.take k) with
    | error e0 =>
      rw [hp] at hmod
      simp only at hmod
      rw [getAll_error hv hmod]
      exact ⟨fun e h => by rw [Except.error.inj h], fun y h => by simp at h⟩
    | ok p =>
      rw [hp] at hmod
      simp only at hmod ⊢
      cases hq : pickDims a' (v.modShape.drop k) with
      | error e0 =>
        rw [hq] at hmod
        simp only at hmod
        rw [getAll_error hv hmod]
        exact ⟨fun e h => by rw [Except.error.inj h], fun y h => by simp at h⟩
      | ok q =>
        rw [hq] at hmod
        simp only at hmod
        obtain ⟨w, hw, w1, w2, w3, w4, -, w6⟩ := getAll_ok hv hmod
        rw [hw]
        refine ⟨fun e h => by simp at h, fun y h => ⟨w, rfl, w1, w3, fun m => ?_⟩⟩
        rw [hmod _ (moduleArray_shape hv m).1]
        congr 1
        unfold moduleArray
        rw [w6, get?_map_snd v.data (fun a => a.pick (p ++ q))]
        cases hd : v.data.get? (m : Int) with
        | some a => rfl
        | none => simp only [Option.map_none, w2, w3, w4]; rfl
  · rw [r1 hlen]
    have hlt : v.modShape.length - k < a'.length := by
      have h2 := expandIx_length ixs v.ndim
      rw [e'] at h2
      unfold StackView.ndim at h2
      simp at h2
      have := hv.axis_le
      omega
    rw [getAll_error hv (fun a ha => (index_module hv ha hne hb).1 hlt)]
    exact ⟨fun e h => by rw [Except.error.inj h], fun y h => by simp at h⟩

/-- **C51** (all modules, partial): when exactly two dimensions stay after the module axis, the new view is a good view and
its real array equals the indexed real array. What is missing: the new view always stacks on the third axis from the end,
so with another number of dimensions after the modules its real array has the wrong axis (`view_all_axis_wrong`). -/
theorem view_all_partial {v : StackView V} {k : Nat} (hv : GoodView v k) {r y : Arr V} (hr : v.asArray = .ok r)
    {ixs : List Ix} (hc : ixs.count .ellipsis ≤ 1) {before after : List Ix}
    (he : expandIx ixs v.ndim = before ++ Ix.full :: after) (hb : before.length = k) (h2 : keptDims after = 2)
    (hy : r.index ixs = .ok y) :
    ∃ w z, (v.getItem ixs).1 = .ok (.view w) ∧ GoodView w (keptDims before) ∧ w.asArray = .ok z ∧ SameArr z y := by
  obtain ⟨b', x', a', e', l', hg⟩ := getItem_good hv ixs
  have hnoell := expandIx_no_ellipsis hc v.ndim
  obtain ⟨rfl, hxa⟩ := List.append_inj (e'.symm.trans he) (by omega)
  obtain ⟨rfl, rfl⟩ := List.cons.inj hxa
  have hne : Ix.ellipsis ∉ b' ++ a' := by
    rw [e'] at hnoell
    simp at hnoell ⊢
    exact ⟨hnoell.1, hnoell.2.2⟩
  obtain ⟨r1, r2⟩ := index_real hv hr hc he hb
  by_cases hlen : a'.length = v.modShape.length - k
  · rw [r2 hlen, pickDim_full] at hy
    have hmod := fun (a : Arr V) (ha : a.shape = v.modShape) => (index_module hv ha hne hb).2 hlen
    cases hp : pickDims b' (v.modShape.take k) with
    | error e0 => rw [hp] at hy; simp at hy
    | ok p =>
      cases hq : pickDims a' (v.modShape.drop k) with
      | error e0 => rw [hp, hq] at hy; simp at hy
      | ok q =>
        rw [hp, hq] at hy hmod
        simp only at hy hmod
        obtain rfl := Except.ok.inj hy
        obtain ⟨w, hw, w1, w2, w3, w4, w5, w6⟩ := getAll_ok hv hmod
        have kp := pickDims_kept hp
        have kq := pickDims_kept hq
        have hgw : GoodView w (keptDims b') := by
          refine ⟨?_, ?_, ?_, ?_, ?_, ?_⟩
          · rw [w6]
            have : Dict.keys (v.data.map (fun x => (x.1, x.2.pick (p ++ q)))) = v.data.keys := by
              simp [Dict.keys]
            rw [this]; exact hv.keys
          · intro m a ha
            rw [w6, get?_map_snd v.data (fun a => a.pick (p ++ q))] at ha
            obtain ⟨a0, ha0, -⟩ := Option.map_eq_some_iff.1 ha
            rw [w1]; exact hv.range _ _ ha0
          · intro m a ha
            rw [w6, get?_map_snd v.data (fun a => a.pick (p ++ q))] at ha
            obtain ⟨a0, ha0, rfl⟩ := Option.map_eq_some_iff.1 ha
            rw [w2, w3]
            exact ⟨rfl, (hv.shapes _ _ ha0).2⟩
          · rw [w5, if_pos (by omega), pickShape_append, List.length_append, kp, kq, h2]; omega
          · rw [w2, pickShape_append, List.length_append, kp]; omega
          · rw [w6]
            have := hv.some_data
            simpa using this
        refine ⟨w, _, by rw [hg]; show (match v.getAll (b' ++ a') with | .error e => .error e | .ok w => .ok (.view w) : R (Item V)) = _; rw [hw],
          hgw, asArray_good hgw, ?_, ?_, ?_⟩
        · rw [asArray_good hv] at hr
          obtain rfl := Except.ok.inj hr
          exact w3
        · simp only [Arr.pick, w1, w2, pickShape_append, pickShape, List.length_range]
          rw [← kp, List.take_left' rfl, List.drop_left' rfl]
        · intro idx hidx
          rw [asArray_good hv] at hr
          obtain rfl := Except.ok.inj hr
          simp only [Arr.pick, w1, w2, pickShape_append, ← kp, List.take_left' rfl, List.drop_left' rfl] at hidx ⊢
          -- split the index at the module axis
          obtain ⟨i1, i2, hi1, hi2, rfl⟩ : ∃ i1 i2, List.Forall₂ (· < ·) i1 (pickShape p) ∧
              List.Forall₂ (· < ·) i2 (v.nmodules :: pickShape q) ∧ idx = i1 ++ i2 :=
            ⟨idx.take (pickShape p).length, idx.drop (pickShape p).length, List.forall₂_take_append _ _ _ hidx,
              List.forall₂_drop_append _ _ _ hidx, (List.take_append_drop _ _).symm⟩
          cases hi2 with
          | @cons j _ i3 _ hj hi3 =>
            have hl : i1.length = (pickShape p).length := hi1.length_eq
            rw [getD_middle hl, remove_middle hl]
            have hpl : p.length = k := by
              rw [pickDims_length hp, List.length_take]
              have := hv.axis_le; omega
            rw [pickIndex_append, List.take_left' hl, List.drop_left' hl]
            have hl2 : (pickIndex p i1).length = k := by rw [pickIndex_length, hpl]
            simp only [pickIndex]
            rw [getD_middle hl2, remove_middle hl2]
            have : (List.range v.nmodules).getD j 0 = j := by
              rw [List.getD_eq_getElem?_getD, List.getElem?_range hj]; rfl
            rw [this]
            unfold moduleArray
            rw [w6, get?_map_snd v.data (fun a => a.pick (p ++ q))]
            cases hd : v.data.get? (j : Int) with
            | some a =>
              simp only [Option.map_some, Arr.pick]
              rw [pickIndex_append, List.take_left' hl, List.drop_left' hl]
            | none => simp only [Option.map_none, w4]
  · rw [r1 hlen] at hy
    simp at hy

/-- The axis is not handed on: with a module array of 2 × 2, `view[:, 0]` of a view with shape 3 × 2 × 2 has a real array of
shape 2 × 3, while the real array indexed has 3 × 2. -/
theorem view_all_axis_wrong : ∃ (v : StackView Nat) (w : StackView Nat) (r y z : Arr Nat), GoodView v 0 ∧ v.asArray = .ok r ∧
    r.index [Ix.full, .int 0] = .ok y ∧ (v.getItem [Ix.full, .int 0]).1 = .ok (.view w) ∧ w.asArray = .ok z ∧
    y.shape = [3, 2] ∧ z.shape = [2, 3] := by
  refine ⟨⟨[(0, ⟨0, [2, 2], fun _ => 1⟩)], 3, [2, 2], 0, 0, 0⟩, _, _, _, _, ?_, rfl, rfl, rfl, rfl, rfl, rfl⟩
  refine ⟨by decide, fun m a h => ?_, fun m a h => ?_, rfl, by simp, by simp⟩
  · rw [Dict.get?_cons] at h
    split at h
    · next h0 => exact ⟨by omega, by simp; omega⟩
    · simp at h
  · rw [Dict.get?_cons] at h
    split at h
    · obtain rfl := Option.some.inj h; exact ⟨rfl, rfl⟩
    · simp at h

/-- An index before the first module gives an array of fill values, while the real array raises IndexError. -/
theorem view_negative_wrong : ∃ (v : StackView Nat) (r x : Arr Nat), GoodView v 0 ∧ v.asArray = .ok r ∧
    (r.index [.int (-4)]).map (fun _ => ()) = .error .index ∧ (v.getItem [.int (-4)]).1 = .ok (.arr x) ∧ x.shape = [2] := by
  refine ⟨⟨[(0, ⟨0, [2], fun _ => 1⟩)], 3, [2], 0, 0, 0⟩, _, _, ?_, rfl, rfl, rfl, rfl⟩
  refine ⟨by decide, fun m a h => ?_, fun m a h => ?_, rfl, by simp, by simp⟩
  · rw [Dict.get?_cons] at h
    split at h
    · next h0 => exact ⟨by omega, by simp; omega⟩
    · simp at h
  · rw [Dict.get?_cons] at h
    split at h
    · obtain rfl := Option.some.inj h; exact ⟨rfl, rfl⟩
    · simp at h

/-- Slices of the module axis other than the full one are refused. -/
theorem view_slice_refused {v : StackView V} {k : Nat} (hv : GoodView v k) {ixs before after : List Ix} {a b c : Option Int}
    (he : expandIx ixs v.ndim = before ++ .slice a b c :: after) (hb : before.length = k) (hn : Ix.slice a b c ≠ Ix.full) :
    (v.getItem ixs).1 = .error .generic := by
  obtain ⟨b', x', a', e', l', hg⟩ := getItem_good hv ixs
  obtain ⟨rfl, hxa⟩ := List.append_inj (e'.symm.trans he) (by omega)
  obtain ⟨rfl, rfl⟩ := List.cons.inj hxa
  rw [hg]
  simp only
  rw [if_neg hn]

/-- The views which stack_detector_data returns are good, for every axis in range, and their modules are the modules of the
train. -/
theorem stack_view_good {conv : Nat → V} {train : Dict Str (Dict Str (Arr V))} {data : Str} {axis : Int} {modules dt k : Nat}
    {sh : List Nat} (hs : Stackable train data modules dt sh)
    (hk : axis = k ∨ axis = (k : Int) - (sh.length + 1 : Nat)) (hle : k ≤ sh.length) :
    ∃ v, stackDetectorView conv train data axis modules = .ok v ∧ GoodView v k ∧ v.nmodules = modules ∧ v.modShape = sh ∧
      v.dtype = dt ∧ v.shape = .ok (sh.take k ++ modules :: sh.drop k) := by
  obtain ⟨v, hv⟩ := stackDetectorView_exists (conv := conv) (axis := axis) hs
  obtain ⟨dt', sh', hvo⟩ := stackDetectorView_ok hv
  obtain ⟨rfl, rfl⟩ := stackable_unique hs hvo.stackable
  have hg := goodView_of hvo hk hle
  refine ⟨v, hv, hg, hvo.nmodules, hvo.modShape, hvo.dtype, ?_⟩
  unfold StackView.shape
  rw [hg.axis, pySlice_take, pySlice_drop, hvo.modShape, hvo.nmodules]

/-! ### C52: reading changes nothing -/

/-- A good view without the axis. -/
structure GoodModules (v : StackView V) : Prop where
  keys : v.data.keys.Nodup
  range : ∀ m a, v.data.get? m = some a → 0 ≤ m ∧ m < v.nmodules
  shapes : ∀ m a, v.data.get? m = some a → a.shape = v.modShape

theorem asArray_modules {v : StackView V} (hv : GoodModules v) :
    v.asArray = match normAxis v.stackAxis v.ndim with
      | .error e => .error e
      | .ok k => .ok ⟨v.dtype, v.modShape.take k ++ v.nmodules :: v.modShape.drop k,
          fun idx => (moduleArray v (idx.getD k 0)).get (idx.take k ++ idx.drop (k + 1))⟩ := by
  obtain ⟨g, h1, -, h3⟩ := foldE_assign_spec (v := v) v.data (fun _ => v.fill) hv.keys (by
    intro x hx
    have := (Dict.get?_eq_some_iff hv.keys).2 (show (x.1, x.2) ∈ v.data from hx)
    exact ⟨hv.shapes _ _ this, (hv.range _ _ this).1, (hv.range _ _ this).2⟩)
  unfold StackView.asArray
  rw [h1]
  simp only
  cases normAxis v.stackAxis v.ndim with
  | error e => rfl
  | ok k =>
    simp only [Arr.moveFirst]
    congr 2
    funext idx
    rw [h3]
    unfold moduleArray
    cases v.data.get? ((idx.getD k 0 : Nat) : Int) <;> rfl

theorem moduleArray_beyond {v : StackView V} (hr : ∀ m a, v.data.get? m = some a → 0 ≤ m ∧ m < v.nmodules) {m : Nat}
    (h : ¬ m < v.nmodules) : moduleArray v m = ⟨v.dtype, v.modShape, fun _ => v.fill⟩ := by
  unfold moduleArray
  cases hd : v.data.get? (m : Int) with
  | none => rfl
  | some a => have := hr _ _ hd; omega

/-- Views with the same modules have the same real array. -/
theorem asArray_same {v w : StackView V} (hv : GoodModules v) (hw : GoodModules w) (h : SameView v w) : v.asArray = w.asArray := by
  obtain ⟨h1, h2, h3, h4, h5, h6⟩ := h
  rw [asArray_modules hv, asArray_modules hw]
  have hm : ∀ m, moduleArray v m = moduleArray w m := by
    intro m
    by_cases hm : m < v.nmodules
    · exact h6 m hm
    · rw [moduleArray_beyond hv.range hm, moduleArray_beyond hw.range (by omega), h2, h3, h4]
  have hf : (moduleArray v) = (moduleArray w) := funext hm
  rw [hf, show v.ndim = w.ndim by unfold StackView.ndim; rw [h2], h1, h2, h3, h5]

/-- Views with the same modules answer the same. -/
theorem getItem_same {v w : StackView V} {k : Nat} (hv : GoodView v k) (hw : GoodView w k) (h : SameView v w) (ixs : List Ix) :
    SameItem (v.getItem ixs).1 (w.getItem ixs).1 := by
  obtain ⟨h1, h2, h3, h4, h5, h6⟩ := h
  obtain ⟨b, x, a, e, l, hg⟩ := getItem_good hv ixs
  obtain ⟨b', x', a', e', l', hg'⟩ := getItem_good hw ixs
  have hnd : v.ndim = w.ndim := by unfold StackView.ndim; rw [h2]
  rw [hnd, e'] at e
  obtain ⟨rfl, hxa⟩ := List.append_inj e (by omega)
  obtain ⟨rfl, rfl⟩ := List.cons.inj hxa
  rw [hg, hg']
  have hall : ∀ sl1 sl2 : List Ix, SameItem (match v.getAll (sl1 ++ sl2) with | .error e => .error e | .ok w => .ok (.view w))
      (match w.getAll (sl1 ++ sl2) with | .error e => .error e | .ok w => .ok (.view w)) := by
    intro sl1 sl2
    -- indexing depends on the shape only
    have hidx : (∃ e, ∀ a : Arr V, a.shape = v.modShape → a.index (sl1 ++ sl2) = .error e) ∨
        ∃ ps, ∀ a : Arr V, a.shape = v.modShape → a.index (sl1 ++ sl2) = .ok (a.pick ps) := by
      by_cases hc : (sl1 ++ sl2).count .ellipsis > 1 ∨
          (expandIx (sl1 ++ sl2) v.modShape.length).length ≠ v.modShape.length
      · left
        refine ⟨.index, fun a ha => ?_⟩
        unfold Arr.index
        rw [ha, if_pos hc]
      · cases hp : pickDims (expandIx (sl1 ++ sl2) v.modShape.length) v.modShape with
        | error e =>
          left
          refine ⟨e, fun a ha => ?_⟩
          unfold Arr.index
          rw [ha, if_neg hc, hp]
        | ok ps =>
          right
          refine ⟨ps, fun a ha => ?_⟩
          unfold Arr.index
          rw [ha, if_neg hc, hp]
    rcases hidx with ⟨e, he⟩ | ⟨ps, hps⟩
    · rw [getAll_error hv he, getAll_error hw (fun a ha => he a (ha.trans h2.symm))]
      rfl
    · obtain ⟨v', hv', v1, v2, v3, v4, v5, v6⟩ := getAll_ok hv hps
      obtain ⟨w', hw', w1, w2, w3, w4, w5, w6⟩ := getAll_ok hw (fun a ha => hps a (ha.trans h2.symm))
      rw [hv', hw']
      have hgv : GoodModules v' := by
        refine ⟨?_, fun m a ha => ?_, fun m a ha => ?_⟩
        · rw [v6]
          have : Dict.keys (v.data.map (fun x => (x.1, x.2.pick ps))) = v.data.keys := by simp [Dict.keys]
          rw [this]; exact hv.keys
        · rw [v6, get?_map_snd v.data (fun a => a.pick ps)] at ha
          obtain ⟨a0, ha0, -⟩ := Option.map_eq_some_iff.1 ha
          rw [v1]; exact hv.range _ _ ha0
        · rw [v6, get?_map_snd v.data (fun a => a.pick ps)] at ha
          obtain ⟨a0, ha0, rfl⟩ := Option.map_eq_some_iff.1 ha
          rw [v2]; rfl
      have hgw : GoodModules w' := by
        refine ⟨?_, fun m a ha => ?_, fun m a ha => ?_⟩
        · rw [w6]
          have : Dict.keys (w.data.map (fun x => (x.1, x.2.pick ps))) = w.data.keys := by simp [Dict.keys]
          rw [this]; exact hw.keys
        · rw [w6, get?_map_snd w.data (fun a => a.pick ps)] at ha
          obtain ⟨a0, ha0, -⟩ := Option.map_eq_some_iff.1 ha
          rw [w1]; exact hw.range _ _ ha0
        · rw [w6, get?_map_snd w.data (fun a => a.pick ps)] at ha
          obtain ⟨a0, ha0, rfl⟩ := Option.map_eq_some_iff.1 ha
          rw [w2]; rfl
      have hs : SameView v' w' := by
        refine ⟨by rw [v1, w1, h1], by rw [v2, w2], by rw [v3, w3, h3], by rw [v4, w4, h4], by rw [v5, w5], fun m hm => ?_⟩
        have key : ∀ (u u' : StackView V), u'.data = u.data.map (fun x => (x.1, x.2.pick ps)) → u'.modShape = pickShape ps →
            u'.dtype = u.dtype → u'.fill = u.fill → moduleArray u' m = (moduleArray u m).pick ps := by
          intro u u' e1 e2 e3 e4
          unfold moduleArray
          rw [e1, get?_map_snd u.data (fun a => a.pick ps)]
          cases u.data.get? (m : Int) with
          | some a => rfl
          | none => simp only [Option.map_none, e2, e3, e4]; rfl
        rw [key v v' v6 v2 v3 v4, key w w' w6 w2 w3 w4, h6 m (by omega)]
      exact ⟨hs, asArray_same hgv hgw hs⟩
  cases x' with
  | int i =>
    simp only
    rw [h1, getSingle_fst hv, getSingle_fst hw, h1]
    by_cases hlt : (if i < 0 then i + (w.nmodules : Int) else i) ≥ w.nmodules
    · rw [if_pos hlt, if_pos hlt]; rfl
    · rw [if_neg hlt, if_neg hlt]
      by_cases h0 : 0 ≤ (if i < 0 then i + (w.nmodules : Int) else i)
      · rw [if_pos h0, if_pos h0, h6 _ (by omega)]
        cases (moduleArray w _).index (b' ++ a') <;> rfl
      · rw [if_neg h0, if_neg h0, h2, h3, h4]
        cases (Arr.full w.dtype w.modShape w.fill).index (b' ++ a') <;> rfl
  | slice p q r =>
    by_cases hf : Ix.slice p q r = Ix.full
    · simp only
      rw [if_pos hf, if_pos hf]
      exact hall b' a'
    · simp only
      rw [if_neg hf, if_neg hf]
      rfl
  | ellipsis =>
    simp only
    rw [if_neg (by simp [Ix.full]), if_neg (by simp [Ix.full])]
    rfl

/-- One read leaves the modules as they are. -/
theorem getItem_snd {v : StackView V} {k : Nat} (hv : GoodView v k) {ixs : List Ix} (hr : InRangeIx v k ixs) :
    GoodView (v.getItem ixs).2 k ∧ SameView v (v.getItem ixs).2 := by
  have hrefl : SameView v v := ⟨rfl, rfl, rfl, rfl, rfl, fun _ _ => rfl⟩
  obtain ⟨b, x, a, e, l, hg⟩ := getItem_good hv ixs
  rw [hg]
  cases x with
  | slice p q r =>
    by_cases hf : Ix.slice p q r = Ix.full
    · simp only; rw [if_pos hf]; exact ⟨hv, hrefl⟩
    · simp only; rw [if_neg hf]; exact ⟨hv, hrefl⟩
  | ellipsis =>
    simp only; rw [if_neg (by simp [Ix.full])]; exact ⟨hv, hrefl⟩
  | int i =>
    have hi := hr i (by rw [e]; subst l; simp)
    simp only
    generalize hm : (if i < 0 then i + (v.nmodules : Int) else i) = m
    have hm0 : 0 ≤ m := by rw [← hm]; split <;> omega
    unfold StackView.getSingle
    cases hd : v.data.get? m with
    | some a => exact ⟨hv, hrefl⟩
    | none =>
      simp only
      by_cases h1 : m ≥ v.nmodules
      · rw [if_pos h1]; exact ⟨hv, hrefl⟩
      · rw [if_neg h1]
        refine ⟨⟨Dict.nodup_set hv.keys _ _, fun m' a' h' => ?_, fun m' a' h' => ?_, hv.axis, hv.axis_le, ?_⟩, rfl, rfl, rfl,
          rfl, rfl, fun m' hm' => ?_⟩
        · simp only [Dict.get?_set] at h'
          split at h'
          · next he => subst he; exact ⟨hm0, by show m < (v.nmodules : Int); omega⟩
          · exact hv.range _ _ h'
        · simp only [Dict.get?_set] at h'
          split at h'
          · obtain rfl := Option.some.inj h'; exact ⟨rfl, rfl⟩
          · exact hv.shapes _ _ h'
        · intro h0
          have : (v.data.set m (Arr.full v.dtype v.modShape v.fill)).get? m = some (Arr.full v.dtype v.modShape v.fill) := by
            rw [Dict.get?_set, if_pos rfl]
          simp only at h0
          rw [h0] at this
          simp at this
        · unfold moduleArray
          simp only [Dict.get?_set]
          by_cases he : m = (m' : Int)
          · rw [if_pos he, ← he, hd]; rfl
          · rw [if_neg he]

theorem sameView_trans {u v w : StackView V} (h : SameView u v) (h' : SameView v w) : SameView u w := by
  obtain ⟨a1, a2, a3, a4, a5, a6⟩ := h
  obtain ⟨b1, b2, b3, b4, b5, b6⟩ := h'
  exact ⟨a1.trans b1, a2.trans b2, a3.trans b3, a4.trans b4, a5.trans b5, fun m hm => (a6 m hm).trans (b6 m (by omega))⟩

/-- **C52** (partial): after any history of reads, none of them before the first module, every read gives what it gave at
the beginning, and so does asarray(). Missing: a history with an index below `-modules` (`view_reads_wrong`). -/
theorem view_reads_partial {v : StackView V} {k : Nat} (hv : GoodView v k) (reads : List (List Ix))
    (hr : ∀ ixs ∈ reads, InRangeIx v k ixs) :
    (v.afterReads reads).asArray = v.asArray ∧
      ∀ ixs, SameItem (v.getItem ixs).1 ((v.afterReads reads).getItem ixs).1 := by
  have key : GoodView (v.afterReads reads) k ∧ SameView v (v.afterReads reads) := by
    induction reads using List.reverseRecOn with
    | nil => exact ⟨hv, rfl, rfl, rfl, rfl, rfl, fun _ _ => rfl⟩
    | append_singleton reads ixs ih =>
      obtain ⟨g1, g2⟩ := ih (fun x hx => hr x (by simp [hx]))
      unfold StackView.afterReads at g1 g2 ⊢
      rw [List.foldl_append]
      simp only [List.foldl_cons, List.foldl_nil]
      obtain ⟨j1, j2⟩ := getItem_snd g1 (ixs := ixs) (by
        intro i hi
        have := hr ixs (by simp) i (by
          unfold StackView.ndim at hi ⊢
          rw [← g2.2.1] at hi
          exact hi)
        rw [← g2.1]; exact this)
      exact ⟨j1, sameView_trans g2 j2⟩
  refine ⟨?_, fun ixs => getItem_same hv key.1 key.2 ixs⟩
  have hd : ∀ {u : StackView V}, GoodView u k → GoodModules u := fun h => ⟨h.keys, h.range, fun m a ha => (h.shapes m a ha).1⟩
  exact (asArray_same (hd hv) (hd key.1) key.2).symm

/-- Reading `view[-4]` of a view with 3 modules puts an array of fill values at the key -1, which asarray() then writes
over the data of module 2. -/
theorem view_reads_wrong : ∃ (v : StackView Nat) (r r' : Arr Nat), GoodView v 0 ∧ v.asArray = .ok r ∧
    (v.afterReads [[.int (-4)]]).asArray = .ok r' ∧ r.get [2, 0] = 7 ∧ r'.get [2, 0] = 0 := by
  refine ⟨⟨[(2, ⟨0, [2], fun _ => 7⟩)], 3, [2], 0, 0, 0⟩, _, _, ?_, rfl, rfl, rfl, rfl⟩
  refine ⟨by decide, fun m a h => ?_, fun m a h => ?_, rfl, by simp, by simp⟩
  · rw [Dict.get?_cons] at h
    split at h
    · next h0 => exact ⟨by omega, by simp; omega⟩
    · simp at h
  · rw [Dict.get?_cons] at h
    split at h
    · obtain rfl := Option.some.inj h; exact ⟨rfl, rfl⟩
    · simp at h

/-- A history which meets the hypotheses: module 1 without data is read, then the last one. -/
example : let v : StackView Nat := ⟨[(2, ⟨0, [2], fun _ => 7⟩)], 3, [2], 0, 0, 0⟩
    (∀ ixs ∈ [[Ix.int 1], [.int (-1), .int 0], [.ellipsis, .int 1]], InRangeIx v 0 ixs) ∧
    (v.afterReads [[Ix.int 1], [.int (-1), .int 0], [.ellipsis, .int 1]]).data.keys = [2, 1] := by
  refine ⟨fun ixs hixs => ?_, by decide⟩
  simp only [List.mem_cons, List.not_mem_nil, or_false] at hixs
  intro i hi
  rcases hixs with rfl | rfl | rfl
  · have : expandIx [Ix.int 1] 2 = [.int 1, Ix.full] := by decide
    change (expandIx [Ix.int 1] 2)[0]? = _ at hi
    rw [this] at hi
    simp at hi
    subst hi; decide
  · change (expandIx [Ix.int (-1), .int 0] 2)[0]? = _ at hi
    rw [show expandIx [Ix.int (-1), .int 0] 2 = [.int (-1), .int 0] by decide] at hi
    simp at hi
    subst hi; decide
  · change (expandIx [Ix.ellipsis, .int 1] 2)[0]? = _ at hi
    rw [show expandIx [Ix.ellipsis, .int 1] 2 = [Ix.full, .int 1] by decide] at hi
    simp [Ix.full] at hi

end KD
