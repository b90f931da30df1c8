/- Helper lemmas for stacking: when a train is accepted, what the view holds, and its real array. -/
import Verif.Lemmas.StackView

set_option linter.unusedSimpArgs false

namespace KD
open Spec

variable {V : Type}

theorem present_of_dataOf {train : Dict Str (Dict Str (Arr V))} {data : Str} {n : Nat} {a : Arr V}
    (h : DataOf train data n a) : Present train data a := by
  obtain ⟨b, x, af, h1, -, h3, -⟩ := h
  exact ⟨x, by rw [h1]; simp, h3⟩

theorem fits_iff {train : Dict Str (Dict Str (Arr V))} {data : Str} {c : Collected V} (hc : CollectedOf train data c)
    (shape : List Nat) : Fits c.shapes shape ↔ ShapesFit train data shape ∧ ∃ a, Present train data a ∧ a.shape = shape := by
  unfold Fits ShapesFit
  rw [hc.shapes]
  constructor
  · rintro ⟨h1, h2⟩
    exact ⟨fun a ha => h2 a.shape ((hc.shapes _).2 ⟨a, ha, rfl⟩), h1⟩
  · rintro ⟨h1, h2⟩
    refine ⟨h2, fun s hs => ?_⟩
    obtain ⟨a, ha, rfl⟩ := (hc.shapes _).1 hs
    exact h1 a ha

theorem mods_mem {train : Dict Str (Dict Str (Arr V))} {data : Str} {c : Collected V} (hc : CollectedOf train data c)
    {x : Int × Arr V} : x ∈ c.mods ↔ ∃ m : Nat, x.1 = m ∧ DataOf train data m x.2 := by
  rw [← hc.mods, Dict.get?_eq_some_iff hc.keys]

theorem mods_shape {train : Dict Str (Dict Str (Arr V))} {data : Str} {c : Collected V} (hc : CollectedOf train data c) :
    ∀ x ∈ c.mods, x.2.shape ∈ c.shapes := by
  intro x hx
  obtain ⟨m, -, h⟩ := (mods_mem hc).1 hx
  exact (hc.shapes _).2 ⟨x.2, present_of_dataOf h, rfl⟩

theorem stackable_unique {train : Dict Str (Dict Str (Arr V))} {data : Str} {modules modules' dt dt' : Nat}
    {sh sh' : List Nat} (h : Stackable train data modules dt sh) (h' : Stackable train data modules' dt' sh') :
    dt = dt' ∧ sh = sh' := by
  obtain ⟨c, hc⟩ := collect_exists (data := data) train ⟨[], [], []⟩ h.detectors
  obtain ⟨-, hc⟩ := collect_ok hc
  obtain ⟨n, a, ha, hsa⟩ := h.some_data
  obtain ⟨n', a', ha', hsa'⟩ := h'.some_data
  refine ⟨(h.dtypes a (present_of_dataOf ha)).symm.trans (h'.dtypes a (present_of_dataOf ha)), ?_⟩
  exact fits_unique ((fits_iff hc sh).2 ⟨h.shapes, a, present_of_dataOf ha, hsa⟩)
    ((fits_iff hc sh').2 ⟨h'.shapes, a', present_of_dataOf ha', hsa'⟩)

/-- At most one element. -/
theorem length_le_one {l : List Nat} (h : ¬ l.length > 1) {x y : Nat} (hx : x ∈ l) (hy : y ∈ l) : x = y := by
  cases l with
  | nil => simp at hx
  | cons a l =>
    cases l with
    | nil => rw [List.mem_singleton] at hx hy; exact hx.trans hy.symm
    | cons b l => simp at h

theorem length_gt_one {l : List Nat} (hn : l.Nodup) (h : l.length > 1) : ∃ x ∈ l, ∃ y ∈ l, x ≠ y := by
  cases l with
  | nil => simp at h
  | cons a l =>
    cases l with
    | nil => simp at h
    | cons b l => exact ⟨a, by simp, b, by simp, by simp at hn; exact fun e => hn.1.1 e⟩

/-- A dictionary filtered by its values. -/
theorem filter_keys_nodup {d : Dict Int (Arr V)} (h : d.keys.Nodup) (p : Int × Arr V → Bool) :
    Dict.keys (d.filter p) |>.Nodup :=
  h.sublist (List.Sublist.map Prod.fst List.filter_sublist)

/-- What is known about an accepted view. -/
structure ViewOf (conv : Nat → V) (train : Dict Str (Dict Str (Arr V))) (data : Str) (axis : Int) (modules : Nat)
    (dt : Nat) (sh : List Nat) (v : StackView V) : Prop where
  stackable : Stackable train data modules dt sh
  dtype : v.dtype = dt
  modShape : v.modShape = sh
  fill : v.fill = conv dt
  nmodules : v.nmodules = modules
  axis : v.stackAxis = if axis < 0 then axis + (sh.length + 1 : Nat) else axis
  keys : v.data.keys.Nodup
  data : ∀ (n : Int) a, v.data.get? n = some a ↔ ∃ m : Nat, n = m ∧ DataOf train data m a ∧ a.shape = sh

theorem stackDetectorView_ok {conv : Nat → V} {train : Dict Str (Dict Str (Arr V))} {data : Str} {axis : Int} {modules : Nat}
    {v : StackView V} (h : stackDetectorView conv train data axis modules = .ok v) :
    ∃ dt sh, ViewOf conv train data axis modules dt sh v := by
  unfold stackDetectorView at h
  split at h
  · simp at h
  · next hne =>
    split at h
    · simp at h
    · next c hcol =>
      obtain ⟨hdet, hc⟩ := collect_ok hcol
      split at h
      · simp at h
      · next hdt =>
        split at h
        · simp at h
        · next shapes mods hdrop =>
          split at h
          · simp at h
          · next m hmax =>
            split at h
            · simp at h
            · next hm =>
              obtain ⟨hmax1, hmax2⟩ := maxModule_ok hmax
              split at h
              · next dt dts sh shs e1 =>
                obtain rfl := Except.ok.inj h
                have hsne : c.shapes ≠ [] := by
                  obtain ⟨a, ha, -⟩ := (hc.dtypes dt).1 (by rw [e1]; simp)
                  intro h0
                  have : a.shape ∈ c.shapes := (hc.shapes _).2 ⟨a, ha, rfl⟩
                  rw [h0] at this; simp at this
                obtain ⟨shape, k1, k2, k3⟩ := dropEmpty_ok hdrop hc.snodup hsne (mods_shape hc)
                obtain ⟨rfl, rfl⟩ := List.cons.inj k1
                have hmem : ∀ x : Int × Arr V, x ∈ mods ↔ ∃ m : Nat, x.1 = m ∧ DataOf train data m x.2 ∧ x.2.shape = sh := by
                  intro x
                  rw [k3, List.mem_filter, mods_mem hc]
                  simp only [decide_eq_true_eq]
                  constructor
                  · rintro ⟨⟨m, a, b⟩, c⟩; exact ⟨m, a, b, c⟩
                  · rintro ⟨m, a, b, c⟩; exact ⟨⟨m, a, b⟩, c⟩
                have hkeys : Dict.keys mods |>.Nodup := by rw [k3]; exact filter_keys_nodup hc.keys _
                refine ⟨dt, sh, ⟨hdet, ?_, ((fits_iff hc sh).1 k2).1, ?_, ?_⟩, rfl, rfl, rfl, rfl, rfl, hkeys, ?_⟩
                · intro a ha
                  exact length_le_one hdt ((hc.dtypes _).2 ⟨a, ha, rfl⟩) (by rw [e1]; simp)
                · obtain ⟨x, hx, -⟩ := hmax2
                  obtain ⟨m', -, h1, h2⟩ := (hmem x).1 hx
                  exact ⟨m', x.2, h1, h2⟩
                · intro n a h1 h2
                  have := hmax1 ((n : Int), a) ((hmem _).2 ⟨n, rfl, h1, h2⟩)
                  have : (n : Int) ≤ m := this
                  omega
                · intro n a
                  rw [show (StackView.make mods modules sh dt (conv dt) axis).data = mods from rfl,
                    Dict.get?_eq_some_iff hkeys, hmem]
              · simp at h

theorem stackDetectorView_exists {conv : Nat → V} {train : Dict Str (Dict Str (Arr V))} {data : Str} {axis : Int}
    {modules dt : Nat} {sh : List Nat} (hs : Stackable train data modules dt sh) :
    ∃ v, stackDetectorView conv train data axis modules = .ok v := by
  obtain ⟨n, a, ha, hsa⟩ := hs.some_data
  have hp := present_of_dataOf ha
  have hne : train ≠ [] := by rintro rfl; obtain ⟨x, hx, -⟩ := hp; simp at hx
  obtain ⟨c, hcol⟩ := collect_exists (data := data) train ⟨[], [], []⟩ hs.detectors
  obtain ⟨-, hc⟩ := collect_ok hcol
  have hdt : ¬ c.dtypes.length > 1 := by
    intro h
    obtain ⟨x, hx, y, hy, hxy⟩ := length_gt_one hc.dnodup h
    obtain ⟨b, hb, rfl⟩ := (hc.dtypes x).1 hx
    obtain ⟨b', hb', rfl⟩ := (hc.dtypes y).1 hy
    exact hxy ((hs.dtypes b hb).trans (hs.dtypes b' hb').symm)
  have hf : Fits c.shapes sh := (fits_iff hc sh).2 ⟨hs.shapes, a, hp, hsa⟩
  obtain ⟨⟨shapes, mods⟩, hdrop⟩ := dropEmpty_exists c.mods hc.snodup hf
  have hsne : c.shapes ≠ [] := by intro h0; have := hf.1; rw [h0] at this; simp at this
  obtain ⟨shape, k1, k2, k3⟩ := dropEmpty_ok hdrop hc.snodup hsne (mods_shape hc)
  have hsh : shape = sh := fits_unique k2 hf
  subst hsh
  have hmem : ∀ x : Int × Arr V, x ∈ mods ↔ ∃ m : Nat, x.1 = m ∧ DataOf train data m x.2 ∧ x.2.shape = shape := by
    intro x
    rw [k3, List.mem_filter, mods_mem hc]
    simp only [decide_eq_true_eq]
    constructor
    · rintro ⟨⟨m, a, b⟩, c⟩; exact ⟨m, a, b, c⟩
    · rintro ⟨m, a, b, c⟩; exact ⟨⟨m, a, b⟩, c⟩
  have hmne : mods ≠ [] := by
    intro h0
    have : ((n : Int), a) ∈ mods := (hmem _).2 ⟨n, rfl, ha, hsa⟩
    rw [h0] at this; simp at this
  obtain ⟨m, hmax⟩ := maxModule_exists hmne
  have hm : ¬ m ≥ (modules : Int) := by
    obtain ⟨x, hx, hxm⟩ := (maxModule_ok hmax).2
    obtain ⟨m', e, h1, h2⟩ := (hmem x).1 hx
    have := hs.modules m' x.2 h1 h2
    omega
  have hdne : ∃ d ds, c.dtypes = d :: ds := by
    have : a.dtype ∈ c.dtypes := (hc.dtypes _).2 ⟨a, hp, rfl⟩
    cases hcd : c.dtypes with
    | nil => rw [hcd] at this; simp at this
    | cons d ds => exact ⟨d, ds, rfl⟩
  obtain ⟨d, ds, hdd⟩ := hdne
  unfold stackDetectorView
  rw [if_neg hne, hcol]
  simp only
  rw [if_neg hdt, hdrop]
  simp only
  rw [hmax]
  simp only
  rw [if_neg hm, hdd, k1]
  exact ⟨_, rfl⟩

/-! ### The real array -/

theorem foldE_assign_ok {v : StackView V} {l : List (Int × Arr V)} {g g' : List Nat → V}
    (h : foldE v.assign g l = .ok g') :
    (∀ x ∈ l, x.2.shape = v.modShape ∧ ∃ m, modPos x.1 v.nmodules = .ok m) := by
  induction l generalizing g with
  | nil => simp
  | cons x l ih =>
    obtain ⟨g1, h1, h2⟩ := foldE_cons_ok.1 h
    intro y hy
    rcases List.mem_cons.1 hy with rfl | hy
    · unfold StackView.assign at h1
      split at h1
      · next hs =>
        refine ⟨hs, ?_⟩
        split at h1
        · simp at h1
        · next m hm => exact ⟨m, hm⟩
      · simp at h1
    · exact ih h2 y hy

theorem modPos_nonneg {m : Int} {n : Nat} (h0 : 0 ≤ m) (h1 : m < n) : modPos m n = .ok m.toNat := by
  unfold modPos
  simp only
  rw [if_neg (by omega : ¬ m < 0), if_pos ⟨h0, h1⟩]

theorem foldE_assign_spec {v : StackView V} : ∀ (l : List (Int × Arr V)) (g : List Nat → V),
    (l.map Prod.fst).Nodup → (∀ x ∈ l, x.2.shape = v.modShape ∧ 0 ≤ x.1 ∧ x.1 < v.nmodules) →
    ∃ g', foldE v.assign g l = .ok g' ∧ g' [] = g [] ∧ ∀ (m : Nat) rest, g' (m :: rest) =
      match Dict.get? l (m : Int) with
      | some a => a.get rest
      | none => g (m :: rest) := by
  intro l
  induction l with
  | nil => intro g _ _; exact ⟨g, rfl, rfl, fun m rest => rfl⟩
  | cons x l ih =>
    intro g hn hx
    obtain ⟨k, a⟩ := x
    obtain ⟨h1, h2, h3⟩ := hx (k, a) (by simp)
    simp only at h1 h2 h3
    have hstep : v.assign g (k, a) = .ok (assignFirst g k.toNat a) := by
      unfold StackView.assign
      rw [if_pos h1, modPos_nonneg h2 h3]
    rw [List.map_cons, List.nodup_cons] at hn
    obtain ⟨g', e1, e2, e3⟩ := ih (assignFirst g k.toNat a) hn.2 (fun y hy => hx y (by simp [hy]))
    refine ⟨g', foldE_cons_ok.2 ⟨_, hstep, e1⟩, e2, fun m rest => ?_⟩
    rw [e3, Dict.get?_cons]
    by_cases hk : k = (m : Int)
    · rw [if_pos hk]
      have : Dict.get? l (m : Int) = none := by
        rw [Dict.get?_none_iff]; subst hk; exact hn.1
      rw [this]
      simp only [assignFirst]
      rw [if_pos (by omega)]
    · rw [if_neg hk]
      split
      · rfl
      · simp only [assignFirst]
        rw [if_neg (by omega)]

/-- The real array of a good view. -/
theorem asArray_good {v : StackView V} {k : Nat} (hv : GoodView v k) :
    v.asArray = .ok ⟨v.dtype, v.modShape.take k ++ v.nmodules :: v.modShape.drop k,
      fun idx => (moduleArray v (idx.getD k 0)).get (idx.take k ++ idx.drop (k + 1))⟩ := by
  obtain ⟨g, h1, -, h3⟩ := foldE_assign_spec (v := v) v.data (fun _ => v.fill) hv.keys (by
    intro x hx
    have := (Dict.get?_eq_some_iff hv.keys).2 (show (x.1, x.2) ∈ v.data from hx)
    exact ⟨(hv.shapes _ _ this).1, (hv.range _ _ this).1, (hv.range _ _ this).2⟩)
  have hk : normAxis v.stackAxis v.ndim = .ok k := by
    unfold normAxis StackView.ndim
    rw [hv.axis]
    have := hv.axis_le
    simp only
    rw [if_neg (by omega : ¬ (k : Int) < 0), if_pos (by omega)]
    simp
  unfold StackView.asArray
  rw [h1, hk]
  simp only [Arr.moveFirst]
  congr 2
  funext idx
  rw [h3]
  unfold moduleArray
  cases v.data.get? ((idx.getD k 0 : Nat) : Int) <;> rfl

end KD
