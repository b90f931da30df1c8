/- Properties C49, C50 and C53: stacking the data of detector modules and of devices. -/
import Verif.Lemmas.StackDetector

set_option linter.unusedSimpArgs false

namespace KD
open Spec

variable {V : Type}

/-! ### C49: every module in its place -/

/-- The position of an axis given as a Python integer. -/
theorem goodView_of {conv : Nat → V} {train : Dict Str (Dict Str (Arr V))} {data : Str} {axis : Int} {modules dt : Nat}
    {sh : List Nat} {v : StackView V} {k : Nat} (h : ViewOf conv train data axis modules dt sh v)
    (hk : axis = k ∨ axis = (k : Int) - (sh.length + 1 : Nat)) (hle : k ≤ sh.length) : GoodView v k := by
  refine ⟨h.keys, fun m a hm => ?_, fun m a hm => ?_, ?_, by rw [h.modShape]; exact hle, ?_⟩
  · obtain ⟨n, rfl, h1, h2⟩ := (h.data m a).1 hm
    have := h.stackable.modules n a h1 h2
    rw [h.nmodules]; omega
  · obtain ⟨n, rfl, h1, h2⟩ := (h.data m a).1 hm
    rw [h.modShape, h.dtype]
    exact ⟨h2, h.stackable.dtypes a (present_of_dataOf h1)⟩
  · rw [h.axis]
    rcases hk with hk | hk
    · rw [if_neg (by omega), hk]
    · rw [if_pos (by omega), hk]; omega
  · obtain ⟨n, a, h1, h2⟩ := h.stackable.some_data
    intro h0
    have := (h.data n a).2 ⟨n, rfl, h1, h2⟩
    rw [h0] at this; simp at this

theorem normAxis_ok_iff (axis : Int) (n k : Nat) : normAxis axis n = .ok k ↔ k < n ∧ (axis = k ∨ axis = (k : Int) - n) := by
  unfold normAxis
  simp only
  constructor
  · intro h
    by_cases h0 : axis < 0
    · rw [if_pos h0] at h
      split at h
      · have := Except.ok.inj h; omega
      · simp at h
    · rw [if_neg h0] at h
      split at h
      · have := Except.ok.inj h; omega
      · simp at h
  · rintro ⟨h1, h2⟩
    by_cases h0 : axis < 0
    · rw [if_pos h0, if_pos (by omega)]; congr 1; omega
    · rw [if_neg h0, if_pos (by omega)]; congr 1; omega

theorem getD_middle {before after : List Nat} {k n : Nat} (h : before.length = k) :
    (before ++ n :: after).getD k 0 = n := by
  subst h; simp

theorem remove_middle {before after : List Nat} {k n : Nat} (h : before.length = k) :
    (before ++ n :: after).take k ++ (before ++ n :: after).drop (k + 1) = before ++ after := by
  subst h
  rw [List.take_left' rfl, show before ++ n :: after = (before ++ [n]) ++ after by simp, List.drop_left' (by simp)]

/-- **C49**: in the stacked array, module `n` is at position `n` along the stacking axis; modules without data, or with an
empty array where others have data, are filled. -/
theorem stack_places {conv : Nat → V} {train : Dict Str (Dict Str (Arr V))} {data : Str} {axis : Int} {modules dt k : Nat}
    {sh : List Nat} (hs : Stackable train data modules dt sh)
    (hk : axis = k ∨ axis = (k : Int) - (sh.length + 1 : Nat)) (hle : k ≤ sh.length) :
    ∃ r, stackDetector conv train data axis modules = .ok r ∧ r.dtype = dt ∧
      r.shape = sh.take k ++ modules :: sh.drop k ∧
      ∀ before n after, before.length = k → n < modules →
        (∀ a, DataOf train data n a → a.shape = sh → r.get (before ++ n :: after) = a.get (before ++ after)) ∧
        ((∀ a, DataOf train data n a → a.shape ≠ sh) → r.get (before ++ n :: after) = conv dt) := by
  obtain ⟨v, hv⟩ := stackDetectorView_exists (conv := conv) (axis := axis) hs
  obtain ⟨dt', sh', hvo⟩ := stackDetectorView_ok hv
  obtain ⟨rfl, rfl⟩ := stackable_unique hs hvo.stackable
  have hg := goodView_of hvo hk hle
  refine ⟨_, by unfold stackDetector; rw [hv]; exact asArray_good hg, hvo.dtype, by simp only [hvo.modShape, hvo.nmodules], ?_⟩
  intro before n after hb hn
  simp only [getD_middle hb, remove_middle hb]
  refine ⟨fun a ha hsa => ?_, fun hno => ?_⟩
  · have := (hvo.data n a).2 ⟨n, rfl, ha, hsa⟩
    simp only [moduleArray, this]
  · have : v.data.get? (n : Int) = none := by
      cases hd : v.data.get? (n : Int) with
      | none => rfl
      | some a =>
        obtain ⟨m, e, h1, h2⟩ := (hvo.data n a).1 hd
        have : n = m := by exact_mod_cast e
        subst this
        exact absurd h2 (hno a h1)
    simp only [moduleArray, this, hvo.fill]

/-- Whenever a module occurs twice, exactly one array counts. -/
theorem dataOf_unique {train : Dict Str (Dict Str (Arr V))} {data : Str} {n : Nat} {a b : Arr V}
    (hd : ∀ x ∈ train, ∃ n, ModuleOf x.1 n) (ha : DataOf train data n a) (hb : DataOf train data n b) : a = b := by
  obtain ⟨c, hcol⟩ := collect_exists (data := data) train ⟨[], [], []⟩ hd
  obtain ⟨-, hc⟩ := collect_ok hcol
  have h1 := (hc.mods n a).2 ⟨n, rfl, ha⟩
  have h2 := (hc.mods n b).2 ⟨n, rfl, hb⟩
  rw [h1] at h2
  exact Option.some.inj h2

/-- A small train: module 1 with a 1-dimensional array, module 0 with an empty one, module 2 without the key. -/
def exTrain : Dict Str (Dict Str (Arr Nat)) :=
  [(ch! "A/DET/1CH0", [(ch! "d", ⟨0, [2], fun idx => 10 + idx.getD 0 0⟩)]),
   (ch! "A/DET/0CH0", [(ch! "d", ⟨0, [0], fun _ => 0⟩)]), (ch! "A/DET/2CH0", [])]

example : (stackDetector (fun _ => 99) exTrain (ch! "d") 0 3).map (fun a => (a.shape, [[0, 0], [0, 1], [1, 0], [1, 1], [2, 1]].map a.get)) =
    Except.ok ([3, 2], [99, 99, 10, 11, 99]) := by rfl
example : (stackDetector (fun _ => 99) exTrain (ch! "d") (-1) 3).map (fun a => (a.shape, [[0, 0], [1, 0], [0, 1], [1, 1], [1, 2]].map a.get)) =
    Except.ok ([2, 3], [99, 99, 10, 11, 99]) := by rfl

/-- A train which meets the hypotheses of the theorems. -/
example : ∃ dt sh, Stackable exTrain (ch! "d") 3 dt sh ∧ sh = [2] := by
  have h : (stackDetectorView (fun _ => 99) exTrain (ch! "d") 0 3).map (fun v => v.modShape) = Except.ok [2] := by rfl
  cases hv : stackDetectorView (fun _ => 99) exTrain (ch! "d") 0 3 with
  | error e => rw [hv] at h; simp [Except.map] at h
  | ok v =>
    rw [hv] at h
    obtain ⟨dt, sh, ho⟩ := stackDetectorView_ok hv
    exact ⟨dt, sh, ho.stackable, ho.modShape.symm.trans (Except.ok.inj h)⟩

/-! ### C50: what is refused -/

/-- **C50** (accepted trains): the view is returned exactly for stackable trains. -/
theorem stack_accepts_iff (conv : Nat → V) (train : Dict Str (Dict Str (Arr V))) (data : Str) (axis : Int) (modules : Nat) :
    (∃ v, stackDetectorView conv train data axis modules = .ok v) ↔ ∃ dt sh, Stackable train data modules dt sh := by
  constructor
  · rintro ⟨v, hv⟩
    obtain ⟨dt, sh, h⟩ := stackDetectorView_ok hv
    exact ⟨dt, sh, h.stackable⟩
  · rintro ⟨dt, sh, h⟩
    exact stackDetectorView_exists h

/-- A module which is outside the detector (and not just empty). -/
def OutOfRange (train : Dict Str (Dict Str (Arr V))) (data : Str) (modules : Nat) : Prop :=
  ∃ sh, ShapesFit train data sh ∧ ∃ n a, DataOf train data n a ∧ a.shape = sh ∧ modules ≤ n

/-- Two shapes, one of them without dimensions. -/
def ScalarMixed (train : Dict Str (Dict Str (Arr V))) (data : Str) : Prop :=
  ∃ s, s ≠ [] ∧ ∀ x, (∃ a, Present train data a ∧ a.shape = x) ↔ x = [] ∨ x = s

/-- **C50** (partial): the errors for trains which cannot be stacked. IndexError comes exactly when there are only detector
modules and one dtype and a module with data is outside the detector, or one of exactly two shapes has no dimensions;
everything else is ValueError. What is missing to the property: mixed shapes where one has no dimensions should be a
ValueError, and an empty module outside the detector is accepted. -/
theorem stack_errors_partial {conv : Nat → V} {train : Dict Str (Dict Str (Arr V))} {data : Str} {axis : Int} {modules : Nat}
    {e : PyErr} (h : stackDetectorView conv train data axis modules = .error e) :
    (e = .value ∨ e = .index) ∧
    (e = .index ↔ ((∀ x ∈ train, ∃ n, ModuleOf x.1 n) ∧
      (∀ a b, Present train data a → Present train data b → a.dtype = b.dtype) ∧
      (OutOfRange train data modules ∨ ScalarMixed train data))) := by
  have hnot : ¬ ∃ dt sh, Stackable train data modules dt sh := by
    rintro ⟨dt, sh, hs⟩
    obtain ⟨v, hv⟩ := stackDetectorView_exists (conv := conv) (axis := axis) hs
    rw [h] at hv; simp at hv
  unfold stackDetectorView at h
  split at h
  · next hne =>
    subst hne
    obtain rfl := Except.error.inj h
    refine ⟨.inl rfl, by simp, ?_⟩
    rintro ⟨-, -, ⟨sh, -, n, a, ⟨b, x, af, h1, -⟩, -⟩ | ⟨s, -, hall⟩⟩
    · simp at h1
    · obtain ⟨a, ⟨x, hx, -⟩, -⟩ := (hall []).2 (.inl rfl)
      simp at hx
  · next hne =>
    split at h
    · next e' hcol =>
      obtain rfl := Except.error.inj h
      obtain ⟨rfl, hnd⟩ := collect_error _ _ hcol
      exact ⟨.inl rfl, by simp, fun hh => absurd hh.1 hnd⟩
    · next c hcol =>
      obtain ⟨hdet, hc⟩ := collect_ok hcol
      split at h
      · next hdt =>
        obtain rfl := Except.error.inj h
        refine ⟨.inl rfl, by simp, fun hh => ?_⟩
        obtain ⟨x, hx, y, hy, hxy⟩ := length_gt_one hc.dnodup hdt
        obtain ⟨b, hb, rfl⟩ := (hc.dtypes x).1 hx
        obtain ⟨b', hb', rfl⟩ := (hc.dtypes y).1 hy
        exact absurd (hh.2.1 b b' hb hb') hxy
      · next hdt =>
        have hone : ∀ a b, Present train data a → Present train data b → a.dtype = b.dtype := fun a b ha hb =>
          length_le_one hdt ((hc.dtypes _).2 ⟨a, ha, rfl⟩) ((hc.dtypes _).2 ⟨b, hb, rfl⟩)
        have hsm : ScalarMixed train data ↔ ∃ s, s ≠ [] ∧ ∀ x, x ∈ c.shapes ↔ x = [] ∨ x = s := by
          unfold ScalarMixed
          simp only [hc.shapes]
        split at h
        · next e' hdrop =>
          obtain rfl := Except.error.inj h
          obtain ⟨hnf, hcase⟩ := dropEmpty_error hc.snodup hdrop
          have hnor : ¬ OutOfRange train data modules := by
            rintro ⟨sh, h1, n, a, h2, h3, -⟩
            exact hnf sh ((fits_iff hc sh).2 ⟨h1, a, present_of_dataOf h2, h3⟩)
          rcases hcase with ⟨rfl, hc1⟩ | ⟨rfl, hc1⟩
          · exact ⟨.inr rfl, fun _ => ⟨hdet, hone, .inr (hsm.2 hc1)⟩, fun _ => rfl⟩
          · refine ⟨.inl rfl, by simp, ?_⟩
            rintro ⟨-, -, h1 | h1⟩
            · exact absurd h1 hnor
            · exact absurd (hsm.1 h1) hc1
        · next shapes mods hdrop =>
          have hnsm : ¬ ScalarMixed train data := by
            intro h1
            obtain ⟨s, hs, hall⟩ := hsm.1 h1
            rw [dropEmpty_pair hs c.mods hc.snodup hall] at hdrop
            simp at hdrop
          by_cases hsne : c.shapes = []
          · -- no data at all
            have hnp : ∀ a, ¬ Present train data a := by
              intro a ha
              have := (hc.shapes _).2 ⟨a, ha, rfl⟩
              rw [hsne] at this; simp at this
            have hm0 : c.mods = [] := by
              cases hcm : c.mods with
              | nil => rfl
              | cons x l =>
                obtain ⟨m, -, hx⟩ := (mods_mem hc).1 (show x ∈ c.mods by rw [hcm]; simp)
                exact absurd (present_of_dataOf hx) (hnp _)
            rw [hsne, hm0] at hdrop
            obtain ⟨rfl, rfl⟩ := Prod.mk.inj (Except.ok.inj hdrop)
            obtain rfl := Except.error.inj h
            refine ⟨.inl rfl, by simp, ?_⟩
            rintro ⟨-, -, ⟨sh, -, n, a, h2, -⟩ | h1⟩
            · exact absurd (present_of_dataOf h2) (hnp _)
            · exact absurd h1 hnsm
          · obtain ⟨shape, k1, k2, k3⟩ := dropEmpty_ok hdrop hc.snodup hsne (mods_shape hc)
            have hmem : ∀ x : Int × Arr V, x ∈ mods ↔ ∃ m : Nat, x.1 = m ∧ DataOf train data m x.2 ∧ x.2.shape = shape := by
              intro x
              rw [k3, List.mem_filter, mods_mem hc]
              simp only [decide_eq_true_eq]
              constructor
              · rintro ⟨⟨m, a, b⟩, c⟩; exact ⟨m, a, b, c⟩
              · rintro ⟨m, a, b, c⟩; exact ⟨⟨m, a, b⟩, c⟩
            split at h
            · next e' hmax =>
              obtain ⟨hm0, rfl⟩ := maxModule_error hmax
              obtain rfl := Except.error.inj h
              refine ⟨.inl rfl, by simp, ?_⟩
              rintro ⟨-, -, ⟨sh, hsf, n, a, h2, h3, -⟩ | h1⟩
              · have : sh = shape := fits_unique ((fits_iff hc sh).2 ⟨hsf, a, present_of_dataOf h2, h3⟩) k2
                have : ((n : Int), a) ∈ mods := (hmem _).2 ⟨n, rfl, h2, h3.trans this⟩
                rw [hm0] at this; simp at this
              · exact absurd h1 hnsm
            · next m hmax =>
              split at h
              · next hm =>
                obtain rfl := Except.error.inj h
                refine ⟨.inr rfl, fun _ => ⟨hdet, hone, .inl ?_⟩, fun _ => rfl⟩
                obtain ⟨x, hx, hxm⟩ := (maxModule_ok hmax).2
                obtain ⟨m', e, h1, h2⟩ := (hmem x).1 hx
                exact ⟨shape, ((fits_iff hc shape).1 k2).1, m', x.2, h1, h2, by omega⟩
              · split at h
                · simp at h
                · next hno =>
                  exfalso
                  obtain ⟨x, hx, -⟩ := (maxModule_ok hmax).2
                  obtain ⟨m', -, h1, -⟩ := (hmem x).1 hx
                  have : x.2.dtype ∈ c.dtypes := (hc.dtypes _).2 ⟨x.2, present_of_dataOf h1, rfl⟩
                  cases hcd : c.dtypes with
                  | nil => rw [hcd] at this; simp at this
                  | cons d ds => exact (hno d ds shape [] hcd) k1

/-- An empty train, a source which is no detector module or several dtypes: ValueError. -/
theorem stack_value_errors (conv : Nat → V) (train : Dict Str (Dict Str (Arr V))) (data : Str) (axis : Int) (modules : Nat)
    (h : train = [] ∨ (∃ x ∈ train, ∀ n, ¬ ModuleOf x.1 n) ∨
      (∃ a b, Present train data a ∧ Present train data b ∧ a.dtype ≠ b.dtype)) :
    stackDetectorView conv train data axis modules = .error .value := by
  cases hr : stackDetectorView conv train data axis modules with
  | ok v =>
    exfalso
    obtain ⟨dt, sh, ho⟩ := stackDetectorView_ok hr
    obtain ⟨n, a, ha, -⟩ := ho.stackable.some_data
    obtain ⟨y, hy, -⟩ := present_of_dataOf ha
    rcases h with rfl | ⟨x, hx, hn⟩ | ⟨a, b, ha, hb, hab⟩
    · simp at hy
    · obtain ⟨n, h⟩ := ho.stackable.detectors x hx
      exact hn n h
    · exact hab ((ho.stackable.dtypes a ha).trans (ho.stackable.dtypes b hb).symm)
  | error e =>
    obtain ⟨h1, h2⟩ := stack_errors_partial hr
    rcases h1 with rfl | rfl
    · rfl
    · exfalso
      obtain ⟨g1, g2, g3⟩ := h2.1 rfl
      rcases h with rfl | ⟨x, hx, hn⟩ | ⟨a, b, ha, hb, hab⟩
      · rcases g3 with ⟨sh, -, n, a, ha, -⟩ | ⟨s, -, hall⟩
        · obtain ⟨x, hx, -⟩ := present_of_dataOf ha; simp at hx
        · obtain ⟨a, ⟨x, hx, -⟩, -⟩ := (hall []).2 (.inl rfl); simp at hx
      · obtain ⟨n, h⟩ := g1 x hx
        exact hn n h
      · exact hab (g2 a b ha hb)

/-- Shapes which do not fit are refused. -/
theorem stack_shapes_refused {conv : Nat → V} {train : Dict Str (Dict Str (Arr V))} {data : Str} {axis : Int} {modules : Nat}
    (h : ∀ sh, ¬ ShapesFit train data sh) : ∃ e, stackDetectorView conv train data axis modules = .error e := by
  cases hr : stackDetectorView conv train data axis modules with
  | error e => exact ⟨e, rfl⟩
  | ok v =>
    obtain ⟨dt, sh, ho⟩ := stackDetectorView_ok hr
    exact absurd ho.stackable.shapes (h sh)

/-- The real array: exactly the axes from `-2·ndim` to `ndim - 1` are accepted, for `ndim` the dimensions of the result;
numpy itself accepts only those from `-ndim` on. -/
theorem stack_axis_iff {conv : Nat → V} {train : Dict Str (Dict Str (Arr V))} {data : Str} {axis : Int} {modules dt : Nat}
    {sh : List Nat} (hs : Stackable train data modules dt sh) :
    (∃ r, stackDetector conv train data axis modules = .ok r) ↔
      -(2 * (sh.length + 1 : Nat) : Int) ≤ axis ∧ axis < (sh.length + 1 : Nat) := by
  obtain ⟨v, hv⟩ := stackDetectorView_exists (conv := conv) (axis := axis) hs
  obtain ⟨dt', sh', hvo⟩ := stackDetectorView_ok hv
  obtain ⟨rfl, rfl⟩ := stackable_unique hs hvo.stackable
  obtain ⟨g, h1, -, -⟩ := foldE_assign_spec (v := v) v.data (fun _ => v.fill) hvo.keys (by
    intro x hx
    have hx' := (Dict.get?_eq_some_iff hvo.keys).2 (show (x.1, x.2) ∈ v.data from hx)
    obtain ⟨n, e, h1, h2⟩ := (hvo.data _ _).1 hx'
    have := hs.modules n x.2 h1 h2
    rw [hvo.modShape, hvo.nmodules]
    exact ⟨h2, by omega, by omega⟩)
  unfold stackDetector
  rw [hv]
  simp only
  unfold StackView.asArray
  rw [h1]
  simp only
  have hax := hvo.axis
  have hnd : v.ndim = sh.length + 1 := by unfold StackView.ndim; rw [hvo.modShape]
  rw [hnd, hax]
  constructor
  · rintro ⟨r, hr⟩
    split at hr
    · simp at hr
    · next k hk =>
      rw [normAxis_ok_iff] at hk
      split at hk <;> omega
  · rintro ⟨h1, h2⟩
    have : ∃ k, normAxis (if axis < 0 then axis + (sh.length + 1 : Nat) else axis) (sh.length + 1) = .ok k := by
      by_cases h0 : axis < 0
      · by_cases h3 : axis + (sh.length + 1 : Nat) < 0
        · refine ⟨(axis + 2 * (sh.length + 1 : Nat)).toNat, (normAxis_ok_iff _ _ _).2 ?_⟩
          rw [if_pos h0]; omega
        · refine ⟨(axis + (sh.length + 1 : Nat)).toNat, (normAxis_ok_iff _ _ _).2 ?_⟩
          rw [if_pos h0]; omega
      · refine ⟨axis.toNat, (normAxis_ok_iff _ _ _).2 ?_⟩
        rw [if_neg h0]; omega
    obtain ⟨k, hk⟩ := this
    rw [hk]
    exact ⟨_, rfl⟩

/-- **C50** fails for a shape without dimensions: two modules whose data are a number and an array give IndexError, not
ValueError. -/
theorem stack_scalar_wrong : ∃ train : Dict Str (Dict Str (Arr Nat)),
    (stackDetector (fun _ => 0) train (ch! "d") 0 16).map (fun a => a.shape) = Except.error .index :=
  ⟨[(ch! "A/DET/0CH0", [(ch! "d", ⟨0, [], fun _ => 1⟩)]), (ch! "A/DET/1CH0", [(ch! "d", ⟨0, [2], fun _ => 1⟩)])], by rfl⟩

/-- **C50** fails for an empty module outside the detector: it is accepted. -/
theorem stack_empty_out_of_range_wrong : ∃ train : Dict Str (Dict Str (Arr Nat)),
    (∃ a, DataOf train (ch! "d") 40 a) ∧
    (stackDetector (fun _ => 0) train (ch! "d") 0 2).map (fun a => a.shape) = Except.ok [2, 2] := by
  refine ⟨[(ch! "A/DET/0CH0", [(ch! "d", ⟨0, [2], fun _ => 1⟩)]), (ch! "A/DET/40CH0", [(ch! "d", ⟨0, [0], fun _ => 1⟩)])],
    ⟨⟨0, [0], fun _ => 1⟩, [(ch! "A/DET/0CH0", [(ch! "d", ⟨0, [2], fun _ => 1⟩)])],
      (ch! "A/DET/40CH0", [(ch! "d", ⟨0, [0], fun _ => 1⟩)]), [], rfl, ?_, rfl, by simp⟩, by rfl⟩
  exact (moduleOf_iff _ _).2 ⟨ch! "40", by decide, by decide⟩

/-- The default axis -3 is accepted for data with one dimension, and is then the last axis. -/
theorem stack_axis_wraps_wrong : ∃ train : Dict Str (Dict Str (Arr Nat)),
    (stackDetector (fun _ => 0) train (ch! "d") (-3) 3).map (fun a => a.shape) = Except.ok [2, 3] :=
  ⟨[(ch! "A/DET/0CH0", [(ch! "d", ⟨0, [2], fun _ => 1⟩)])], by rfl⟩

/-- A source which is no detector module. -/
example : ∀ n, ¬ ModuleOf (ch! "CAM/DET/CH") n := by
  intro n h
  obtain ⟨d, hd, -⟩ := (moduleOf_iff _ _).1 h
  have : searchDet (ch! "CAM/DET/CH") = none := by decide
  rw [this] at hd
  simp at hd

/-! ### C53: the order of devices -/

theorem insertionSort_stable {α : Type} (le : α → α → Prop) [DecidableRel le] [Std.Total le] [IsTrans α le] (p : α → Bool)
    (hp : ∀ a b, p a = true → p b = true → le a b) (l : List α) :
    (l.insertionSort le).filter p = l.filter p := by
  have hins : ∀ (a : α) (l : List α), (l.orderedInsert le a).filter p = (a :: l).filter p := by
    intro a l
    induction l with
    | nil => rfl
    | cons b l ih =>
      rw [List.orderedInsert_cons]
      split
      · rfl
      · next hab =>
        rw [List.filter_cons, ih]
        by_cases hb : p b = true
        · have ha : ¬ p a = true := fun ha => hab (hp a b ha hb)
          simp [hb, ha]
        · by_cases ha : p a = true <;> simp [ha, hb]
  induction l with
  | nil => rfl
  | cons a l ih =>
    rw [List.insertionSort_cons, hins]
    by_cases ha : p a = true <;> simp [ha, ih]

/-- The order of two lists of integers: the first difference decides, or the shorter list comes first. -/
theorem lexLe_iff (a b : List Nat) : lexLe a b = true ↔ a = b ∨ List.Lex (· < ·) a b := by
  induction a generalizing b with
  | nil => cases b <;> simp [lexLe]
  | cons x a ih =>
    cases b with
    | nil => simp [lexLe]
    | cons y b =>
      simp only [lexLe, List.cons.injEq]
      split
      · next h =>
        subst h
        rw [ih]
        simp [List.lex_cons_iff]
      · next h =>
        constructor
        · intro h'
          exact .inr (.rel (by simpa using h'))
        · rintro (⟨h', -⟩ | h')
          · exact absurd h' h
          · cases h' with
            | cons _ => exact absurd rfl h
            | rel h' => simpa using h'

/-- **C53**: stack_data succeeds exactly if there are devices left, they all have the data, with one dtype and one shape,
and the axis is in range; and then it stacks them ordered by the integers in their names, compared as lists, with ties in
dictionary order. -/
theorem stack_data_order (train : Dict Str (Dict Str (Arr V))) (data : Str) (axis : Int) (xcept : List Str)
    (hd : train.keys.Nodup) {r : Arr V} (h : stackData train data axis xcept = .ok r) :
    ∃ devs : List Str, ∃ arrays : List (Arr V), ∃ sh : List Nat, ∃ k : Nat,
      devs.Perm (train.keys.filter (fun d => decide (d ∉ xcept))) ∧ devs ≠ [] ∧
      devs.Pairwise (fun a b => numbersIn a = numbersIn b ∨ List.Lex (· < ·) (numbersIn a) (numbersIn b)) ∧
      (∀ nums, devs.filter (fun d => decide (numbersIn d = nums)) =
        (train.keys.filter (fun d => decide (d ∉ xcept))).filter (fun d => decide (numbersIn d = nums))) ∧
      List.Forall₂ (fun d a => ∃ values, (d, values) ∈ train ∧ values.get? data = some a) devs arrays ∧
      (∀ a ∈ arrays, a.shape = sh ∧ a.dtype = r.dtype) ∧
      k ≤ sh.length ∧ (axis = k ∨ axis = (k : Int) - (sh.length + 1 : Nat)) ∧
      r.shape = sh.take k ++ devs.length :: sh.drop k ∧
      ∀ before i after a, before.length = k → arrays[i]? = some a → r.get (before ++ i :: after) = a.get (before ++ after) := by
  unfold stackData at h
  simp only at h
  split at h
  · simp at h
  · next hne =>
    split at h
    · simp at h
    · next arrays hmap =>
      split at h
      · simp at h
      · next hdt =>
        have hperm := List.perm_insertionSort (fun a b => lexLe (deviceKey a) (deviceKey b) = true)
          (train.keys.filter (fun d => decide (d ∉ xcept)))
        have : Std.Total (fun a b : Str => lexLe (deviceKey a) (deviceKey b) = true) :=
          ⟨fun a b => lexLe_total (deviceKey a) (deviceKey b)⟩
        have : IsTrans Str (fun a b : Str => lexLe (deviceKey a) (deviceKey b) = true) :=
          ⟨fun _ _ _ => lexLe_trans⟩
        have hpw := List.pairwise_insertionSort (fun a b => lexLe (deviceKey a) (deviceKey b) = true)
          (train.keys.filter (fun d => decide (d ∉ xcept)))
        have hf2 := mapE_ok_iff.1 hmap
        have hlen := mapE_length hmap
        unfold npStack at h
        cases arrays with
        | nil => simp at h
        | cons a rest =>
          simp only at h
          split at h
          · next hall =>
            split at h
            · simp at h
            · next k hk =>
              obtain rfl := Except.ok.inj h
              have hkk : k ≤ a.shape.length ∧ (axis = k ∨ axis = (k : Int) - (a.shape.length + 1 : Nat)) := by
                have := (normAxis_ok_iff _ _ _).1 hk
                exact ⟨by omega, this.2⟩
              refine ⟨_, a :: rest, a.shape, k, hperm, ?_, ?_, ?_, ?_, ?_, hkk.1, hkk.2, ?_, ?_⟩
              · intro h0
                rw [h0] at hlen; simp at hlen
              · refine hpw.imp (fun {x y} hxy => ?_)
                rw [lexLe_iff, deviceKey_eq, deviceKey_eq] at hxy
                exact hxy
              · intro nums
                apply insertionSort_stable
                intro x y hx hy
                simp only [decide_eq_true_eq] at hx hy
                rw [deviceKey_eq, deviceKey_eq, hx, hy, lexLe_iff]
                exact .inl rfl
              · refine hf2.imp (fun d b hdb => ?_)
                unfold deviceData at hdb
                split at hdb
                · simp at hdb
                · next values hv =>
                  split at hdb
                  · simp at hdb
                  · next b' hb' =>
                    obtain rfl := Except.ok.inj hdb
                    exact ⟨values, (Dict.get?_eq_some_iff hd).1 hv, hb'⟩
              · intro b hb
                refine ⟨?_, ?_⟩
                · rcases List.mem_cons.1 hb with rfl | hb
                  · rfl
                  · have := List.all_eq_true.1 hall b hb; simpa using this
                · have ha : a ∈ a :: rest := by simp
                  have : b.dtype = a.dtype := length_le_one hdt (List.mem_dedup.2 (List.mem_map_of_mem hb))
                    (List.mem_dedup.2 (List.mem_map_of_mem ha))
                  exact this
              · simp only
                rw [hlen]
              · intro before i after b hb hi
                simp only [getD_middle hb, remove_middle hb]
                rw [List.getD_eq_getElem?_getD, hi]
                rfl
          · simp at h

/-- **C53** (success): devices with data of one dtype and shape are stacked for every axis in range. -/
theorem stack_data_succeeds (train : Dict Str (Dict Str (Arr V))) (data : Str) (axis : Int) (xcept : List Str) (dt : Nat)
    (sh : List Nat) (hne : ∃ d ∈ train.keys, d ∉ xcept)
    (hall : ∀ x ∈ train, x.1 ∉ xcept → ∃ a, x.2.get? data = some a ∧ a.dtype = dt ∧ a.shape = sh)
    (hax : -(sh.length + 1 : Nat) ≤ axis ∧ axis < (sh.length + 1 : Nat)) : ∃ r, stackData train data axis xcept = .ok r := by
  unfold stackData
  simp only
  have hne' : ¬ (train.keys.filter (fun d => decide (d ∉ xcept))) = [] := by
    obtain ⟨d, h1, h2⟩ := hne
    intro h0
    have : d ∈ train.keys.filter (fun d => decide (d ∉ xcept)) := List.mem_filter.2 ⟨h1, by simpa using h2⟩
    rw [h0] at this; simp at this
  rw [if_neg hne']
  have hperm := List.perm_insertionSort (fun a b => lexLe (deviceKey a) (deviceKey b) = true)
    (train.keys.filter (fun d => decide (d ∉ xcept)))
  have hget : ∀ d ∈ (train.keys.filter (fun d => decide (d ∉ xcept))).insertionSort
      (fun a b => lexLe (deviceKey a) (deviceKey b) = true), ∃ values a, train.get? d = some values ∧
      values.get? data = some a ∧ a.dtype = dt ∧ a.shape = sh := by
    intro d hd'
    obtain ⟨h1, h2⟩ := List.mem_filter.1 (hperm.mem_iff.1 hd')
    obtain ⟨values, hv⟩ := Dict.mem_keys_iff.1 h1
    obtain ⟨a, ha, hb, hc⟩ := hall (d, values) (Dict.mem_of_get? hv) (by simpa using h2)
    exact ⟨values, a, hv, ha, hb, hc⟩
  obtain ⟨arrays, hmap⟩ := mapE_exists_ok (f := deviceData train data) (l := (train.keys.filter (fun d => decide (d ∉ xcept))).insertionSort
      (fun a b => lexLe (deviceKey a) (deviceKey b) = true)) (by
    intro d hd'
    obtain ⟨values, a, h1, h2, -, -⟩ := hget d hd'
    exact ⟨a, by simp only [deviceData, h1, h2]⟩)
  rw [hmap]
  simp only
  have harr : ∀ a ∈ arrays, a.dtype = dt ∧ a.shape = sh := by
    intro a ha
    obtain ⟨d, hd1, hd2⟩ := (mapE_mem hmap).1 ha
    obtain ⟨values, b, h1, h2, h3, h4⟩ := hget d hd1
    simp only [deviceData, h1, h2] at hd2
    obtain rfl := Except.ok.inj hd2
    exact ⟨h3, h4⟩
  rw [if_neg]
  · unfold npStack
    cases arrays with
    | nil =>
      exfalso
      have := mapE_length hmap
      rw [hperm.length_eq] at this
      exact hne' (List.eq_nil_of_length_eq_zero this.symm)
    | cons a rest =>
      simp only
      rw [if_pos]
      · have : ∃ k, normAxis axis (a.shape.length + 1) = .ok k := by
          rw [(harr a (by simp)).2]
          unfold normAxis
          simp only
          rw [if_pos (by split <;> omega)]
          exact ⟨_, rfl⟩
        obtain ⟨k, hk⟩ := this
        rw [hk]
        exact ⟨_, rfl⟩
      · apply List.all_eq_true.2
        intro b hb
        rw [(harr a (by simp)).2, (harr b (by simp [hb])).2]
        simp
  · intro hgt
    obtain ⟨x, hx, y, hy, hxy⟩ := length_gt_one (List.nodup_dedup _) hgt
    obtain ⟨b, hb, rfl⟩ := List.mem_map.1 (List.mem_dedup.1 hx)
    obtain ⟨b', hb', rfl⟩ := List.mem_map.1 (List.mem_dedup.1 hy)
    exact hxy ((harr b hb).1.trans (harr b' hb').1.symm)

/-- Without devices: ValueError. -/
theorem stack_data_empty (train : Dict Str (Dict Str (Arr V))) (data : Str) (axis : Int) (xcept : List Str)
    (h : ∀ d ∈ train.keys, d ∈ xcept) : stackData train data axis xcept = .error .value := by
  unfold stackData
  simp only
  rw [if_pos]
  apply List.filter_eq_nil_iff.2
  intro d hd
  simp [h d hd]

/-- Devices with mixed dtypes: ValueError. -/
theorem stack_data_dtypes (train : Dict Str (Dict Str (Arr V))) (data : Str) (axis : Int) (xcept : List Str)
    (hd : train.keys.Nodup) (hall : ∀ x ∈ train, x.1 ∉ xcept → ∃ a, x.2.get? data = some a)
    (h : ∃ x ∈ train, ∃ y ∈ train, x.1 ∉ xcept ∧ y.1 ∉ xcept ∧
      ∃ a b, x.2.get? data = some a ∧ y.2.get? data = some b ∧ a.dtype ≠ b.dtype) :
    stackData train data axis xcept = .error .value := by
  obtain ⟨x, hx, y, hy, hx1, hy1, a, b, ha, hb, hab⟩ := h
  unfold stackData
  simp only
  have hperm := List.perm_insertionSort (fun a b => lexLe (deviceKey a) (deviceKey b) = true)
    (train.keys.filter (fun d => decide (d ∉ xcept)))
  have hmem : ∀ z ∈ train, z.1 ∉ xcept → z.1 ∈ (train.keys.filter (fun d => decide (d ∉ xcept))).insertionSort
      (fun a b => lexLe (deviceKey a) (deviceKey b) = true) := by
    intro z hz hz1
    exact hperm.mem_iff.2 (List.mem_filter.2 ⟨List.mem_map_of_mem hz, by simpa using hz1⟩)
  split
  · rfl
  · split
    · next e he =>
      exfalso
      obtain ⟨r, hr⟩ := mapE_exists_ok (f := deviceData train data) (l := (train.keys.filter (fun d => decide (d ∉ xcept))).insertionSort
        (fun a b => lexLe (deviceKey a) (deviceKey b) = true)) (by
          intro d hd'
          obtain ⟨h1, h2⟩ := List.mem_filter.1 (hperm.mem_iff.1 hd')
          obtain ⟨values, hv⟩ := Dict.mem_keys_iff.1 h1
          obtain ⟨a, ha⟩ := hall (d, values) (Dict.mem_of_get? hv) (by simpa using h2)
          exact ⟨a, by simp only [deviceData, hv, ha]⟩)
      rw [hr] at he
      simp at he
    · next arrays hmap =>
      have hin : ∀ z ∈ train, z.1 ∉ xcept → ∀ c, z.2.get? data = some c → c ∈ arrays := by
        intro z hz hz1 c hc
        have hg : train.get? z.1 = some z.2 := (Dict.get?_eq_some_iff hd).2 hz
        exact (mapE_mem hmap).2 ⟨z.1, hmem z hz hz1, by simp only [deviceData, hg, hc]⟩
      rw [if_pos]
      by_contra hgt
      exact hab (length_le_one hgt (List.mem_dedup.2 (List.mem_map_of_mem (hin x hx hx1 a ha)))
        (List.mem_dedup.2 (List.mem_map_of_mem (hin y hy hy1 b hb))))

theorem npStack_error {arrays : List (Arr V)} {axis : Int} {e : PyErr} (h : npStack arrays axis = .error e) : e = .value := by
  unfold npStack at h
  split at h
  · exact (Except.error.inj h).symm
  · split at h
    · split at h
      · next e' he =>
        obtain rfl := Except.error.inj h
        unfold normAxis at he
        split at he <;> dsimp only at he <;> split at he <;> first | (simp at he; done) | exact (Except.error.inj he).symm
      · simp at h
    · exact (Except.error.inj h).symm

/-- **C53** (errors): KeyError just when a device which is not left out lacks the data; all other errors are ValueErrors. -/
theorem stack_data_errors (train : Dict Str (Dict Str (Arr V))) (data : Str) (axis : Int) (xcept : List Str) (hd : train.keys.Nodup) :
    (stackData train data axis xcept = .error .key ↔ ∃ x ∈ train, x.1 ∉ xcept ∧ x.2.get? data = none) ∧
    ∀ e, stackData train data axis xcept = .error e → e = .key ∨ e = .value := by
  have hperm := List.perm_insertionSort (fun a b => lexLe (deviceKey a) (deviceKey b) = true)
    (train.keys.filter (fun d => decide (d ∉ xcept)))
  have herr : ∀ d e, deviceData train data d = .error e → e = .key := by
    intro d e h
    unfold deviceData at h
    split at h
    · exact (Except.error.inj h).symm
    · split at h
      · exact (Except.error.inj h).symm
      · simp at h
  have hmiss : ∀ d ∈ (train.keys.filter (fun d => decide (d ∉ xcept))).insertionSort
      (fun a b => lexLe (deviceKey a) (deviceKey b) = true), ∀ e, deviceData train data d = .error e →
      ∃ x ∈ train, x.1 ∉ xcept ∧ x.2.get? data = none := by
    intro d hdm e h
    obtain ⟨h1, h2⟩ := List.mem_filter.1 (hperm.mem_iff.1 hdm)
    obtain ⟨values, hv⟩ := Dict.mem_keys_iff.1 h1
    refine ⟨(d, values), Dict.mem_of_get? hv, by simpa using h2, ?_⟩
    simp only [deviceData, hv] at h
    split at h
    · assumption
    · simp at h
  constructor
  · constructor
    · intro h
      unfold stackData at h
      simp only at h
      split at h
      · simp at h
      · split at h
        · next e he =>
          obtain ⟨d, hdm, hde⟩ := mapE_error_mem he
          exact hmiss d hdm e hde
        · split at h
          · simp at h
          · simpa using npStack_error h
    · rintro ⟨x, hx, hxc, hno⟩
      have hxm : x.1 ∈ train.keys.filter (fun d => decide (d ∉ xcept)) :=
        List.mem_filter.2 ⟨List.mem_map_of_mem hx, by simpa using hxc⟩
      unfold stackData
      simp only
      rw [if_neg (List.ne_nil_of_mem hxm)]
      have hg : train.get? x.1 = some x.2 := (Dict.get?_eq_some_iff hd).2 hx
      cases hm : mapE (deviceData train data) ((train.keys.filter (fun d => decide (d ∉ xcept))).insertionSort
          (fun a b => lexLe (deviceKey a) (deviceKey b) = true)) with
      | error e =>
        obtain ⟨d, -, hde⟩ := mapE_error_mem hm
        rw [herr d e hde]
      | ok arrays =>
        obtain ⟨a, -, ha⟩ := mapE_ok_all hm (hperm.mem_iff.2 hxm)
        simp [deviceData, hg, hno] at ha
  · intro e h
    unfold stackData at h
    simp only at h
    split at h
    · exact .inr (Except.error.inj h).symm
    · split at h
      · next e' he =>
        obtain rfl := Except.error.inj h
        obtain ⟨d, -, hde⟩ := mapE_error_mem he
        exact .inl (herr d e' hde)
      · split at h
        · exact .inr (Except.error.inj h).symm
        · exact .inr (npStack_error h)

/-- Modules 10 and 2 of a camera: 2 comes first; a third device is left out. -/
def exDevices : Dict Str (Dict Str (Arr Nat)) :=
  [(ch! "CAM/10", [(ch! "d", ⟨0, [], fun _ => 10⟩)]), (ch! "XGM", [(ch! "d", ⟨0, [], fun _ => 7⟩)]),
   (ch! "CAM/2", [(ch! "d", ⟨0, [], fun _ => 2⟩)])]

example : (stackData exDevices (ch! "d") 0 [ch! "XGM"]).map (fun a => (a.shape, [[0], [1]].map a.get)) =
    Except.ok ([2], [2, 10]) := by rfl
example : (stackData exDevices (ch! "x") 0 [ch! "XGM"]).map Arr.shape = Except.error .key := by rfl
example : numbersIn (ch! "CAM/10A07") = [10, 7] := by rw [← deviceKey_eq]; decide

end KD
