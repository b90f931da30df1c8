/-
C84 The position of a `QuickView`.
-/
import Verif.Model.QuickView
import Mathlib.Data.List.Basic

set_option linter.unusedSimpArgs false

namespace KD

variable {V : Type}

/-- The position refers to an image of the data, if there are data. -/
def Spec.Valid (q : Quick V) : Prop := ∀ a, q.data = some a → 0 ≤ q.index ∧ q.index < a.shape.headD 0

/-- The position refers to an image, or is just after the last one. -/
def Spec.AlmostValid (q : Quick V) : Prop :=
  (∀ a, q.data = some a → a.shape.length = 3 ∧ 0 ≤ q.index ∧ q.index ≤ a.shape.headD 0) ∧ (q.data = none → q.index = 0 ∧ q.shown = none)

/-- An array of one image with two pixels. -/
def Spec.oneImage : QArr Nat := ⟨[1, 1, 2], fun _ => 7, false⟩

/-- C84 is false: `next` at the last image goes on, and raises IndexError. -/
theorem quick_next_wrong : ∃ q : Quick Nat, (Quick.new.run [.setData (.array Spec.oneImage), .next]) = (q, [.ok (), .error .index]) ∧
    ¬ Spec.Valid q := by
  refine ⟨⟨some Spec.oneImage, 1, some 7, some 0⟩, rfl, ?_⟩
  intro h
  have := (h Spec.oneImage rfl).2
  simp [Spec.oneImage] at this

/-- `display` does not change data or position. -/
theorem display_same (q : Quick V) (i : Option Int) : (q.display i).1.data = q.data ∧ (q.display i).1.index = q.index ∧
    (q.data = none → (q.display i).1.shown = q.shown) := by
  unfold Quick.display
  simp only
  split
  · exact ⟨rfl, rfl, fun _ => rfl⟩
  · split
    · next a ha hj => exact ⟨rfl, rfl, fun h => by rw [h] at ha; simp at ha⟩
    · exact ⟨rfl, rfl, fun _ => rfl⟩

theorem almost_display {q : Quick V} (i : Option Int) (h : Spec.AlmostValid q) : Spec.AlmostValid (q.display i).1 := by
  obtain ⟨d1, d2, d3⟩ := display_same q i
  unfold Spec.AlmostValid at h ⊢
  rw [d1, d2]
  refine ⟨h.1, fun hn => ?_⟩
  rw [d3 hn]
  exact h.2 hn

theorem almost_step {q : Quick V} (op : QOp V) (h : Spec.AlmostValid q) : Spec.AlmostValid (q.step op).1 := by
  cases op with
  | display i => exact almost_display i h
  | setPos pos =>
    simp only [Quick.step, Quick.setPos]
    split
    · exact h
    · next a ha =>
      split
      · next hp =>
        refine ⟨fun b hb => ?_, fun hn => by simp [ha] at hn⟩
        simp only [ha, Option.some.injEq] at hb
        subst hb
        have := (h.1 a ha).1
        unfold QArr.len at hp
        exact ⟨this, hp.1, by simp only; omega⟩
      · exact h
  | next =>
    simp only [Quick.step, Quick.next]
    split
    · exact h
    · next a ha =>
      split
      · next hp =>
        apply almost_display
        refine ⟨fun b hb => ?_, fun hn => by simp [ha] at hn⟩
        simp only [ha, Option.some.injEq] at hb
        subst hb
        obtain ⟨h1, h2, h3⟩ := h.1 a ha
        unfold QArr.len at hp
        exact ⟨h1, by simp only; omega, by simp only; omega⟩
      · exact h
  | prev =>
    simp only [Quick.step, Quick.prev]
    split
    · next hp =>
      apply almost_display
      refine ⟨fun b hb => ?_, fun hn => ?_⟩
      · obtain ⟨h1, h2, h3⟩ := h.1 b hb
        exact ⟨h1, by simp only; omega, by simp only; omega⟩
      · have := (h.2 hn).1
        omega
    · exact h
  | setData arg =>
    simp only [Quick.step]
    cases arg with
    | none => exact h
    | other b => exact h
    | array a =>
      simp only [Quick.setData]
      split
      · exact h
      · next hl =>
        apply almost_display
        refine ⟨fun b hb => ?_, fun hn => by simp at hn⟩
        simp only [Option.some.injEq] at hb
        subst hb
        exact ⟨by simpa using hl, le_refl _, by simp only; omega⟩

/-- C84, which holds as far as this: whatever is done, the position refers to an image or is just after the last one. Missing: the second
case. -/
theorem quick_position_partial (ops : List (QOp V)) : Spec.AlmostValid (Quick.new.run ops).1 := by
  have gen : ∀ (ops : List (QOp V)) (q : Quick V), Spec.AlmostValid q → Spec.AlmostValid (q.run ops).1 := by
    intro ops
    induction ops with
    | nil => exact fun q h => h
    | cons op ops ih => exact fun q h => ih _ (almost_step op h)
  exact gen ops _ ⟨fun a h => by simp [Quick.new] at h, fun _ => ⟨rfl, rfl⟩⟩

theorem display_ok {q : Quick V} {i : Option Int} (h : (q.display i).2 ≠ .error .index) (a : QArr V) (ha : q.data = some a) :
    let j := i.getD q.index
    (-(a.len : Int) ≤ j ∧ j < a.len) ∧ (q.display i).2 = .ok () ∧
      (q.display i).1.shown = some (a.frame (wrapIndex j a.len).toNat) ∧ (q.display i).1.title = some j := by
  unfold Quick.display at h ⊢
  rw [ha] at h ⊢
  simp only at h ⊢
  by_cases hj : 0 ≤ wrapIndex (i.getD q.index) a.len ∧ wrapIndex (i.getD q.index) a.len < a.len
  · rw [if_pos hj]
    refine ⟨?_, rfl, rfl, rfl⟩
    unfold wrapIndex at hj
    split at hj <;> omega
  · rw [if_neg hj] at h
    exact absurd rfl h

theorem valid_step {q : Quick V} (op : QOp V) (h : Spec.Valid q) (hr : (q.step op).2 ≠ .error .index) :
    Spec.Valid (q.step op).1 := by
  cases op with
  | display i =>
    simp only [Quick.step]
    intro a had
    obtain ⟨d1, d2, -⟩ := display_same q i
    rw [d1] at had
    rw [d2]
    exact h a had
  | setPos pos =>
    simp only [Quick.step, Quick.setPos]
    split
    · exact h
    · next a had =>
      split
      · next hp =>
        intro b hb
        simp only [had, Option.some.injEq] at hb
        subst hb
        exact hp
      · exact h
  | next =>
    simp only [Quick.step, Quick.next] at hr ⊢
    split
    · exact h
    · next a had =>
      simp only [had] at hr
      split
      · next hp =>
        rw [if_pos hp] at hr
        intro b hb
        obtain ⟨d1, d2, -⟩ := display_same { q with index := q.index + 1 } (none : Option Int)
        rw [d1] at hb
        rw [d2]
        simp only [had, Option.some.injEq] at hb
        subst hb
        obtain ⟨o, -⟩ := display_ok hr a rfl
        simp only [Option.getD_none] at o
        have := (h a had).1
        unfold QArr.len at o
        exact ⟨by simp only; omega, o.2⟩
      · exact h
  | prev =>
    simp only [Quick.step, Quick.prev]
    split
    · next hp =>
      intro b hb
      obtain ⟨d1, d2, -⟩ := display_same { q with index := q.index - 1 } (none : Option Int)
      rw [d1] at hb
      rw [d2]
      have := h b hb
      simp only
      omega
    · exact h
  | setData arg =>
    simp only [Quick.step] at hr ⊢
    cases arg with
    | none => exact h
    | other b => exact h
    | array a =>
      simp only [Quick.setData] at hr ⊢
      split
      · exact h
      · next hl =>
        rw [if_neg hl] at hr
        intro b hb
        obtain ⟨d1, d2, -⟩ := display_same { q with data := some a, index := 0 } (none : Option Int)
        rw [d1] at hb
        rw [d2]
        simp only [Option.some.injEq] at hb
        subst hb
        obtain ⟨o, -⟩ := display_ok hr a rfl
        exact ⟨le_refl _, o.2⟩

/-- C84, which holds when no operation raised IndexError: the position refers to an image. -/
theorem quick_valid_partial (ops : List (QOp V)) (h : Except.error PyErr.index ∉ (Quick.new.run ops).2) : Spec.Valid (Quick.new.run ops).1 := by
  have gen : ∀ (ops : List (QOp V)) (q : Quick V), Spec.AlmostValid q → Spec.Valid q → Except.error PyErr.index ∉ (q.run ops).2 → Spec.Valid (q.run ops).1 := by
    intro ops
    induction ops with
    | nil => exact fun q _ h _ => h
    | cons op ops ih =>
      intro q ha hv hr
      simp only [Quick.run, List.mem_cons, not_or] at hr
      exact ih _ (almost_step op ha) (valid_step op hv (Ne.symm hr.1)) hr.2
  exact gen ops _ ⟨fun a h => by simp [Quick.new] at h, fun _ => ⟨rfl, rfl⟩⟩ (fun a h => by simp [Quick.new] at h) h

/-- C84: an operation which changes the position and raises nothing shows the image at the new position. -/
theorem quick_shows (ops : List (QOp V)) (op : QOp V) (hop : ∀ i, op ≠ .display i) (a : QArr V)
    (hd : ((Quick.new.run ops).1.step op).1.data = some a)
    (hok : ((Quick.new.run ops).1.step op).2 = .ok ()) (hmoved : ((Quick.new.run ops).1.step op).1.index ≠ (Quick.new.run ops).1.index ∨ ∃ arg, op = .setData arg) :
    ((Quick.new.run ops).1.step op).1.shown = some (a.frame ((Quick.new.run ops).1.step op).1.index.toNat) ∧
      ((Quick.new.run ops).1.step op).1.title = some ((Quick.new.run ops).1.step op).1.index := by
  have hal := quick_position_partial ops
  generalize (Quick.new.run ops).1 = q at hal hd hok hmoved
  have key : ∀ (q : Quick V) (a : QArr V), q.data = some a → 0 ≤ q.index → (q.display none).2 = .ok () →
      (q.display none).1.shown = some (a.frame (q.display none).1.index.toNat) ∧ (q.display none).1.title = some (q.display none).1.index := by
    intro q a ha h0 hok
    obtain ⟨-, -, h3, h4⟩ := display_ok (i := none) (by rw [hok]; simp) a ha
    rw [(display_same q none).2.1]
    simp only [Option.getD_none] at h3 h4
    unfold wrapIndex at h3
    rw [if_neg (by omega)] at h3
    exact ⟨h3, h4⟩
  cases op with
  | display i => exact absurd rfl (hop i)
  | setPos pos =>
    simp only [Quick.step, Quick.setPos] at hok hmoved hd ⊢
    split at hok
    · next hn => simp [hn] at hmoved
    · split at hok <;> simp at hok
  | next =>
    simp only [Quick.step, Quick.next] at hok hmoved hd ⊢
    cases hn : q.data with
    | none => simp [hn] at hok
    | some b =>
      simp only [hn] at hok hmoved hd ⊢
      by_cases hi : q.index < b.len
      · simp only [if_pos hi] at hok hd ⊢
        rw [(display_same _ _).1] at hd
        have := (hal.1 b hn).2.1
        exact key _ a hd (by simp only; omega) hok
      · simp [if_neg hi] at hmoved
  | prev =>
    simp only [Quick.step, Quick.prev] at hok hmoved hd ⊢
    by_cases hi : q.index > 0
    · simp only [if_pos hi] at hok hd ⊢
      rw [(display_same _ _).1] at hd
      exact key _ a hd (by simp only; omega) hok
    · simp [if_neg hi] at hmoved
  | setData arg =>
    simp only [Quick.step] at hok hd ⊢
    cases arg with
    | none => simp [Quick.setData] at hok
    | other b => simp [Quick.setData] at hok
    | array b =>
      simp only [Quick.setData] at hok hd ⊢
      by_cases hl : b.shape.length ≠ 3
      · simp [if_pos hl] at hok
      · simp only [if_neg hl] at hok hd ⊢
        rw [(display_same _ _).1] at hd
        exact key _ a hd (le_refl _) hok

/-- C84: `display(i)` shows image `i`, and `display(i - n)` too where `n` is the number of images, with the number given as the title; other
numbers raise IndexError and change nothing. The position stays as it is. -/
theorem quick_display (q : Quick V) (a : QArr V) (hd : q.data = some a) :
    (∀ k : Nat, k < a.len → q.display (some k) = ({ q with shown := some (a.frame k), title := some k }, .ok ()) ∧
      q.display (some (k - a.len)) = ({ q with shown := some (a.frame k), title := some (k - a.len) }, .ok ())) ∧
    (∀ i : Int, i < -a.len ∨ a.len ≤ i → q.display (some i) = (q, .error .index)) := by
  refine ⟨fun k hk => ⟨?_, ?_⟩, fun i hi => ?_⟩
  · simp only [Quick.display, hd, Option.getD_some]
    rw [show wrapIndex (k : Int) a.len = k from if_neg (by omega), if_pos (by omega), Int.toNat_natCast]
  · simp only [Quick.display, hd, Option.getD_some]
    rw [show wrapIndex ((k : Int) - a.len) a.len = k by unfold wrapIndex; rw [if_pos (by omega)]; omega, if_pos (by omega), Int.toNat_natCast]
  · simp only [Quick.display, hd, Option.getD_some]
    rw [if_neg (by unfold wrapIndex; split <;> omega)]

/-- C84: from any position which was reached and is not the first, `prev` shows the image before. -/
theorem quick_prev (ops : List (QOp V)) (q : Quick V) (h : (Quick.new.run ops).1 = q) (hpos : 0 < q.index) :
    ∃ a, q.data = some a ∧ q.prev.2 = .ok () ∧ q.prev.1.index = q.index - 1 ∧ q.prev.1.shown = some (a.frame (q.index - 1).toNat) := by
  have hal := quick_position_partial ops
  rw [h] at hal
  cases hd : q.data with
  | none =>
    have := (hal.2 hd).1
    omega
  | some a =>
    obtain ⟨-, h2, h3⟩ := hal.1 a hd
    refine ⟨a, rfl, ?_⟩
    unfold Quick.prev Quick.display
    rw [if_pos hpos]
    simp only [hd, Option.getD_none]
    have hw : wrapIndex (q.index - 1) a.len = q.index - 1 := if_neg (by omega)
    simp only [hw]
    rw [if_pos (by unfold QArr.len; omega)]
    exact ⟨rfl, rfl, rfl⟩

/-- C84: from an image which is not the last, `next` shows the one after it; at the first image `prev` does nothing. -/
theorem quick_next (q : Quick V) (a : QArr V) (hd : q.data = some a) (h0 : 0 ≤ q.index) :
    (q.index + 1 < a.shape.headD 0 → q.next.2 = .ok () ∧ q.next.1.index = q.index + 1 ∧ q.next.1.shown = some (a.frame (q.index + 1).toNat)) ∧
    (q.index = 0 → q.prev = (q, .ok ())) := by
  constructor
  · intro h
    unfold Quick.next Quick.display
    simp only [hd]
    rw [if_pos (by unfold QArr.len; omega)]
    simp only [hd, Option.getD_none]
    have hw : wrapIndex (q.index + 1) a.len = q.index + 1 := if_neg (by omega)
    simp only [hw]
    rw [if_pos (by unfold QArr.len; omega)]
    exact ⟨rfl, rfl, rfl⟩
  · intro h
    unfold Quick.prev
    rw [if_neg (by omega)]

/-- C84: setting the position (as documented) always raises: AttributeError for an image which exists, otherwise ValueError; the image is not
shown. -/
theorem quick_pos_wrong (q : Quick V) (a : QArr V) (hd : q.data = some a) (pos : Int) :
    (0 ≤ pos ∧ pos < a.shape.headD 0 → (q.setPos pos) = ({ q with index := pos }, .error .attribute)) ∧
    (¬ (0 ≤ pos ∧ pos < a.shape.headD 0) → (q.setPos pos) = (q, .error .value)) := by
  unfold Quick.setPos
  rw [hd]
  constructor
  · intro h
    exact if_pos h
  · intro h
    exact if_neg h

/-- C84: making a `QuickView` with an array of more than one number (as documented) raises ValueError; without data, the data can be set. -/
theorem quick_init_wrong (a : QArr V) (h : 1 < a.shape.prod) : (Quick.init (.array a)).2 = .error .value ∧
    (Quick.init (.none : QArg V)) = (.new, .ok ()) := by
  constructor
  · unfold Quick.init QArg.truth
    simp only
    rw [if_neg (by omega), if_neg (by omega)]
  · rfl

/-- C84: setting data which are not an array of three dimensions: TypeError, and nothing changes; otherwise the first image is shown, or
there is none. -/
theorem quick_data (q : Quick V) (a : QArr V) :
    q.setData .none = (q, .error .type) ∧ (∀ b, q.setData (.other b) = (q, .error .type)) ∧
    (a.shape.length ≠ 3 → q.setData (.array a) = (q, .error .type)) ∧
    (a.shape.length = 3 → 0 < a.shape.headD 0 → q.setData (.array a) = (⟨some a, 0, some (a.frame 0), some 0⟩, .ok ())) ∧
    (a.shape.length = 3 → a.shape.headD 0 = 0 → q.setData (.array a) = ({ q with data := some a, index := 0 }, .error .index)) := by
  refine ⟨rfl, fun _ => rfl, fun h => by simp only [Quick.setData, if_pos h], fun h hp => ?_, fun h hp => ?_⟩
  · simp only [Quick.setData]
    rw [if_neg (by simp [h])]
    simp only [Quick.display, Option.getD_none, wrapIndex, lt_irrefl, if_false]
    rw [if_pos ⟨le_refl _, by unfold QArr.len; omega⟩]
    rfl
  · simp only [Quick.setData]
    rw [if_neg (by simp [h])]
    simp only [Quick.display, Option.getD_none, wrapIndex, lt_irrefl, if_false]
    rw [if_neg (by unfold QArr.len; omega)]

/-- C84: what the constructor does with any argument: nothing for arguments which are false, for an array of one number which is true the
same as setting the data, and ValueError for longer arrays. -/
theorem quick_init (arg : QArg V) :
    (arg = .none ∨ arg = .other false ∨ (∃ a, arg = .array a ∧ (a.shape.prod = 0 ∨ a.shape.prod = 1 ∧ a.single = false)) →
      Quick.init arg = (.new, .ok ())) ∧
    (arg = .other true → Quick.init arg = (.new, .error .type)) ∧
    (∀ a, arg = .array a → a.shape.prod = 1 → a.single = true → Quick.init arg = Quick.new.setData (.array a)) ∧
    (∀ a, arg = .array a → 1 < a.shape.prod → Quick.init arg = (.new, .error .value)) := by
  refine ⟨?_, ?_, ?_, ?_⟩
  · rintro (rfl | rfl | ⟨a, rfl, h | ⟨h1, h2⟩⟩)
    · rfl
    · rfl
    · simp [Quick.init, QArg.truth, h]
    · simp [Quick.init, QArg.truth, h1, h2]
  · rintro rfl
    rfl
  · rintro a rfl h1 h2
    simp [Quick.init, QArg.truth, h1, h2]
  · rintro a rfl h
    unfold Quick.init QArg.truth
    simp only
    rw [if_neg (by omega), if_neg (by omega)]

/-- C84: without data there is nothing to show: `display` raises TypeError and `next` AttributeError, setting `pos` is ignored; in all
cases nothing changes. -/
theorem quick_without_data (q : Quick V) (h : q.data = none) :
    (∀ i, q.display i = (q, .error .type)) ∧ q.next = (q, .error .attribute) ∧ ∀ pos, q.setPos pos = (q, .ok ()) := by
  refine ⟨fun i => ?_, ?_, fun pos => ?_⟩
  · simp [Quick.display, h]
  · simp [Quick.next, h]
  · simp [Quick.setPos, h]

/-- Three images, numbered 10, 11, 12. -/
def Spec.threeImages : QArr Nat := ⟨[3, 2, 2], fun i => 10 + i, false⟩

/-- A history without IndexError (quick_valid_partial, quick_shows, quick_prev, quick_next): it ends at the second image. -/
example : (Quick.new.run [.setData (.array Spec.threeImages), .next, .next, .prev]) =
    (⟨some Spec.threeImages, 1, some 11, some 1⟩, [.ok (), .ok (), .ok (), .ok ()]) := rfl

/-- Not vacuous: the last of three images. -/
example : ((Quick.new.setData (.array Spec.threeImages)).1.display (some (-1))).1.shown = some (Spec.threeImages.frame 2) := rfl

/-- quick_init_wrong, quick_data: the array has 12 numbers and three dimensions. -/
example : 1 < Spec.threeImages.shape.prod ∧ Spec.threeImages.shape.length = 3 := by decide

/-- quick_init: an array of one number which is not zero. -/
example : (Quick.init (.array (⟨[1, 1, 1], fun _ => 5, true⟩ : QArr Nat))).2 = .ok () := rfl

/-- quick_without_data: a new one has no data. -/
example : (Quick.new : Quick Nat).data = none := rfl

/-- quick_pos_wrong: setting the position to the third image. -/
example : ((Quick.new.setData (.array Spec.threeImages)).1.setPos 2).2 = .error .attribute := rfl

end KD
