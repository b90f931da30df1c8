/-
C143: an output array can be used again and again for assembling images.
-/
import Verif.Props.Images

namespace KD.Geo

variable {V : Type} {K : Type} [Field K] [LinearOrder K] [IsStrictOrderedRing K] [FloorRing K]

theorem tileOf_lt16 {d : Det} {i j : Nat} (hi : i < (Spec.shape d).2.1) (hj : j < (Spec.shape d).2.2) : Spec.tileOf d i j < 16 := by
  cases d <;> simp only [Spec.shape, Spec.tileOf] at * <;> first | omega | (split <;> omega)

omit [IsStrictOrderedRing K] [FloorRing K] in
/-- Of the pixels which cover a cell, one is in the last tile. -/
theorem last_cover {g : Geom K} {px : K × K} {yx : Int × Int} (h : ∃ m i j, Spec.Covers g px m i j yx) :
    ∃ m i j, Spec.Covers g px m i j yx ∧
      ∀ m' i' j', Spec.Later m (Spec.tileOf g.det i j) m' (Spec.tileOf g.det i' j') → ¬ Spec.Covers g px m' i' j' yx := by
  have key : ∀ n m i j, Spec.Covers g px m i j yx → 16 * g.modules.length - (16 * m + Spec.tileOf g.det i j) ≤ n →
      ∃ m i j, Spec.Covers g px m i j yx ∧
        ∀ m' i' j', Spec.Later m (Spec.tileOf g.det i j) m' (Spec.tileOf g.det i' j') → ¬ Spec.Covers g px m' i' j' yx := by
    have hbound : ∀ m i j, Spec.Covers g px m i j yx → 16 * m + Spec.tileOf g.det i j < 16 * g.modules.length ∧ Spec.tileOf g.det i j < 16 := by
      intro m i j hc
      obtain ⟨h1, h2, f, c, ss, fs, ⟨mod, hm, -⟩, -⟩ := hc
      have := (List.getElem?_eq_some_iff.1 hm).1
      have := tileOf_lt16 h1 h2
      omega
    intro n
    induction n with
    | zero => intro m i j hc hn; have := hbound m i j hc; omega
    | succ n ih =>
      intro m i j hc hn
      by_cases hl : ∃ m' i' j', Spec.Later m (Spec.tileOf g.det i j) m' (Spec.tileOf g.det i' j') ∧ Spec.Covers g px m' i' j' yx
      · obtain ⟨m', i', j', hl, hc'⟩ := hl
        refine ih m' i' j' hc' ?_
        have b1 := hbound m i j hc
        have b2 := hbound m' i' j' hc'
        rcases hl with hl | ⟨rfl, hl⟩ <;> omega
      · exact ⟨m, i, j, hc, fun m' i' j' h1 h2 => hl ⟨m', i', j', h1, h2⟩⟩
  obtain ⟨m, i, j, hc⟩ := h
  exact key _ m i j hc le_rfl

omit [IsStrictOrderedRing K] [FloorRing K] in
/-- What is in an image at a cell: a pixel of the data, the same one whatever was there before, or what was there before. -/
theorem assembled_same {g : Geom K} {px : K × K} {data : Stack V} {start start' img img' : Plane V} {c : Int × Int}
    (h : Spec.Assembled g px data start img c) (h' : Spec.Assembled g px data start' img' c)
    (hs : start'.h = start.h ∧ start'.w = start.w)
    (hrest : ∀ y x : Nat, y < start.h → x < start.w → (∀ m i j, ¬ Spec.Covers g px m i j ((y : Int) - c.1, (x : Int) - c.2)) →
      start'.get y x = start.get y x) : Spec.Same img' img := by
  refine ⟨by rw [h'.height, h.height, hs.1], by rw [h'.width, h.width, hs.2], ?_⟩
  intro y x hy hx
  have hy0 : y < start.h := by rw [h'.height, hs.1] at hy; exact hy
  have hx0 : x < start.w := by rw [h'.width, hs.2] at hx; exact hx
  by_cases hc : ∃ m i j, Spec.Covers g px m i j ((y : Int) - c.1, (x : Int) - c.2)
  · obtain ⟨m, i, j, h1, h2⟩ := last_cover hc
    rw [h.shown m i j y x h1 h2, h'.shown m i j y x h1 h2]
  · have hn : ∀ m i j, ¬ Spec.Covers g px m i j ((y : Int) - c.1, (x : Int) - c.2) := fun m i j hm => hc ⟨m, i, j, hm⟩
    rw [h.rest y x (by rw [h.height]; exact hy0) (by rw [h.width]; exact hx0) hn, h'.rest y x hy hx hn, hrest y x hy0 hx0 hn]

/-- Whatever succeeds with a given array has data of the right shape, an array of the right shape and a safe conversion. -/
theorem assemble_out_ok {g : Geom K} {rowStep : K} {safe : Nat → Nat → Bool} {nan : Nat → V} {data : Stack V} {dt : Nat}
    {out img : Plane V} {c : Int × Int} (hC : Spec.Complete g) (hS : Spec.RightSize g) (hA : Spec.AllSnap g (g.det.pixelShape rowStep))
    (h : g.positionFast rowStep safe nan data (some (dt, out)) = .ok (img, c)) :
    (data.n, data.h, data.w) = Spec.shape g.det ∧ safe data.dtype dt = true ∧ Spec.Assembled g (g.det.pixelShape rowStep) data out img c ∧
      ∃ s, g.snapped rowStep = .ok s ∧ ((out.h : Int), (out.w : Int)) = s.size ∧ c = s.centre := by
  obtain ⟨mods, s, -, -, hs, hs1, hs2⟩ := snapped_succeeds hC hA
  have he : g.outputFast rowStep (nan 0) = .ok (s.output (nan 0)) := by unfold Geom.outputFast; rw [hs]
  by_cases hd : (data.n, data.h, data.w) = Spec.shape g.det
  · obtain ⟨b1, b2⟩ := assemble_bad_out g rowStep safe nan data (nan 0) _ he hd dt out hC hA
    by_cases ho : out.h = (s.output (nan 0)).h ∧ out.w = (s.output (nan 0)).w
    · cases hsafe : safe data.dtype dt with
      | false => rw [b2 ho hsafe] at h; simp at h
      | true =>
        obtain ⟨img', c', e1, e2⟩ := assemble_out g rowStep safe nan data hC hS hA hd (nan 0) _ he dt out ho hsafe
        obtain ⟨rfl, rfl⟩ := Prod.mk.inj (Except.ok.inj (h.symm.trans e1))
        refine ⟨hd, rfl, e2, s, hs, ?_, ?_⟩
        · simp only [Snapped.output] at ho
          apply Prod.ext
          · simp only; omega
          · simp only; omega
        · unfold Geom.positionFast Snapped.positionModules at h
          rw [hs] at h
          simp only at h
          split at h
          · split at h
            · simp at h
            · split at h
              · simp at h
              · exact ((Prod.mk.inj (Except.ok.inj h)).2).symm
          · simp at h
    · rw [b1 ho] at h; simp at h
  · rw [assemble_bad_data g rowStep safe nan data _ hC hd] at h; simp at h

/-- C143. Any number of images is assembled into one array, one after the other. Then assembling into it shows exactly what
assembling the last data into the array as it was at first would show: nothing of the earlier images remains. -/
theorem reuse_output (g : Geom K) (rowStep : K) (safe : Nat → Nat → Bool) (nan : Nat → V) (hC : Spec.Complete g) (hS : Spec.RightSize g)
    (hA : Spec.AllSnap g (g.det.pixelShape rowStep)) {dt : Nat} {out used : Plane V} {before : List (Stack V)}
    (hb : foldE (fun o d => (g.positionFast rowStep safe nan d (some (dt, o))).map Prod.fst) out before = .ok used) (data : Stack V) :
    (∀ e, g.positionFast rowStep safe nan data (some (dt, used)) = .error e ↔
      g.positionFast rowStep safe nan data (some (dt, out)) = .error e) ∧
    ∀ img c, g.positionFast rowStep safe nan data (some (dt, used)) = .ok (img, c) →
      ∃ img', g.positionFast rowStep safe nan data (some (dt, out)) = .ok (img', c) ∧ Spec.Same img img' := by
  obtain ⟨mods, s, -, -, hs, hs1, hs2⟩ := snapped_succeeds hC hA
  have he : g.outputFast rowStep (nan 0) = .ok (s.output (nan 0)) := by unfold Geom.outputFast; rw [hs]
  have hinv : used.h = out.h ∧ used.w = out.w ∧ ∀ y x : Nat, y < out.h → x < out.w →
      (∀ m i j, ¬ Spec.Covers g (g.det.pixelShape rowStep) m i j ((y : Int) - s.centre.1, (x : Int) - s.centre.2)) →
      used.get y x = out.get y x := by
    clear data
    induction before generalizing out with
    | nil =>
      simp only [foldE, Except.ok.injEq] at hb
      subst hb
      exact ⟨rfl, rfl, fun _ _ _ _ _ => rfl⟩
    | cons d l ih =>
      simp only [foldE] at hb
      cases h1 : g.positionFast rowStep safe nan d (some (dt, out)) with
      | error e => rw [h1] at hb; simp [Except.map] at hb
      | ok r =>
        rw [h1] at hb
        simp only [Except.map] at hb
        obtain ⟨-, -, ha, s', hs', -, hc⟩ := assemble_out_ok hC hS hA h1
        obtain rfl := Except.ok.inj (hs.symm.trans hs')
        obtain ⟨i1, i2, i3⟩ := ih hb
        refine ⟨by rw [i1, ha.height], by rw [i2, ha.width], ?_⟩
        intro y x hy hx hn
        rw [i3 y x (by rw [ha.height]; exact hy) (by rw [ha.width]; exact hx) hn]
        exact ha.rest y x (by rw [ha.height]; exact hy) (by rw [ha.width]; exact hx) (by rw [hc]; exact hn)
  obtain ⟨i1, i2, i3⟩ := hinv
  by_cases hd : (data.n, data.h, data.w) = Spec.shape g.det
  · obtain ⟨b1, b2⟩ := assemble_bad_out g rowStep safe nan data (nan 0) _ he hd dt out hC hA
    obtain ⟨c1, c2⟩ := assemble_bad_out g rowStep safe nan data (nan 0) _ he hd dt used hC hA
    rw [i1, i2] at c1 c2
    by_cases ho : out.h = (s.output (nan 0)).h ∧ out.w = (s.output (nan 0)).w
    · cases hsafe : safe data.dtype dt with
      | false => rw [b2 ho hsafe, c2 ho hsafe]; simp
      | true =>
        obtain ⟨img1, k1, e1, f1⟩ := assemble_out g rowStep safe nan data hC hS hA hd (nan 0) _ he dt out ho hsafe
        obtain ⟨img2, k2, e2, f2⟩ := assemble_out g rowStep safe nan data hC hS hA hd (nan 0) _ he dt used (by rw [i1, i2]; exact ho) hsafe
        obtain ⟨-, -, -, s', hs', -, q1⟩ := assemble_out_ok hC hS hA e1
        obtain rfl := Except.ok.inj (hs.symm.trans hs')
        obtain ⟨-, -, -, s', hs', -, q2⟩ := assemble_out_ok hC hS hA e2
        obtain rfl := Except.ok.inj (hs.symm.trans hs')
        subst q1 q2
        rw [e1, e2]
        refine ⟨by simp, ?_⟩
        intro img c h
        obtain ⟨rfl, rfl⟩ := Prod.mk.inj (Except.ok.inj h)
        exact ⟨img1, rfl, assembled_same f1 f2 ⟨i1, i2⟩ i3⟩
    · rw [b1 ho, c1 ho]; simp
  · rw [assemble_bad_data g rowStep safe nan data _ hC hd, assemble_bad_data g rowStep safe nan data _ hC hd]; simp

omit [IsStrictOrderedRing K] in
theorem snapped_size {g : Geom K} {rowStep : K} {s : Snapped} (h : g.snapped rowStep = .ok s) : 0 ≤ s.size.1 ∧ 0 ≤ s.size.2 := by
  unfold Geom.snapped at h
  split at h
  · simp at h
  · obtain ⟨-, -, h1, ⟨m, hm, g, hg, c, hc, h2⟩, ⟨m', hm', g', hg', c', hc', h3⟩, -⟩ := box_tight h
    have a := h1 m hm g hg c hc
    have b := h1 m' hm' g' hg' c' hc'
    omega

omit [IsStrictOrderedRing K] in
/-- C143. An array made by `output_array_for_position_fast`, of the dtype of the data, is as good as none: the image is
the same. -/
theorem output_as_new (g : Geom K) (rowStep : K) (safe : Nat → Nat → Bool) (nan : Nat → V) (data : Stack V)
    (hsafe : safe data.dtype data.dtype = true) {out : Plane V} (ho : g.outputFast rowStep (nan data.dtype) = .ok out) :
    g.positionFast rowStep safe nan data (some (data.dtype, out)) = g.positionFast rowStep safe nan data none := by
  unfold Geom.outputFast at ho
  unfold Geom.positionFast
  cases hs : g.snapped rowStep with
  | error e => rfl
  | ok s =>
    rw [hs] at ho
    obtain rfl := Except.ok.inj ho
    unfold Snapped.positionModules
    have : (((s.output (nan data.dtype)).h : Int), ((s.output (nan data.dtype)).w : Int)) = s.size := by
      have := snapped_size hs
      apply Prod.ext
      · simp only [Snapped.output]; omega
      · simp only [Snapped.output]; omega
    simp only [if_pos this, if_pos hsafe]

/-- The usual LPD geometry meets the hypotheses: after one train, its array of images can be used for the next. -/
example : ∃ g : Geom ℚ, Spec.Complete g ∧ Spec.RightSize g ∧ Spec.AllSnap g (g.det.pixelShape 1) ∧
    ∃ out used, g.outputFast 1 (98 : Nat) = .ok out ∧
      foldE (fun o d => (g.positionFast 1 (fun _ _ => true) (fun _ => 98) d (some (0, o))).map Prod.fst) out
        [⟨0, 16, 256, 256, fun m i j => m + i + j⟩, ⟨0, 16, 256, 256, fun _ _ _ => 5⟩] = .ok used ∧ ∃ y x, used.get y x = 5 := by
  obtain ⟨g, hg, hC, hS, hA, hno⟩ := exLpd_good
  have hdet : g.det = .lpd := by
    obtain ⟨g', h1, h2, -⟩ := lpd_quads (K := ℚ) [(114 / 10, 299), (-115 / 10, 8), (2545 / 10, -16), (2785 / 10, 275)] (1 / 1000) none none (by simp)
    obtain rfl := Except.ok.inj (hg.symm.trans h1)
    exact h2
  obtain ⟨mods, s, -, -, hs, hs1, hs2⟩ := snapped_succeeds hC hA
  have he : g.outputFast 1 (98 : Nat) = .ok (s.output 98) := by unfold Geom.outputFast; rw [hs]
  obtain ⟨img1, c1, e1, f1⟩ := assemble_out g 1 (fun _ _ => true) (fun _ => 98) ⟨0, 16, 256, 256, fun m i j => m + i + j⟩ hC hS hA
    (by rw [hdet]; rfl) 98 _ he 0 (s.output 98) ⟨rfl, rfl⟩ rfl
  obtain ⟨img2, c2, e2, f2⟩ := assemble_out g 1 (fun _ _ => true) (fun _ => 98) ⟨0, 16, 256, 256, fun _ _ _ => 5⟩ hC hS hA
    (by rw [hdet]; rfl) 98 _ he 0 img1 ⟨f1.height, f1.width⟩ rfl
  obtain ⟨yx, hc, -⟩ := pixel_has_cell hC hA (m := 2) (i := 7) (j := 8) (by rw [hdet]; decide) (by rw [hdet]; decide) (by rw [hdet]; decide)
  obtain ⟨y, x, -, -, -, -, hv⟩ := no_pixel_lost f2 hno hc
  refine ⟨g, hC, hS, hA, _, img2, he, ?_, y, x, hv⟩
  simp only [foldE, e1, e2, Except.map]

end KD.Geo
