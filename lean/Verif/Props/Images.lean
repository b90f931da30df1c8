/-
C141: many images are assembled at once as each of them by itself. C142: what the images of stacked detector data show.
-/
import Verif.Lemmas.Images
import Verif.Props.Assemble
import Verif.Props.Quads
import Verif.Props.Stacking

namespace KD.Geo

variable {V : Type} {K : Type} [Field K] [LinearOrder K] [IsStrictOrderedRing K] [FloorRing K]

theorem lastThree_append (lead : List Nat) (n h w : Nat) : lastThree (lead ++ [n, h, w]) = some (lead, n, h, w) := by
  simp [lastThree]

theorem lastTwo_append (lead : List Nat) (h w : Nat) : lastTwo (lead ++ [h, w]) = some (lead, h, w) := by
  simp [lastTwo]

theorem lastThree_some {shape lead : List Nat} {n h w : Nat} (hs : lastThree shape = some (lead, n, h, w)) : shape = lead ++ [n, h, w] := by
  unfold lastThree at hs
  split at hs
  · next w' h' n' rest he =>
    rw [← List.reverse_reverse shape, he]
    simp at hs
    obtain ⟨rfl, rfl, rfl, rfl⟩ := hs
    simp
  · simp at hs

theorem lastTwo_some {shape lead : List Nat} {h w : Nat} (hs : lastTwo shape = some (lead, h, w)) : shape = lead ++ [h, w] := by
  unfold lastTwo at hs
  split at hs
  · next w' h' rest he =>
    rw [← List.reverse_reverse shape, he]
    simp at hs
    obtain ⟨rfl, rfl, rfl⟩ := hs
    simp
  · simp at hs

theorem imageAt_fromPlane (dt : Nat) {lead l : List Nat} (hl : l.length = lead.length) (p : Plane (List Nat → V)) :
    Spec.imageAt (fromPlane dt lead p) l = p.map (fun v => v l) := by
  unfold Spec.imageAt fromPlane Plane.map
  simp only [Plane.mk.injEq]
  refine ⟨by simp [hl], by simp [hl], ?_⟩
  funext y x
  rw [← hl]
  simp

theorem modulesAt_eq {data : Arr V} {lead l : List Nat} {n h w : Nat} (hd : data.shape = lead ++ [n, h, w]) (hl : l.length = lead.length) :
    Spec.modulesAt data l = (⟨data.dtype, n, h, w, fun m i j l => data.get (l ++ [m, i, j])⟩ : Stack (List Nat → V)).map (fun v => v l) := by
  unfold Spec.modulesAt Stack.map
  simp only [Stack.mk.injEq]
  exact ⟨trivial, by simp [hd, hl], by simp [hd, hl], by simp [hd, hl], trivial⟩

omit [IsStrictOrderedRing K] in
/-- C141. Assembling data with leading dimensions into a new array: the image at each index is the one which is assembled
from the data at this index alone, or the same exception is raised. -/
theorem images_each (g : Geom K) (rowStep : K) (safe : Nat → Nat → Bool) (nan : Nat → V) {data : Arr V} {lead : List Nat} {n h w : Nat}
    (hd : data.shape = lead ++ [n, h, w]) {l : List Nat} (hl : l.length = lead.length) :
    (g.positionArray rowStep safe nan data none).map (fun r => (Spec.imageAt r.1 l, r.2)) =
      g.positionFast rowStep safe nan (Spec.modulesAt data l) none := by
  unfold Geom.positionArray Geom.positionFast
  cases g.snapped rowStep with
  | error e => rfl
  | ok s =>
    simp only [Snapped.positionArray, hd, lastThree_append]
    rw [modulesAt_eq hd hl]
    have := positionModules_map (fun v : List Nat → V => v l) s safe (fun dt _ => nan dt)
      ⟨data.dtype, n, h, w, fun m i j l => data.get (l ++ [m, i, j])⟩ none
    simp only [Option.map_none] at this
    rw [this]
    cases s.positionModules safe (fun dt _ => nan dt) (⟨data.dtype, n, h, w, fun m i j l => data.get (l ++ [m, i, j])⟩ : Stack (List Nat → V)) none with
    | error e => rfl
    | ok r => simp only [Except.map, imageAt_fromPlane _ hl]

omit [IsStrictOrderedRing K] in
/-- C141. The same for assembling into a given array of images. -/
theorem images_each_out (g : Geom K) (rowStep : K) (safe : Nat → Nat → Bool) (nan : Nat → V) {data out : Arr V} {lead : List Nat}
    {n h w hh ww : Nat} (hd : data.shape = lead ++ [n, h, w]) (ho : out.shape = lead ++ [hh, ww]) {l : List Nat}
    (hl : l.length = lead.length) :
    (g.positionArray rowStep safe nan data (some out)).map (fun r => (Spec.imageAt r.1 l, r.2)) =
      g.positionFast rowStep safe nan (Spec.modulesAt data l) (some (out.dtype, Spec.imageAt out l)) := by
  unfold Geom.positionArray Geom.positionFast
  cases g.snapped rowStep with
  | error e => rfl
  | ok s =>
    simp only [Snapped.positionArray, hd, ho, lastThree_append, lastTwo_append, if_true]
    rw [modulesAt_eq hd hl]
    have := positionModules_map (fun v : List Nat → V => v l) s safe (fun dt _ => nan dt)
      ⟨data.dtype, n, h, w, fun m i j l => data.get (l ++ [m, i, j])⟩ (some (out.dtype, ⟨hh, ww, fun y x l => out.get (l ++ [y, x])⟩))
    simp only [Option.map_some] at this
    have ho' : Spec.imageAt out l = (⟨hh, ww, fun y x l => out.get (l ++ [y, x])⟩ : Plane (List Nat → V)).map (fun v => v l) := by
      unfold Spec.imageAt Plane.map
      simp only [Plane.mk.injEq]
      exact ⟨by simp [ho, hl], by simp [ho, hl], trivial⟩
    rw [ho', this]
    cases s.positionModules safe (fun dt _ => nan dt) (⟨data.dtype, n, h, w, fun m i j l => data.get (l ++ [m, i, j])⟩ : Stack (List Nat → V))
        (some (out.dtype, ⟨hh, ww, fun y x l => out.get (l ++ [y, x])⟩)) with
    | error e => rfl
    | ok r => simp only [Except.map, imageAt_fromPlane _ hl]

omit [IsStrictOrderedRing K] in
/-- C141. The array which comes back has the leading dimensions of the data, and the dtype of the data or of the given array;
the data have three dimensions more, and a given array has the same leading dimensions. -/
theorem images_shape {g : Geom K} {rowStep : K} {safe : Nat → Nat → Bool} {nan : Nat → V} {data img : Arr V} {out : Option (Arr V)}
    {c : Int × Int} (h : g.positionArray rowStep safe nan data out = .ok (img, c)) :
    ∃ lead n m w hh ww, data.shape = lead ++ [n, m, w] ∧ img.shape = lead ++ [hh, ww] ∧
      (out = none → img.dtype = data.dtype) ∧ ∀ o, out = some o → img.dtype = o.dtype ∧ ∃ a b, o.shape = lead ++ [a, b] := by
  unfold Geom.positionArray at h
  cases hs : g.snapped rowStep with
  | error e => rw [hs] at h; simp at h
  | ok s =>
    rw [hs] at h
    simp only [Snapped.positionArray] at h
    cases h3 : lastThree data.shape with
    | none => rw [h3] at h; simp at h
    | some x =>
      obtain ⟨lead, n, m, w⟩ := x
      rw [h3] at h
      simp only at h
      cases out with
      | none =>
        simp only at h
        generalize s.positionModules _ _ _ _ = r at h
        cases r with
        | error e => simp [Except.map] at h
        | ok r =>
          simp only [Except.map, Except.ok.injEq, Prod.mk.injEq] at h
          obtain ⟨rfl, rfl⟩ := h
          exact ⟨lead, n, m, w, r.1.h, r.1.w, lastThree_some h3, rfl, fun _ => rfl, by simp⟩
      | some o =>
        simp only at h
        cases h2 : lastTwo o.shape with
        | none => rw [h2] at h; simp at h
        | some y =>
          obtain ⟨lead', a, b⟩ := y
          rw [h2] at h
          simp only at h
          by_cases hl : lead' = lead
          · rw [if_pos hl] at h
            generalize s.positionModules _ _ _ _ = r at h
            cases r with
            | error e => simp [Except.map] at h
            | ok r =>
              simp only [Except.map, Except.ok.injEq, Prod.mk.injEq] at h
              obtain ⟨rfl, rfl⟩ := h
              refine ⟨lead, n, m, w, r.1.h, r.1.w, lastThree_some h3, rfl, by simp, ?_⟩
              rintro o' ⟨⟩
              exact ⟨rfl, a, b, by rw [← hl]; exact lastTwo_some h2⟩
          · rw [if_neg hl] at h; simp at h

/-- C141. Arrays of other shapes are refused: data with fewer than three dimensions, and given arrays with other leading
dimensions than the data. -/
theorem images_refused (g : Geom K) (rowStep : K) (safe : Nat → Nat → Bool) (nan : Nat → V) (data : Arr V) (out : Option (Arr V))
    (hC : Spec.Complete g) (hA : Spec.AllSnap g (g.det.pixelShape rowStep))
    (h : data.shape.length < 3 ∨ ∃ o, out = some o ∧ ∀ a b, o.shape ≠ data.shape.take (data.shape.length - 3) ++ [a, b]) :
    g.positionArray rowStep safe nan data out = .error .assertion := by
  obtain ⟨mods, s, -, -, hs, -⟩ := snapped_succeeds hC hA
  unfold Geom.positionArray
  rw [hs]
  simp only [Snapped.positionArray]
  cases h3 : lastThree data.shape with
  | none => rfl
  | some x =>
    obtain ⟨lead, n, m, w⟩ := x
    have hd := lastThree_some h3
    simp only
    rcases h with h | ⟨o, rfl, ho⟩
    · rw [hd] at h
      simp at h
    · simp only
      cases h2 : lastTwo o.shape with
      | none => rfl
      | some y =>
        obtain ⟨lead', a, b⟩ := y
        simp only
        rw [if_neg]
        rintro rfl
        refine ho a b ?_
        rw [lastTwo_some h2, hd]
        simp

omit [IsStrictOrderedRing K] in
/-- C141. `output_array_for_position_fast` makes an array which can be given for the data of these leading dimensions: all
its images are the one which it makes without them. -/
theorem output_array (g : Geom K) (rowStep : K) (extra : List Nat) (dt : Nat) (nan : V) :
    (∀ e, g.outputArray rowStep extra dt nan = .error e ↔ g.outputFast rowStep nan = .error e) ∧
    ∀ o, g.outputArray rowStep extra dt nan = .ok o → ∃ p, g.outputFast rowStep nan = .ok p ∧ o.dtype = dt ∧
      o.shape = extra ++ [p.h, p.w] ∧ ∀ l, l.length = extra.length → Spec.imageAt o l = p := by
  unfold Geom.outputArray Geom.outputFast
  cases g.snapped rowStep with
  | error e => simp
  | ok s =>
    refine ⟨by simp, ?_⟩
    intro o ho
    obtain rfl := Except.ok.inj ho
    refine ⟨_, rfl, rfl, rfl, ?_⟩
    intro l hl
    simp [Spec.imageAt, Snapped.outputArray, Snapped.output, Arr.full, hl]

/-- C142. The images of stacked detector data. All tiles fit on the grid without overlap; the data of one train have the pixels
of the detector (in the last two dimensions), some modules may be missing. Then `stack_detector_data` and
`position_modules_fast` give one image for each pulse. In each image the pixel of a module is where the geometry has it; the pixels
of modules without data have the fill value, and cells which no tile covers the value of new arrays. -/
theorem stacked_images (g : Geom K) (rowStep : K) (safe : Nat → Nat → Bool) (nan conv : Nat → V)
    {train : Dict Str (Dict Str (Arr V))} {key : Str} {dt h w : Nat} {lead : List Nat} (hC : Spec.Complete g) (hS : Spec.RightSize g)
    (hA : Spec.AllSnap g (g.det.pixelShape rowStep)) (hno : Spec.NoOverlap g (g.det.pixelShape rowStep))
    (hs : KD.Spec.Stackable train key 16 dt (lead ++ [h, w])) (hd : (16, h, w) = Spec.shape g.det) :
    ∃ stacked img c H W, stackDetector conv train key (-3) 16 = .ok stacked ∧
      g.positionArray rowStep safe nan stacked none = .ok (img, c) ∧ img.dtype = dt ∧ img.shape = lead ++ [H, W] ∧
      (∀ m i j yx, Spec.Covers g (g.det.pixelShape rowStep) m i j yx → ∃ y x : Nat, (y : Int) = yx.1 + c.1 ∧ (x : Int) = yx.2 + c.2 ∧
        y < H ∧ x < W ∧ ∀ l, l.length = lead.length →
          (∀ a, KD.Spec.DataOf train key m a → a.shape = lead ++ [h, w] → img.get (l ++ [y, x]) = a.get (l ++ [i, j])) ∧
          ((∀ a, KD.Spec.DataOf train key m a → a.shape ≠ lead ++ [h, w]) → img.get (l ++ [y, x]) = conv dt)) ∧
      ∀ y x : Nat, y < H → x < W → (∀ m i j, ¬ Spec.Covers g (g.det.pixelShape rowStep) m i j ((y : Int) - c.1, (x : Int) - c.2)) →
        ∀ l, l.length = lead.length → img.get (l ++ [y, x]) = nan dt := by
  obtain ⟨st, h1, h2, h3, h4⟩ := stack_places (conv := conv) (axis := -3) (k := lead.length) hs (Or.inr (by simp; omega)) (by simp)
  have hsh : st.shape = lead ++ [16, h, w] := by rw [h3]; simp
  have hone : ∀ l : List Nat, l.length = lead.length → ∃ p c, g.positionFast rowStep safe nan (Spec.modulesAt st l) none = .ok (p, c) ∧
      Spec.Assembled g (g.det.pixelShape rowStep) (Spec.modulesAt st l) ⟨p.h, p.w, fun _ _ => nan st.dtype⟩ p c := by
    intro l hl
    refine assemble_new g rowStep safe nan (Spec.modulesAt st l) hC hS hA ?_
    rw [← hd]
    simp [Spec.modulesAt, hsh, hl]
  have hall : ∀ l : List Nat, l.length = lead.length → ∃ r, g.positionArray rowStep safe nan st none = .ok r ∧
      Spec.Assembled g (g.det.pixelShape rowStep) (Spec.modulesAt st l)
        ⟨(Spec.imageAt r.1 l).h, (Spec.imageAt r.1 l).w, fun _ _ => nan st.dtype⟩ (Spec.imageAt r.1 l) r.2 := by
    intro l hl
    obtain ⟨p, c, e1, e2⟩ := hone l hl
    have he := images_each g rowStep safe nan hsh hl
    rw [e1] at he
    generalize hr : g.positionArray rowStep safe nan st none = r at he
    cases r with
    | error e => simp [Except.map] at he
    | ok r =>
      simp only [Except.map, Except.ok.injEq, Prod.mk.injEq] at he
      obtain ⟨rfl, rfl⟩ := he
      exact ⟨r, rfl, e2⟩
  obtain ⟨⟨img, c⟩, hr, -⟩ := hall lead rfl
  obtain ⟨lead', n', m', w', H, W, s1, s2, s3, -⟩ := images_shape hr
  have hl' : lead' = lead := by
    rw [hsh] at s1
    exact (List.append_inj' s1 rfl).1.symm
  subst hl'
  have has : ∀ l : List Nat, l.length = lead'.length → Spec.Assembled g (g.det.pixelShape rowStep) (Spec.modulesAt st l)
      ⟨H, W, fun _ _ => nan dt⟩ (Spec.imageAt img l) c := by
    intro l hl
    obtain ⟨r, hr', ha⟩ := hall l hl
    obtain rfl := Except.ok.inj (hr.symm.trans hr')
    have e1 : (Spec.imageAt img l).h = H := by simp [Spec.imageAt, s2, hl]
    have e2 : (Spec.imageAt img l).w = W := by simp [Spec.imageAt, s2, hl]
    simp only [e1, e2, h2] at ha
    exact ha
  refine ⟨st, img, c, H, W, h1, hr, by rw [s3 rfl, h2], s2, ?_, ?_⟩
  · intro m i j yx hc
    obtain ⟨y, x, y1, x1, y2, x2, -⟩ := no_pixel_lost (has lead' rfl) hno hc
    rw [(has lead' rfl).height] at y2
    rw [(has lead' rfl).width] at x2
    refine ⟨y, x, y1, x1, y2, x2, ?_⟩
    intro l hl
    obtain ⟨y', x', y1', x1', -, -, hv⟩ := no_pixel_lost (has l hl) hno hc
    obtain rfl : y' = y := by omega
    obtain rfl : x' = x := by omega
    have hm : m < 16 := by
      obtain ⟨-, -, f, cc, ss, fs, ⟨mod, hmod, -⟩, -⟩ := hc
      have := (List.getElem?_eq_some_iff.1 hmod).1
      rw [hC.1, ← hd] at this
      exact this
    have hv' : img.get (l ++ [y', x']) = st.get (l ++ m :: [i, j]) := hv
    rw [hv']
    exact h4 l m [i, j] hl hm
  · intro y x hy hx hn l hl
    have ha := has l hl
    exact ha.rest y x (by rw [ha.height]; exact hy) (by rw [ha.width]; exact hx) hn

/-- One train with 3 pulses: data for module 2, no pulses for module 5. -/
def exImages : Dict Str (Dict Str (Arr Nat)) :=
  [(ch! "LPD/DET/2CH0:xtdf", [(ch! "d", ⟨0, [3, 256, 256], fun idx => idx.foldl (fun a b => 1000 * a + b) 1⟩)]),
   (ch! "LPD/DET/5CH0:xtdf", [(ch! "d", ⟨0, [0, 256, 256], fun _ => 0⟩)])]

theorem exImages_stackable : KD.Spec.Stackable exImages (ch! "d") 16 0 ([3] ++ [256, 256]) := by
  have h : (stackDetectorView (fun _ => 99) exImages (ch! "d") (-3) 16).map (fun v => (v.modShape, v.dtype)) = Except.ok ([3, 256, 256], 0) := by rfl
  cases hv : stackDetectorView (fun _ => 99) exImages (ch! "d") (-3) 16 with
  | error e => rw [hv] at h; simp [Except.map] at h
  | ok v =>
    rw [hv] at h
    obtain ⟨dt, sh, ho⟩ := stackDetectorView_ok hv
    simp only [Except.map, Except.ok.injEq, Prod.mk.injEq] at h
    have e1 := ho.modShape
    have e2 := ho.dtype
    rw [h.1] at e1
    rw [h.2] at e2
    subst e1 e2
    exact ho.stackable

/-- The usual LPD geometry and this train meet the hypotheses: the images show the pixels of module 2. -/
example : ∃ g : Geom ℚ, ∃ stacked img c, stackDetector (fun _ => 99) exImages (ch! "d") (-3) 16 = .ok stacked ∧
    g.positionArray 1 (fun _ _ => true) (fun _ => 98) stacked none = .ok (img, c) ∧
    ∃ y x : Nat, img.get [1, y, x] = 1001007008 ∧ img.get [2, y, x] = 1002007008 := by
  obtain ⟨g, hg, hC, hS, hA, hno⟩ := exLpd_good
  have hdet : g.det = .lpd := by
    obtain ⟨g', h1, h2, -⟩ := lpd_quads (K := ℚ) [(114 / 10, 299), (-115 / 10, 8), (2545 / 10, -16), (2785 / 10, 275)] (1 / 1000) none none (by simp)
    obtain rfl := Except.ok.inj (hg.symm.trans h1)
    exact h2
  obtain ⟨st, img, c, H, W, h1, h2, -, -, h5, -⟩ := stacked_images g 1 (fun _ _ => true) (fun _ => 98) (fun _ => 99) hC hS hA hno
    exImages_stackable (by rw [hdet]; rfl)
  obtain ⟨yx, hc, -⟩ := pixel_has_cell hC hA (m := 2) (i := 7) (j := 8) (by rw [hdet]; decide) (by rw [hdet]; decide) (by rw [hdet]; decide)
  obtain ⟨y, x, -, -, -, -, hv⟩ := h5 2 7 8 yx hc
  have hdata : KD.Spec.DataOf exImages (ch! "d") 2 ⟨0, [3, 256, 256], fun idx => idx.foldl (fun a b => 1000 * a + b) 1⟩ := by
    refine ⟨[], _, _, rfl, (moduleOf_iff _ _).2 ⟨ch! "2", by decide, by decide⟩, rfl, ?_⟩
    intro z hz hm
    simp only [List.mem_singleton] at hz
    subst hz
    obtain ⟨d, e1, e2⟩ := (moduleOf_iff _ _).1 hm
    have : searchDet (ch! "LPD/DET/5CH0:xtdf") = some (ch! "5") := by decide
    rw [this] at e1
    obtain rfl := Option.some.inj e1
    revert e2
    decide
  exact ⟨g, st, img, c, h1, h2, y, x, (hv [1] rfl).1 _ hdata rfl, (hv [2] rfl).1 _ hdata rfl⟩

end KD.Geo
