/-
C76 pixel positions agree with coordinate conversion; C79 the distortion array.
-/
import Verif.Props.Assemble
import Verif.Lemmas.Trains

set_option linter.unusedSimpArgs false
set_option linter.unusedSectionVars false

namespace KD.Geo

variable {V : Type} {K : Type} [Field K] [LinearOrder K] [IsStrictOrderedRing K] [FloorRing K]

/-- Loops over all tiles which fill the region of the tile in some array `σ`, read with `val`: afterwards each pixel has the
value given by its tile. -/
theorem fill_tiles {σ W : Type} (g : Geom K) (hC : Spec.Complete g) (val : σ → Nat → Nat → Nat → W)
    (want : Frag K → Nat → Nat → W) (good : σ → Prop) (step : Nat → σ → Frag K × Nat → R σ)
    (hstep : ∀ (m t : Nat) (f : Frag K) (s : σ), m < (Spec.shape g.det).1 → t < Spec.tiles g.det → Spec.IsTile g m t f →
      good s → ∃ s', step m s (f, t) = .ok s' ∧ good s' ∧
        (∀ i j, i < (Spec.tileShape g.det).1 → j < (Spec.tileShape g.det).2 →
          val s' m ((g.det.tileSlice t).y0 + i) ((g.det.tileSlice t).x0 + j) = want f i j) ∧
        (∀ m' i j, m' < (Spec.shape g.det).1 → i < (Spec.shape g.det).2.1 → j < (Spec.shape g.det).2.2 →
          ¬ (m' = m ∧ Spec.tileOf g.det i j = t) → val s' m' i j = val s m' i j))
    (s0 : σ) (h0 : good s0) :
    ∃ s, foldE (fun out (mm : List (Frag K) × Nat) => foldE (step mm.2) out mm.1.zipIdx) s0 g.modules.zipIdx = .ok s ∧ good s ∧
      ∀ m i j f, i < (Spec.shape g.det).2.1 → j < (Spec.shape g.det).2.2 → Spec.IsTile g m (Spec.tileOf g.det i j) f →
        val s m i j = want f (Spec.inTile g.det i j).1 (Spec.inTile g.det i j).2 := by
  have hpos : 0 < (Spec.tileShape g.det).1 ∧ 0 < (Spec.tileShape g.det).2 := by
    cases g.det <;> decide
  let inv : (Nat → Nat → Prop) → σ → Prop := fun done s => good s ∧
    ∀ m i j f, i < (Spec.shape g.det).2.1 → j < (Spec.shape g.det).2.2 → Spec.IsTile g m (Spec.tileOf g.det i j) f →
      done m (Spec.tileOf g.det i j) → val s m i j = want f (Spec.inTile g.det i j).1 (Spec.inTile g.det i j).2
  have main := foldE_zipIdx (fun k s => inv (fun m _ => m < k) s)
    (fun out (mm : List (Frag K) × Nat) => foldE (step mm.2) out mm.1.zipIdx) g.modules s0
    ⟨h0, fun _ _ _ _ _ _ _ h => absurd h (Nat.not_lt_zero _)⟩ (by
      intro k mod s hk hs
      have hklt : k < (Spec.shape g.det).1 := by
        rw [← hC.1]; exact (List.getElem?_eq_some_iff.1 hk).1
      have hmodlen := hC.2 mod (List.mem_of_getElem? hk)
      obtain ⟨s', e1, e2⟩ := foldE_zipIdx (fun l s => inv (fun m t => m < k ∨ (m = k ∧ t < l)) s) (step k) mod s
        ⟨hs.1, fun m i j f a b c d => hs.2 m i j f a b c (by rcases d with d | ⟨-, d⟩; exact d; exact absurd d (Nat.not_lt_zero _))⟩ (by
          intro l f s1 hl hs1
          have hllt : l < Spec.tiles g.det := by
            rw [← hmodlen]; exact (List.getElem?_eq_some_iff.1 hl).1
          have htile : Spec.IsTile g k l f := ⟨mod, hk, hl⟩
          obtain ⟨s2, a1, a2, a3, a4⟩ := hstep k l f s1 hklt hllt htile hs1.1
          refine ⟨s2, a1, a2, ?_⟩
          intro m i j f' hi hj hf' hd
          by_cases hthis : m = k ∧ Spec.tileOf g.det i j = l
          · obtain ⟨rfl, rfl⟩ := hthis
            obtain ⟨mod', b1, b2⟩ := hf'
            rw [hk] at b1
            obtain rfl := Option.some.inj b1
            rw [hl] at b2
            obtain rfl := Option.some.inj b2
            have := a3 _ _ (Nat.mod_lt i hpos.1) (Nat.mod_lt j hpos.2)
            obtain ⟨o1, o2⟩ := tile_origin g.det hi hj
            simp only [Spec.inTile] at o1 o2
            rw [← o1, ← o2] at this
            exact this
          · have hm : m < (Spec.shape g.det).1 := by omega
            rw [a4 m i j hm hi hj hthis]
            refine hs1.2 m i j f' hi hj hf' ?_
            omega)
      refine ⟨s', e1, e2.1, ?_⟩
      intro m i j f hi hj hf hm
      refine e2.2 m i j f hi hj hf ?_
      have := tileOf_lt g.det hi hj
      omega)
  obtain ⟨s, h1, h2, h3⟩ := main
  refine ⟨s, h1, h2, ?_⟩
  intro m i j f hi hj hf
  refine h3 m i j f hi hj hf ?_
  obtain ⟨mod, b1, -⟩ := hf
  exact (List.getElem?_eq_some_iff.1 b1).1

theorem adjust_eq (d : Det) (centre : Bool) (i j : Nat) : (d.adjust centre i j : K × K) = Spec.pixelAt d centre i j := by
  cases d <;> cases centre <;> simp [Det.adjust, Spec.pixelAt]
  · split <;> simp
  · split <;> simp

/-- C76: the positions of all pixels. The pixel in row i and column j of module m is where its tile puts it. -/
theorem pixel_positions (g : Geom K) (hC : Spec.Complete g) (centre : Bool) :
    ∃ pos, g.pixelPositions centre = .ok pos ∧ (pos.n, pos.h, pos.w) = Spec.shape g.det ∧
      ∀ m i j f, i < (Spec.shape g.det).2.1 → j < (Spec.shape g.det).2.2 → Spec.IsTile g m (Spec.tileOf g.det i j) f →
        pos.get m i j =
          Spec.point f (Spec.pixelAt g.det centre (Spec.inTile g.det i j).1 (Spec.inTile g.det i j).2).1
            (Spec.pixelAt g.det centre (Spec.inTile g.det i j).1 (Spec.inTile g.det i j).2).2 := by
  unfold Geom.pixelPositions
  refine fill_tiles g hC (fun (s : Stack (Vec K)) => s.get)
    (fun f i j => Spec.point f (Spec.pixelAt g.det centre i j).1 (Spec.pixelAt g.det centre i j).2)
    (fun s => (s.n, s.h, s.w) = Spec.shape g.det) (fun m => g.putTile centre m) ?_ _ (shapes_agree g.det).1
  intro m t f s hm ht hf hs
  have hn : s.n = (Spec.shape g.det).1 := by rw [← hs]
  have hh : s.h = (Spec.shape g.det).2.1 := by rw [← hs]
  have hw : s.w = (Spec.shape g.det).2.2 := by rw [← hs]
  have hsp : g.det.ssPixels = (Spec.tileShape g.det).1 ∧ g.det.fsPixels = (Spec.tileShape g.det).2 := by
    cases g.det <;> exact ⟨rfl, rfl⟩
  obtain ⟨-, h2, h3, h4, h5⟩ := tile_inside g.det ht
  obtain ⟨q, e1, e2, e3, e4, e5⟩ := assign_inside (out := (⟨s.h, s.w, s.get m⟩ : Plane (Vec K)))
    (src := g.tilePositions centre f) (y := (g.det.tileSlice t).y0) (x := (g.det.tileSlice t).x0)
    (by simp only [Geom.tilePositions]; omega) (by simp only [Geom.tilePositions]; omega)
  have ty : (g.det.tileSlice t).y0 + (g.tilePositions centre f).h = (g.det.tileSlice t).y1 := by
    simp only [Geom.tilePositions]; omega
  have tx : (g.det.tileSlice t).x0 + (g.tilePositions centre f).w = (g.det.tileSlice t).x1 := by
    simp only [Geom.tilePositions]; omega
  rw [ty, tx] at e1
  refine ⟨{ s with get := fun k i j => if k = m then q.get i j else s.get k i j }, ?_, hs, ?_, ?_⟩
  · unfold Geom.putTile Stack.assign Stack.plane
    simp only
    rw [if_pos (by omega)]
    simp only [e1]
  · intro i j hi hj
    simp only [if_true]
    rw [e4 _ _ (by omega) (by omega) (by omega) (by omega)]
    simp only [Geom.tilePositions, Nat.add_sub_cancel_left, adjust_eq]
    rfl
  · intro m' i j hm' hi hj hne
    simp only
    split
    · next hmm =>
      rw [e5]
      · simp only [hmm]
      · intro hc
        apply hne
        refine ⟨hmm, ?_⟩
        refine ((tile_region g.det hi hj ht).1 ?_).symm
        unfold Spec.InRegion
        omega
    · rfl

theorem flatten_getElem? {α : Type} {l : List (List α)} {n : Nat} (h : ∀ x ∈ l, x.length = n) {m t : Nat} (ht : t < n)
    {x : List α} (hx : l[m]? = some x) : l.flatten[m * n + t]? = x[t]? := by
  induction l generalizing m with
  | nil => simp at hx
  | cons y l ih =>
    have hy := h y (by simp)
    cases m with
    | zero =>
      simp only [List.getElem?_cons_zero, Option.some.injEq] at hx
      subst hx
      rw [List.flatten_cons, Nat.zero_mul, Nat.zero_add, List.getElem?_append_left (by omega)]
    | succ m =>
      rw [List.getElem?_cons_succ] at hx
      rw [List.flatten_cons, List.getElem?_append_right (by rw [hy, Nat.add_mul]; omega), hy,
        show (m + 1) * n + t - n = m * n + t by rw [Nat.add_mul]; omega]
      exact ih (fun x hx' => h x (by simp [hx'])) hx

/-- C72, C76: a position inside the data of a module is converted with the tile whose region it is in. -/
theorem coord_position (g : Geom K) (hC : Spec.Complete g) (hd : g.det ≠ .dssc) (m : Nat) (hm : m < (Spec.shape g.det).1)
    (ss fs : K) (h0 : 0 ≤ ss) (h1 : ss < (Spec.shape g.det).2.1) (h2 : 0 ≤ fs) (h3 : fs < (Spec.shape g.det).2.2) :
    ∃ t f, Spec.IsTile g m t f ∧ ((g.det.tileSlice t).y0 : K) ≤ ss ∧ ss < ((g.det.tileSlice t).y1 : K) ∧
      ((g.det.tileSlice t).x0 : K) ≤ fs ∧ fs < ((g.det.tileSlice t).x1 : K) ∧
      g.coordToPosition (m : Int) ss fs =
        .ok (Spec.point f (ss - ((g.det.tileSlice t).y0 : K)) (fs - ((g.det.tileSlice t).x0 : K))) := by
  obtain ⟨t, a, b, e1, e2, e3, e4, e5, e6, e7, e8⟩ := coords_to_tile g.det hd ss fs h0 h1 h2 h3
  have hm' : m < g.modules.length := by rw [hC.1]; exact hm
  have ht' : t < g.modules[m].length := by rw [hC.2 _ (List.getElem_mem hm')]; exact e2
  have hfl := flatten_getElem? hC.2 e2 (List.getElem?_eq_getElem hm')
  rw [List.getElem?_eq_getElem ht'] at hfl
  refine ⟨t, g.modules[m][t], ⟨_, List.getElem?_eq_getElem hm', List.getElem?_eq_getElem ht'⟩, e3, e4, e5, e6, ?_⟩
  unfold Geom.coordToPosition
  split
  · next hnil => rw [hnil] at hfl; simp at hfl
  · rw [e1]
    simp only
    have hidx : pyIndex g.modules.flatten ((m : Int) * (g.det.nTiles : Int) + (t : Int)) = .ok g.modules[m][t] := by
      have hk : ((m : Int) * (g.det.nTiles : Int) + (t : Int)) = ((m * Spec.tiles g.det + t : Nat) : Int) := by
        rw [(shapes_agree g.det).2.2.1]; push_cast; rfl
      rw [hk]
      unfold pyIndex
      rw [if_neg (by omega)]
      rw [if_neg (by omega), nth_ok_iff, Int.toNat_natCast]
      exact hfl
    rw [hidx]
    simp only
    congr 1
    simp only [Vec.add, Vec.smul, Spec.point]
    have ha : a = ss - ((g.det.tileSlice t).y0 : K) := by linarith
    have hb : b = fs - ((g.det.tileSlice t).x0 : K) := by linarith
    rw [ha, hb]
    ext <;> simp only <;> ring

/-- C76: the position of the centre of a pixel is the one of its data coordinates plus one half, and the position of its first
corner is the one of its data coordinates. -/
theorem positions_agree (g : Geom K) (hC : Spec.Complete g) (hd : g.det ≠ .dssc) (centre : Bool) (pos : Stack (Vec K))
    (hp : g.pixelPositions centre = .ok pos) {m i j : Nat} (hm : m < (Spec.shape g.det).1) (hi : i < (Spec.shape g.det).2.1)
    (hj : j < (Spec.shape g.det).2.2) :
    g.coordToPosition (m : Int) ((i : K) + if centre then 1 / 2 else 0) ((j : K) + if centre then 1 / 2 else 0) =
      .ok (pos.get m i j) := by
  have he : (0 : K) ≤ (if centre then 1 / 2 else 0) ∧ (if centre then 1 / 2 else 0) < (1 : K) := by
    cases centre <;> norm_num
  generalize hE : (if centre then 1 / 2 else 0 : K) = e at he ⊢
  have hiK : ((i : K) + e) < ((Spec.shape g.det).2.1 : K) := by
    have : ((i + 1 : Nat) : K) ≤ ((Spec.shape g.det).2.1 : K) := by exact_mod_cast hi
    push_cast at this; linarith
  have hjK : ((j : K) + e) < ((Spec.shape g.det).2.2 : K) := by
    have : ((j + 1 : Nat) : K) ≤ ((Spec.shape g.det).2.2 : K) := by exact_mod_cast hj
    push_cast at this; linarith
  obtain ⟨pos', h1, -, h3⟩ := pixel_positions g hC centre
  rw [hp] at h1
  obtain rfl := Except.ok.inj h1
  obtain ⟨t, f, hf, a1, a2, a3, a4, a5⟩ := coord_position g hC hd m hm ((i : K) + e) ((j : K) + e)
    (by have := he.1; positivity) hiK (by have := he.1; positivity) hjK
  have lo : ∀ {a k : Nat}, (a : K) ≤ (k : K) + e → a ≤ k := by
    intro a k h
    by_contra hc
    have : ((k + 1 : Nat) : K) ≤ (a : K) := by exact_mod_cast (by omega : k + 1 ≤ a)
    push_cast at this; linarith [he.2]
  have hiN : ∀ {a k : Nat}, (k : K) + e < (a : K) → k < a := by
    intro a k h
    by_contra hc
    have : (a : K) ≤ (k : K) := by exact_mod_cast (by omega : a ≤ k)
    linarith [he.1]
  have htl : t < Spec.tiles g.det := by
    obtain ⟨mod, b1, b2⟩ := hf
    rw [← hC.2 mod (List.mem_of_getElem? b1)]
    exact (List.getElem?_eq_some_iff.1 b2).1
  have ht : t = Spec.tileOf g.det i j := (tile_region g.det hi hj htl).1 ⟨lo a1, hiN a2, lo a3, hiN a4⟩
  subst ht
  rw [a5, h3 m i j f hi hj hf]
  obtain ⟨o1, o2⟩ := tile_origin g.det hi hj
  have o1' : (i : K) = ((g.det.tileSlice (Spec.tileOf g.det i j)).y0 : K) + ((Spec.inTile g.det i j).1 : K) := by
    exact_mod_cast o1
  have o2' : (j : K) = ((g.det.tileSlice (Spec.tileOf g.det i j)).x0 : K) + ((Spec.inTile g.det i j).2 : K) := by
    exact_mod_cast o2
  have p1 : (Spec.pixelAt g.det centre (Spec.inTile g.det i j).1 (Spec.inTile g.det i j).2 : K × K) =
      (((Spec.inTile g.det i j).1 : K) + e, ((Spec.inTile g.det i j).2 : K) + e) := by
    unfold Spec.pixelAt
    rw [← hE]
    cases centre <;> simp [hd]
  rw [p1]
  congr 2 <;> linarith

/-- C76: for a list of coordinates, each is converted; AssertionError if there are not as many modules as coordinates. -/
theorem coords_positions (g : Geom K) (hC : Spec.Complete g) (hd : g.det ≠ .dssc) (ms : List Int) (ss fs : List K) :
    (ms.length = ss.length ∧ ss.length = fs.length →
      g.coordsToPositions ms ss fs = mapE (fun c : Int × K × K => g.coordToPosition c.1 c.2.1 c.2.2) (ms.zip (ss.zip fs))) ∧
    (¬ (ms.length = ss.length ∧ ss.length = fs.length) → g.coordsToPositions ms ss fs = .error .assertion) := by
  unfold Geom.coordsToPositions
  constructor
  · intro h
    rw [if_pos h]
    split
    · next hnil =>
      obtain ⟨m, h1, h2⟩ := complete_nonempty hC
      exact absurd (List.flatten_eq_nil_iff.1 hnil m h1) h2
    · split
      · next hd' => exact absurd hd' hd
      · rfl
  · intro h
    rw [if_neg h]

/-- C76: DSSC coordinates cannot be converted. -/
theorem coords_positions_dssc (g : Geom K) (hC : Spec.Complete g) (hd : g.det = .dssc) (ms : List Int) (ss fs : List K)
    (h : ms.length = ss.length ∧ ss.length = fs.length) : g.coordsToPositions ms ss fs = .error .notImplemented := by
  unfold Geom.coordsToPositions
  rw [if_pos h]
  split
  · next hnil =>
    obtain ⟨m, h1, h2⟩ := complete_nonempty hC
    exact absurd (List.flatten_eq_nil_iff.1 hnil m h1) h2
  · rw [hd]

/-! ### The distortion array -/

theorem pixelCorners_eq (d : Det) : (d.pixelCorners : List (K × K)) = Spec.corners d := by
  cases d <;> norm_num [Det.pixelCorners, Spec.corners]

/-- The corners of the pixel in row i and column j of a module, one after the other. -/
def Spec.pixelCorners (g : Geom K) (f : Frag K) (i j : Nat) : List (Vec K) :=
  let p : K × K := Spec.pixelAt g.det false (Spec.inTile g.det i j).1 (Spec.inTile g.det i j).2
  (Spec.corners g.det).map (fun c : K × K => Spec.point f (p.1 + c.1) (p.2 + c.2))

/-- C79: with negative coordinates allowed. Row m·(rows of a module) + i of the array is row i of module m, and the corners
are those of the pixel. -/
theorem distortion_all (g : Geom K) (hC : Spec.Complete g) :
    ∃ d, g.distortionArray true = .ok d ∧ d.h = (Spec.shape g.det).1 * (Spec.shape g.det).2.1 ∧
      d.w = (Spec.shape g.det).2.2 ∧
      ∀ m i j f, i < (Spec.shape g.det).2.1 → j < (Spec.shape g.det).2.2 → Spec.IsTile g m (Spec.tileOf g.det i j) f →
        d.get (m * (Spec.shape g.det).2.1 + i) j = Spec.pixelCorners g f i j := by
  obtain ⟨pos, p1, p2, p3⟩ := pixel_positions g hC false
  have hsh := (shapes_agree g.det).1
  have hrows : 0 < (Spec.shape g.det).2.1 := by cases g.det <;> decide
  unfold Geom.distortionArray
  rw [p1]
  simp only [hsh]
  have main := fill_tiles g hC
    (fun (d : Plane (List (Vec K))) m i j => d.get (m * (Spec.shape g.det).2.1 + i) j)
    (fun f i j => (Spec.corners g.det).map (fun c : K × K =>
      Spec.point f ((Spec.pixelAt g.det false i j).1 + c.1) ((Spec.pixelAt g.det false i j).2 + c.2)))
    (fun d => d.h = (Spec.shape g.det).1 * (Spec.shape g.det).2.1 ∧ d.w = (Spec.shape g.det).2.2)
    (fun m => g.putCorners ⟨(Spec.shape g.det).1 * (Spec.shape g.det).2.1, (Spec.shape g.det).2.2,
      fun r j => pos.get (r / (Spec.shape g.det).2.1) (r % (Spec.shape g.det).2.1) j⟩ m) ?_
    ⟨(Spec.shape g.det).1 * (Spec.shape g.det).2.1, (Spec.shape g.det).2.2, fun _ _ =>
      (Det.pixelCorners g.det).map (fun _ : K × K => (⟨0, 0, 0⟩ : Vec K))⟩ ⟨rfl, rfl⟩
  · obtain ⟨d, e1, ⟨e2, e3⟩, e4⟩ := main
    rw [e1]
    refine ⟨d, rfl, e2, e3, ?_⟩
    intro m i j f hi hj hf
    exact e4 m i j f hi hj hf
  · intro m t f d hm ht hf hd
    obtain ⟨-, h2, h3, h4, h5⟩ := tile_inside g.det ht
    have hmr : m * (Spec.shape g.det).2.1 + (Spec.shape g.det).2.1 ≤ (Spec.shape g.det).1 * (Spec.shape g.det).2.1 := by
      rw [← Nat.succ_mul]; exact Nat.mul_le_mul_right _ hm
    generalize hX : (⟨(Spec.shape g.det).1 * (Spec.shape g.det).2.1, (Spec.shape g.det).2.2,
      fun r j => pos.get (r / (Spec.shape g.det).2.1) (r % (Spec.shape g.det).2.1) j⟩ : Plane (Vec K)) = pix
    have hsl : g.det.distortionSlice m t = ⟨m * (Spec.shape g.det).2.1 + (g.det.tileSlice t).y0,
        m * (Spec.shape g.det).2.1 + (g.det.tileSlice t).y1, (g.det.tileSlice t).x0, (g.det.tileSlice t).x1⟩ := by
      unfold Det.distortionSlice
      simp only [hsh]
      rw [Nat.add_comm _ (m * _), Nat.add_comm _ (m * _)]
    obtain ⟨q, e1, e2, e3, e4, e5⟩ := assign_inside (out := d)
      (src := g.tileCorners pix (g.det.distortionSlice m t) f) (y := m * (Spec.shape g.det).2.1 + (g.det.tileSlice t).y0)
      (x := (g.det.tileSlice t).x0) (by rw [hsl]; simp only [Geom.tileCorners]; omega)
      (by rw [hsl]; simp only [Geom.tileCorners]; omega)
    have hch : (g.tileCorners pix (g.det.distortionSlice m t) f).h = (Spec.tileShape g.det).1 := by
      rw [hsl]; simp only [Geom.tileCorners]; omega
    have hcw : (g.tileCorners pix (g.det.distortionSlice m t) f).w = (Spec.tileShape g.det).2 := by
      rw [hsl]; simp only [Geom.tileCorners]; omega
    have ty : m * (Spec.shape g.det).2.1 + (g.det.tileSlice t).y0 + (Spec.tileShape g.det).1 =
        m * (Spec.shape g.det).2.1 + (g.det.tileSlice t).y1 := by omega
    have tx : (g.det.tileSlice t).x0 + (Spec.tileShape g.det).2 = (g.det.tileSlice t).x1 := by omega
    rw [hch, hcw] at e1 e4 e5
    rw [ty, tx] at e1
    refine ⟨q, ?_, ⟨by omega, by omega⟩, ?_, ?_⟩
    · unfold Geom.putCorners
      simp only
      rw [← e1, hsl]
    · intro i j hi hj
      obtain ⟨b1, b2, b3, b4⟩ := tile_pixel g.det ht hi hj
      rw [e4 _ _ (by omega) (by omega) (by omega) (by omega)]
      simp only [Geom.tileCorners, hsl, pixelCorners_eq]
      apply List.map_congr_left
      intro c _
      have r1 : m * (Spec.shape g.det).2.1 + ((g.det.tileSlice t).y0 + i) - (m * (Spec.shape g.det).2.1 + (g.det.tileSlice t).y0) = i := by omega
      rw [r1, Nat.add_sub_cancel_left, ← hX]
      simp only
      have r2 : (m * (Spec.shape g.det).2.1 + (g.det.tileSlice t).y0 + i) / (Spec.shape g.det).2.1 = m := by
        rw [Nat.add_assoc, Nat.mul_comm, Nat.mul_add_div hrows, Nat.div_eq_of_lt b1, Nat.add_zero]
      have r3 : (m * (Spec.shape g.det).2.1 + (g.det.tileSlice t).y0 + i) % (Spec.shape g.det).2.1 = (g.det.tileSlice t).y0 + i := by
        rw [Nat.add_assoc, Nat.mul_comm, Nat.mul_add_mod, Nat.mod_eq_of_lt b1]
      rw [r2, r3, p3 m _ _ f b1 b2 (by rw [b3]; exact hf), b4]
      simp only [Spec.point]
      ext <;> simp only <;> ring
    · intro m' i j hm' hi hj hne
      apply e5
      intro hc
      apply hne
      have hmm : m' = m := by
        rcases Nat.lt_trichotomy m' m with h | h | h
        · have := Nat.mul_le_mul_right (Spec.shape g.det).2.1 h
          rw [Nat.succ_mul] at this
          omega
        · exact h
        · have := Nat.mul_le_mul_right (Spec.shape g.det).2.1 h
          rw [Nat.succ_mul] at this
          omega
      subst hmm
      refine ⟨rfl, ((tile_region g.det hi hj ht).1 ?_).symm⟩
      unfold Spec.InRegion
      omega

/-- C79: by default all positions are moved, by the same distance along x and y, so that the smallest x and the smallest y are
zero. -/
theorem distortion_shifted (g : Geom K) (hC : Spec.Complete g) :
    ∃ (d d' : Plane (List (Vec K))) (a b : K), g.distortionArray true = .ok d ∧ g.distortionArray false = .ok d' ∧
      d'.h = d.h ∧ d'.w = d.w ∧
      (∀ i j, d'.get i j = (d.get i j).map (fun v => ⟨v.x - a, v.y - b, v.z⟩)) ∧
      (∀ i j, i < d.h → j < d.w → ∀ v ∈ d'.get i j, 0 ≤ v.x ∧ 0 ≤ v.y) ∧
      (∃ i j, i < d.h ∧ j < d.w ∧ ∃ v ∈ d'.get i j, v.x = 0) ∧ (∃ i j, i < d.h ∧ j < d.w ∧ ∃ v ∈ d'.get i j, v.y = 0) := by
  obtain ⟨d, h1, h2, h3, h4⟩ := distortion_all g hC
  have hsh : 0 < (Spec.shape g.det).1 ∧ 0 < (Spec.shape g.det).2.1 ∧ 0 < (Spec.shape g.det).2.2 := by
    cases g.det <;> decide
  have hmem : ∀ v, v ∈ cornersIn d ↔ ∃ i j, i < d.h ∧ j < d.w ∧ v ∈ d.get i j := by
    intro v
    simp only [cornersIn, List.mem_flatMap, List.mem_range]
    constructor
    · rintro ⟨i, hi, j, hj, h⟩; exact ⟨i, j, hi, hj, h⟩
    · rintro ⟨i, j, hi, hj, h⟩; exact ⟨i, hi, j, hj, h⟩
  have hne : cornersIn d ≠ [] := by
    intro hnil
    have hm' : 0 < g.modules.length := by rw [hC.1]; exact hsh.1
    have ht' : Spec.tileOf g.det 0 0 < g.modules[0].length := by
      rw [hC.2 _ (List.getElem_mem hm')]; exact tileOf_lt g.det hsh.2.1 hsh.2.2
    have hv := h4 0 0 0 _ hsh.2.1 hsh.2.2 ⟨_, List.getElem?_eq_getElem hm', List.getElem?_eq_getElem ht'⟩
    have hlen : (Spec.pixelCorners g (g.modules[0][Spec.tileOf g.det 0 0]) 0 0) ≠ [] := by
      have hcne : (Spec.corners g.det : List (K × K)) ≠ [] := by cases g.det <;> simp [Spec.corners]
      unfold Spec.pixelCorners
      simp only [ne_eq, List.map_eq_nil_iff]
      exact hcne
    obtain ⟨v, hv'⟩ := List.exists_mem_of_ne_nil _ hlen
    rw [← hv] at hv'
    have : v ∈ cornersIn d := by
      rw [hmem]
      refine ⟨_, _, ?_, ?_, hv'⟩
      · rw [h2, Nat.zero_mul, Nat.add_zero]; exact Nat.mul_pos hsh.1 hsh.2.1
      · rw [h3]; exact hsh.2.2
    rw [hnil] at this
    simp at this
  obtain ⟨c, cs, hcs⟩ := List.exists_cons_of_ne_nil hne
  refine ⟨d, ⟨d.h, d.w, fun i j => (d.get i j).map (fun v => ⟨v.x - listMin c.x (cs.map Vec.x), v.y - listMin c.y (cs.map Vec.y), v.z⟩)⟩,
    listMin c.x (cs.map Vec.x), listMin c.y (cs.map Vec.y), h1, ?_, rfl, rfl, fun i j => rfl, ?_, ?_, ?_⟩
  · unfold Geom.distortionArray at h1 ⊢
    cases hp : g.pixelPositions false with
    | error e => rw [hp] at h1; simp at h1
    | ok pos =>
      rw [hp] at h1
      simp only at h1 ⊢
      split at h1
      · simp at h1
      · next d0 hd0 =>
        simp only [if_true, Except.ok.injEq] at h1
        subst h1
        simp only [Bool.false_eq_true, if_false]
        unfold shiftCorners
        rw [hcs]
  · intro i j hi hj v hv
    simp only [List.mem_map] at hv
    obtain ⟨w, hw, rfl⟩ := hv
    have hin := (hmem w).2 ⟨i, j, hi, hj, hw⟩
    rw [hcs] at hin
    simp only [sub_nonneg]
    constructor
    · rcases List.mem_cons.1 hin with rfl | hin
      · exact (listMin_le _ _).1
      · exact (listMin_le _ _).2 _ (List.mem_map_of_mem hin)
    · rcases List.mem_cons.1 hin with rfl | hin
      · exact (listMin_le _ _).1
      · exact (listMin_le _ _).2 _ (List.mem_map_of_mem hin)
  · have := listMin_mem c.x (cs.map Vec.x)
    rw [← List.map_cons, ← hcs, List.mem_map] at this
    obtain ⟨w, hw, e⟩ := this
    obtain ⟨i, j, hi, hj, hw'⟩ := (hmem w).1 hw
    refine ⟨i, j, hi, hj, _, List.mem_map_of_mem hw', ?_⟩
    simp only [← e, sub_self]
  · have := listMin_mem c.y (cs.map Vec.y)
    rw [← List.map_cons, ← hcs, List.mem_map] at this
    obtain ⟨w, hw, e⟩ := this
    obtain ⟨i, j, hi, hj, hw'⟩ := (hmem w).1 hw
    refine ⟨i, j, hi, hj, _, List.mem_map_of_mem hw', ?_⟩
    simp only [← e, sub_self]

end KD.Geo
