/-
C110 the image which interpolated assembling makes of all the tiles.
-/
import Verif.Props.Interpolate

set_option linter.unusedSimpArgs false
set_option linter.unusedSectionVars false

namespace KD.Geo

variable {V : Type} {K : Type} [Field K] [LinearOrder K] [IsStrictOrderedRing K] [FloorRing K]

/-- The data of tile t of module m: 64 rows of 128 pixels. -/
def Spec.agipdTileData (data : Stack V) (m t : Nat) : Plane V := ⟨64, 128, fun i j => data.get m (t * 64 + i) j⟩

/-- The value v comes from a tile of the geometry, which is looked up at some place for the cell (y, x). -/
def Spec.FromTile (g : Geom K) (interp : Plane V → K → K → Option V) (data : Stack V) (centre : Int × Int) (y x : K) (v : V) : Prop :=
  ∃ m t f a b, Spec.IsTile g m t f ∧ f.interpolates centre y x = some (a, b) ∧
    interp (Spec.agipdTileData data m t) a b = some v

theorem nanMax_spec [LinearOrder V] (l : List (Option V)) (v : V) :
    nanMax l = some v ↔ some v ∈ l ∧ ∀ w, some w ∈ l → w ≤ v := by
  have hm : ∀ w, w ∈ l.filterMap id ↔ some w ∈ l := fun w => by simp [List.mem_filterMap]
  unfold nanMax
  split
  · next he =>
    rw [he] at hm
    constructor
    · intro h; simp at h
    · rintro ⟨h, -⟩
      have := (hm v).2 h
      simp at this
  · next a as he =>
    rw [he] at hm
    have h1 := listMax_mem a as
    have h2 := le_listMax a as
    have h3 : ∀ w ∈ a :: as, w ≤ listMax a as := fun w hw => by
      rcases List.mem_cons.1 hw with rfl | hw
      · exact h2.1
      · exact h2.2 _ hw
    rw [Option.some.injEq]
    constructor
    · rintro rfl
      exact ⟨(hm _).1 h1, fun w hw => h3 w ((hm w).2 hw)⟩
    · rintro ⟨h4, h5⟩
      exact le_antisymm (h5 _ ((hm _).1 h1)) (h3 _ ((hm v).2 h4))

theorem interpolated_ok {interp : Plane V → K → K → Option V} {centre : Int × Int} {f : Frag K} {p : Plane V}
    {h : Nat → Nat → Option V} (hok : Frag.interpolated interp centre (f, p) = .ok h) (y x : Nat) (v : V) :
    h y x = some v ↔ ∃ a b, f.interpolates centre (y : K) (x : K) = some (a, b) ∧ interp p a b = some v := by
  unfold Frag.interpolated at hok
  split at hok
  · simp at hok
  · obtain rfl := Except.ok.inj hok
    simp only
    split
    · next s t he =>
      rw [he]
      constructor
      · intro h; exact ⟨s, t, rfl, h⟩
      · rintro ⟨a, b, h1, h2⟩
        simp only [Option.some.injEq, Prod.mk.injEq] at h1
        rw [h1.1, h1.2]; exact h2
    · next he =>
      rw [he]
      simp

theorem interpolateModule_spec {interp : Plane V → K → K → Option V} {centre : Int × Int} {data : Stack V}
    (hd : data.h = 512 ∧ data.w = 128) {m : List (Frag K)} {i : Nat} {parts : List (Nat × (Nat → Nat → Option V))}
    (hok : interpolateModule interp centre data (m, i) = .ok parts) (k : Nat) (h : Nat → Nat → Option V) :
    (k, h) ∈ parts ↔ ∃ j f, m[j]? = some f ∧ j < 8 ∧ k = i * 8 + j ∧
      Frag.interpolated interp centre (f, Spec.agipdTileData data i j) = .ok h := by
  unfold interpolateModule at hok
  split at hok
  · simp at hok
  · next p hp =>
    have hpe : p = ⟨512, 128, data.get i⟩ := by
      unfold Stack.plane at hp
      split at hp
      · rw [← Except.ok.inj hp, hd.1, hd.2]
      · simp at hp
    subst hpe
    split at hok
    · simp at hok
    · next tiles ht =>
      have hte : tiles = (List.range 8).map (Spec.agipdTileData data i) := by
        unfold Plane.splitRows at ht
        simp only at ht
        rw [if_pos (by norm_num)] at ht
        rw [← Except.ok.inj ht]
        rfl
      subst hte
      split at hok
      · simp at hok
      · next ps hps =>
        obtain rfl := Except.ok.inj hok
        have hall := mapE_ok_iff.1 hps
        have hlen := hall.length_eq
        have hget : ∀ j f, (m.zip ((List.range 8).map (Spec.agipdTileData data i)))[j]? = some (f, Spec.agipdTileData data i j) ↔
            m[j]? = some f ∧ j < 8 := by
          intro j f
          rw [List.getElem?_zip_eq_some]
          constructor
          · rintro ⟨h1, h2⟩
            refine ⟨h1, ?_⟩
            have := (List.getElem?_eq_some_iff.1 h2).1
            simpa using this
          · rintro ⟨h1, h2⟩
            refine ⟨h1, ?_⟩
            rw [List.getElem?_map, List.getElem?_range h2]; rfl
        rw [List.mem_map]
        constructor
        · rintro ⟨⟨h', j⟩, hq, he⟩
          simp only [Prod.mk.injEq] at he
          obtain ⟨rfl, rfl⟩ := he
          rw [List.mem_zipIdx_iff_getElem?] at hq
          simp only at hq
          have hj : j < (m.zip ((List.range 8).map (Spec.agipdTileData data i))).length := by
            rw [hlen]; exact (List.getElem?_eq_some_iff.1 hq).1
          have hjj : j < m.length ∧ j < 8 := by
            rw [List.length_zip] at hj
            simp at hj; exact hj
          have hz := (hget j m[j]).2 ⟨List.getElem?_eq_getElem hjj.1, hjj.2⟩
          refine ⟨j, m[j], List.getElem?_eq_getElem hjj.1, hjj.2, rfl, ?_⟩
          have := hall.get hj (by rw [← hlen]; exact hj)
          have e1 : (m.zip ((List.range 8).map (Spec.agipdTileData data i))).get ⟨j, hj⟩ = (m[j], Spec.agipdTileData data i j) := by
            have := List.getElem?_eq_getElem hj
            rw [hz] at this
            exact (Option.some.inj this).symm
          have e2 : ps.get ⟨j, by rw [← hlen]; exact hj⟩ = h' := by
            have hj' : j < ps.length := by rw [← hlen]; exact hj
            have := List.getElem?_eq_getElem hj'
            rw [hq] at this
            exact (Option.some.inj this).symm
          rw [e1, e2] at this
          exact this
        · rintro ⟨j, f, h1, h2, rfl, h3⟩
          have hz := (hget j f).2 ⟨h1, h2⟩
          have hj := (List.getElem?_eq_some_iff.1 hz).1
          have hj' : j < ps.length := by rw [← hlen]; exact hj
          have := hall.get hj hj'
          have e1 : (m.zip ((List.range 8).map (Spec.agipdTileData data i))).get ⟨j, hj⟩ = (f, Spec.agipdTileData data i j) := by
            have := List.getElem?_eq_getElem hj
            rw [hz] at this
            exact (Option.some.inj this).symm
          rw [e1, h3] at this
          have e := Except.ok.inj this
          refine ⟨(h, j), ?_, rfl⟩
          rw [List.mem_zipIdx_iff_getElem?]
          simp only
          rw [List.getElem?_eq_getElem hj', Option.some.injEq]
          exact e.symm

/-- C110. The image made by interpolation from a complete AGIPD geometry has the size found for it. Each cell has the largest of
the values which the tiles have at the places looked up in them for the cell, and is missing only if no tile has a value
there. -/
theorem interpolate_image [LinearOrder V] {g : Geom K} {rowStep : K} {interp : Plane V → K → K → Option V}
    {junk : Nat → Nat → Nat → Option V} {data : Stack V} (hdet : g.det = .agipd) (hcomp : Spec.Complete g)
    {img : Plane (Option V)} {centre : Int × Int}
    (h : g.positionInterpolate rowStep interp junk data = .ok (img, centre)) :
    (∃ size : Int × Int, g.dimensions rowStep = .ok (size, centre) ∧ img.h = size.1.toNat ∧ img.w = size.2.toNat) ∧
    ∀ (y x : Nat) v, img.get y x = some v ↔
      Spec.FromTile g interp data centre y x v ∧ ∀ w, Spec.FromTile g interp data centre y x w → w ≤ v := by
  obtain ⟨hlen, hmod⟩ := hcomp
  rw [hdet] at hlen hmod
  simp only [Spec.shape, Spec.tiles] at hlen hmod
  unfold Geom.positionInterpolate at h
  split at h
  swap
  · simp at h
  next hshape =>
  simp only [Prod.mk.injEq] at hshape
  obtain ⟨hn, hd⟩ := hshape
  split at h
  · simp at h
  next size c hdim =>
  split at h
  · simp at h
  next parts hparts =>
  have he := Except.ok.inj h
  rw [Prod.mk.injEq] at he
  obtain ⟨rfl, rfl⟩ := he
  refine ⟨⟨size, hdim, rfl, rfl⟩, fun y x v => ?_⟩
  simp only
  rw [nanMax_spec]
  -- the modules one by one
  have hz : g.modules.zip (List.range data.n) = g.modules.zipIdx := by
    rw [hn, ← hlen, List.zipIdx_eq_zip_range']
    congr 1
    rw [List.range_eq_range']
  rw [hz] at hparts
  have hmem : ∀ k h, (k, h) ∈ parts.flatten ↔ ∃ i j f, Spec.IsTile g i j f ∧ k = i * 8 + j ∧ j < 8 ∧
      Frag.interpolated interp c (f, Spec.agipdTileData data i j) = .ok h := by
    intro k h
    rw [List.mem_flatten]
    constructor
    · rintro ⟨part, hp, hk⟩
      obtain ⟨⟨m, i⟩, hmi, hok⟩ := (mapE_mem hparts).1 hp
      obtain ⟨j, f, h1, h2, h3, h4⟩ := (interpolateModule_spec hd hok k h).1 hk
      rw [List.mem_zipIdx_iff_getElem?] at hmi
      exact ⟨i, j, f, ⟨m, hmi, h1⟩, h3, h2, h4⟩
    · rintro ⟨i, j, f, ⟨m, hmi, hmj⟩, h3, h2, h4⟩
      obtain ⟨part, hp, hok⟩ := mapE_ok_all hparts (List.mem_zipIdx_iff_getElem?.2 (show g.modules[(m, i).2]? = some (m, i).1 from hmi))
      exact ⟨part, hp, (interpolateModule_spec hd hok k h).2 ⟨j, f, hmj, h2, h3, h4⟩⟩
  have hcell : ∀ w, (some w ∈ (List.range (16 * 8)).map (tmpCell junk parts.flatten y x)) ↔
      Spec.FromTile g interp data c y x w := by
    intro w
    rw [List.mem_map]
    constructor
    · rintro ⟨k, hk, hw⟩
      rw [List.mem_range] at hk
      unfold tmpCell at hw
      split at hw
      · next q hq =>
        have hqm := List.mem_of_find?_eq_some hq
        have hqk := List.find?_some hq
        obtain ⟨k', h'⟩ := q
        obtain ⟨i, j, f, ht, -, -, hok⟩ := (hmem k' h').1 hqm
        obtain ⟨a, b, h1, h2⟩ := (interpolated_ok hok y x w).1 hw
        exact ⟨i, j, f, a, b, ht, h1, h2⟩
      · next hno =>
        exfalso
        rw [List.find?_eq_none] at hno
        have hi : k / 8 < g.modules.length := by rw [hlen]; omega
        have hml := hmod _ (List.getElem_mem hi)
        have hj : k % 8 < (g.modules[k / 8]).length := by rw [hml]; omega
        -- the part of this module has the tile
        obtain ⟨part, hp, hok⟩ := mapE_ok_all hparts
          (List.mem_zipIdx_iff_getElem?.2 (show g.modules[(g.modules[k / 8], k / 8).2]? = some (g.modules[k / 8], k / 8).1 from List.getElem?_eq_getElem hi))
        have hex : ∃ h, Frag.interpolated interp c ((g.modules[k / 8])[k % 8], Spec.agipdTileData data (k / 8) (k % 8)) = .ok h := by
          unfold interpolateModule at hok
          split at hok
          · simp at hok
          · next p hp' =>
            have hpe : p = ⟨512, 128, data.get (k / 8)⟩ := by
              unfold Stack.plane at hp'
              split at hp'
              · rw [← Except.ok.inj hp', hd.1, hd.2]
              · simp at hp'
            subst hpe
            split at hok
            · simp at hok
            · next tiles ht =>
              have hte : tiles = (List.range 8).map (Spec.agipdTileData data (k / 8)) := by
                unfold Plane.splitRows at ht
                simp only at ht
                rw [if_pos (by norm_num)] at ht
                rw [← Except.ok.inj ht]
                rfl
              subst hte
              split at hok
              · simp at hok
              · next ps hps =>
                have hin : ((g.modules[k / 8])[k % 8], Spec.agipdTileData data (k / 8) (k % 8)) ∈
                    (g.modules[k / 8]).zip ((List.range 8).map (Spec.agipdTileData data (k / 8))) := by
                  apply List.mem_of_getElem? (i := k % 8)
                  rw [List.getElem?_zip_eq_some]
                  refine ⟨List.getElem?_eq_getElem hj, ?_⟩
                  rw [List.getElem?_map, List.getElem?_range (by omega)]; rfl
                obtain ⟨h, -, hh⟩ := mapE_ok_all hps hin
                exact ⟨h, hh⟩
        obtain ⟨h, hh⟩ := hex
        refine hno (k, h) ((hmem k h).2 ⟨k / 8, k % 8, _, ⟨_, List.getElem?_eq_getElem hi, List.getElem?_eq_getElem hj⟩, by omega,
          by omega, hh⟩) (by simp)
    · rintro ⟨i, j, f, a, b, ht, h1, h2⟩
      have ht' := ht
      obtain ⟨m, hmi, hmj⟩ := ht
      have hi : i < 16 := by rw [← hlen]; exact (List.getElem?_eq_some_iff.1 hmi).1
      have hj : j < 8 := by rw [← hmod m (List.mem_of_getElem? hmi)]; exact (List.getElem?_eq_some_iff.1 hmj).1
      refine ⟨i * 8 + j, List.mem_range.2 (by omega), ?_⟩
      -- the tile was looked up
      have hex : ∃ h, Frag.interpolated interp c (f, Spec.agipdTileData data i j) = .ok h := by
        have hns : ¬ (f.ss.y * f.fs.x - f.fs.y * f.ss.x = 0) := by
          intro h0
          unfold Frag.interpolates at h1
          rw [if_pos h0] at h1
          simp at h1
        exact ⟨_, by unfold Frag.interpolated; rw [if_neg hns]⟩
      obtain ⟨h, hok⟩ := hex
      have hin := (hmem (i * 8 + j) h).2 ⟨i, j, f, ht', rfl, hj, hok⟩
      unfold tmpCell
      split
      · next q hq =>
        have hqm := List.mem_of_find?_eq_some hq
        have hqk := List.find?_some hq
        obtain ⟨k', h'⟩ := q
        simp only [decide_eq_true_eq] at hqk
        subst hqk
        obtain ⟨i', j', f', ⟨m', hmi', hmj'⟩, he, hj', hok'⟩ := (hmem _ h').1 hqm
        have e1 : i' = i := by omega
        have e2 : j' = j := by omega
        subst e1 e2
        obtain rfl := Option.some.inj (hmi.symm.trans hmi')
        obtain rfl := Option.some.inj (hmj.symm.trans hmj')
        exact (interpolated_ok hok' y x w).2 ⟨a, b, h1, h2⟩
      · next hno =>
        rw [List.find?_eq_none] at hno
        exact absurd (hno _ hin) (by simp)
  rw [hcell]
  exact and_congr Iff.rfl (forall_congr' fun w => by rw [hcell])

/-- C110: why complete geometries are asked for. The array for the tiles is not filled before: if a module is missing in the geometry, what
happens to be in memory is seen in the image, wherever it is larger than what the tiles have. -/
theorem interpolate_missing_wrong [LinearOrder V] {g : Geom K} {rowStep : K} {interp : Plane V → K → K → Option V}
    {junk : Nat → Nat → Nat → Option V} {data : Stack V} (hmiss : g.modules.length < 16) {img : Plane (Option V)} {centre : Int × Int}
    (h : g.positionInterpolate rowStep interp junk data = .ok (img, centre)) (y x : Nat) (v : V) (hv : junk 127 y x = some v) :
    ∃ w, img.get y x = some w ∧ v ≤ w := by
  unfold Geom.positionInterpolate at h
  split at h
  swap
  · simp at h
  next hshape =>
  simp only [Prod.mk.injEq] at hshape
  obtain ⟨hn, hd⟩ := hshape
  split at h
  · simp at h
  split at h
  · simp at h
  next parts hparts =>
  have he := Except.ok.inj h
  rw [Prod.mk.injEq] at he
  obtain ⟨rfl, -⟩ := he
  have hnone : parts.flatten.find? (fun q => q.1 = 127) = none := by
    rw [List.find?_eq_none]
    rintro ⟨k, f⟩ hq
    obtain ⟨part, hp, hk⟩ := List.mem_flatten.1 hq
    obtain ⟨⟨m, i⟩, hmi, hok⟩ := (mapE_mem hparts).1 hp
    obtain ⟨j, f', -, h2, h3, -⟩ := (interpolateModule_spec hd hok k f).1 hk
    obtain ⟨n, hn'⟩ := List.mem_iff_getElem?.1 hmi
    rw [List.getElem?_zip_eq_some] at hn'
    have h4 := (List.getElem?_eq_some_iff.1 hn'.1).1
    have h5 := (List.getElem?_eq_some_iff.1 hn'.2).2
    simp only [List.getElem_range] at h5
    simp only [decide_eq_true_eq]
    omega
  have hin : some v ∈ (List.range (16 * 8)).map (tmpCell junk parts.flatten y x) := by
    refine List.mem_map.2 ⟨127, by simp, ?_⟩
    unfold tmpCell
    rw [hnone]
    exact hv
  simp only
  cases hm : nanMax ((List.range (16 * 8)).map (tmpCell junk parts.flatten y x)) with
  | some w => exact ⟨w, rfl, ((nanMax_spec _ _).1 hm).2 v hin⟩
  | none =>
    exfalso
    unfold nanMax at hm
    split at hm
    · next hnil =>
      have : v ∈ ((List.range (16 * 8)).map (tmpCell junk parts.flatten y x)).filterMap id := List.mem_filterMap.2 ⟨_, hin, rfl⟩
      rw [hnil] at this
      simp at this
    · simp at hm

/-- C110. Data of another shape is refused with AssertionError. For data of the right shape and a geometry with tiles in which the two
directions of each tile differ, the image is made. -/
theorem interpolate_succeeds [LinearOrder V] {g : Geom K} {rowStep : K} (hrow : 0 < rowStep) (interp : Plane V → K → K → Option V)
    (junk : Nat → Nat → Nat → Option V) (data : Stack V) (hne : ∃ m ∈ g.modules, ∃ f, f ∈ m) :
    ((data.n, data.h, data.w) ≠ Spec.shape .agipd → g.positionInterpolate rowStep interp junk data = .error .assertion) ∧
    ((data.n, data.h, data.w) = Spec.shape .agipd →
      (∀ m ∈ g.modules, ∀ f ∈ m, f.ss.y * f.fs.x ≠ f.fs.y * f.ss.x) →
      ∃ img centre, g.positionInterpolate rowStep interp junk data = .ok (img, centre)) := by
  constructor
  · intro hs
    unfold Geom.positionInterpolate
    rw [if_neg (show ¬ ((data.n, data.h, data.w) = (16, 512, 128)) from hs)]
  · intro hs hns
    obtain ⟨h, w, cy, cx, hdim, -⟩ := box_holds g rowStep hrow hne
    unfold Geom.positionInterpolate
    rw [if_pos (show (data.n, data.h, data.w) = (16, 512, 128) from hs), hdim]
    simp only
    simp only [Spec.shape, Prod.mk.injEq] at hs
    obtain ⟨parts, hparts⟩ := mapE_exists_ok (f := interpolateModule interp (cy, cx) data)
      (l := g.modules.zip (List.range data.n)) (fun mi hmi => by
        obtain ⟨m, i⟩ := mi
        obtain ⟨hm, hi⟩ := List.of_mem_zip hmi
        rw [List.mem_range] at hi
        unfold interpolateModule Stack.plane
        simp only
        rw [if_pos hi]
        simp only
        unfold Plane.splitRows
        rw [if_pos (by simp only [hs.2.1])]
        simp only
        obtain ⟨ps, hps⟩ := mapE_exists_ok (f := Frag.interpolated interp (cy, cx))
          (l := m.zip ((List.range 8).map (fun k => (⟨data.h / 8, data.w, fun i' j => data.get i (k * (data.h / 8) + i') j⟩ : Plane V))))
          (fun fp hfp => by
            obtain ⟨f, p⟩ := fp
            have hf := (List.of_mem_zip hfp).1
            unfold Frag.interpolated
            rw [if_neg (by simp only; exact sub_ne_zero.2 (hns m hm f hf))]
            exact ⟨_, rfl⟩)
        rw [hps]
        exact ⟨_, rfl⟩)
    rw [hparts]
    exact ⟨_, _, rfl⟩

/-- C91 is false for whole images: for a complete geometry whose tiles lie along the axes with the size which pixels of AGIPD have, and
whose corners are less than 100000 pixels from the centre, nothing of the data is seen in the image, apart from its first row and
column, though the image has room for all the tiles. -/
theorem interpolate_image_wrong [LinearOrder V] {g : Geom K} {rowStep : K} (hrow : 0 < rowStep) {interp : Plane V → K → K → Option V}
    (hint : ∀ p s t, ¬ (0 ≤ s ∧ s ≤ (p.h : K)) → interp p s t = none)
    {junk : Nat → Nat → Nat → Option V} {data : Stack V} (hdet : g.det = .agipd) (hcomp : Spec.Complete g)
    (hsize : Spec.RightSize g) (hex : ∀ m ∈ g.modules, ∀ f ∈ m, Spec.Exact (g.det.pixelShape rowStep) f)
    (hnear : ∀ m ∈ g.modules, ∀ f ∈ m, ∀ v ∈ f.corners,
      |v.x / (g.det.pixelShape rowStep).1| < 100000 ∧ |v.y / (g.det.pixelShape rowStep).2| < 100000)
    {img : Plane (Option V)} {centre : Int × Int}
    (h : g.positionInterpolate rowStep interp junk data = .ok (img, centre)) (y x : Nat) (hy : 1 ≤ y) (hx : 1 ≤ x) :
    img.get y x = none := by
  obtain ⟨⟨size, hdim, -, -⟩, hcells⟩ := interpolate_image hdet hcomp h
  have hne : ∃ m ∈ g.modules, ∃ f, f ∈ m := by
    have hlen := hcomp.1
    have hmod := hcomp.2
    rw [hdet] at hlen hmod
    simp only [Spec.shape, Spec.tiles] at hlen hmod
    have h0 : 0 < g.modules.length := by omega
    have h1 : 0 < (g.modules[0]).length := by rw [hmod _ (List.getElem_mem h0)]; norm_num
    exact ⟨_, List.getElem_mem h0, _, List.getElem_mem h1⟩
  obtain ⟨h', w', cy, cx, hdim', -, hn1, -, hn2, -⟩ := box_holds g rowStep hrow hne
  have hc := Except.ok.inj (hdim.symm.trans hdim')
  rw [Prod.mk.injEq] at hc
  obtain ⟨rfl, rfl⟩ := hc
  have bx : |(cx : K)| < 100002 := by
    obtain ⟨m, hm, f, hf, v, hv, hd⟩ := hn1
    have := (hnear m hm f hf v hv).1
    rw [abs_lt] at hd this ⊢
    constructor <;> linarith [hd.1, hd.2, this.1, this.2]
  have by' : |(cy : K)| < 100002 := by
    obtain ⟨m, hm, f, hf, v, hv, hd⟩ := hn2
    have := (hnear m hm f hf v hv).2
    rw [abs_lt] at hd this ⊢
    constructor <;> linarith [hd.1, hd.2, this.1, this.2]
  cases hv : img.get y x with
  | none => rfl
  | some v =>
    exfalso
    obtain ⟨⟨i, j, f, a, b, ⟨m, hmi, hmj⟩, h1, h2⟩, -⟩ := (hcells y x v).1 hv
    have hm := List.mem_of_getElem? hmi
    have hf := List.mem_of_getElem? hmj
    have hs := hsize m hm f hf
    rw [hdet] at hs
    simp only [Spec.tileShape] at hs
    have he := hex m hm f hf
    have hco := hnear m hm f hf (Spec.point f 0 0) ((corners_eq f _).2 (Or.inl rfl))
    rw [hdet] at he hco
    simp only [Det.pixelShape, Det.pixelSize, Spec.point, zero_mul, add_zero, one_mul] at hco
    have sm : ∀ z : K, |z / (2 / 10000)| < 100000 → |z| < 20 := by
      intro z hz
      rw [abs_lt] at hz ⊢
      rw [lt_div_iff₀ (by norm_num), div_lt_iff₀ (by norm_num)] at hz
      constructor <;> linarith [hz.1, hz.2]
    have cx' := sm _ hco.1
    have cy' := sm _ hco.2
    rw [abs_lt] at cx' cy' bx by'
    obtain ⟨s, t, e, h3, -⟩ := interpolate_wrong f rowStep (by exact_mod_cast hs) he cy cx
      (by rw [abs_lt]; constructor <;> linarith [cy'.1, cy'.2, by'.1, by'.2])
      (by rw [abs_lt]; constructor <;> linarith [cx'.1, cx'.2, bx.1, bx.2])
      (y : K) (x : K) (by exact_mod_cast hy) (by exact_mod_cast hx)
    rw [h1, Option.some.injEq, Prod.mk.injEq] at e
    rw [← e.1] at h3
    rw [hint _ _ _ (by rw [hs.1] at h3; exact_mod_cast h3)] at h2
    simp at h2

theorem agipd_corners_near {ag pg : K} (hag : 0 ≤ ag ∧ ag ≤ 1000) (hpg : 0 ≤ pg ∧ pg ≤ 1000) {q : K × K}
    (hq : |q.1| ≤ 10000 ∧ |q.2| ≤ 10000) {m t : Nat} (ht : t < 8) {v : Vec K}
    (hv : v ∈ (agipdTile (2 / 10000) ag pg q m t).corners) :
    |v.x / (2 / 10000)| < 100000 ∧ |v.y / (2 / 10000)| < 100000 := by
  obtain ⟨⟨hq1, hq2⟩, hq3, hq4⟩ := And.intro (abs_le.1 hq.1) (abs_le.1 hq.2)
  have hm : ((m % 4 : Nat) : K) ≤ 3 := by
    have : m % 4 ≤ 3 := by omega
    exact_mod_cast this
  have hm0 : (0 : K) ≤ ((m % 4 : Nat) : K) := Nat.cast_nonneg _
  have ht' : (t : K) ≤ 7 := by
    have : t ≤ 7 := by omega
    exact_mod_cast this
  have ht0 : (0 : K) ≤ (t : K) := Nat.cast_nonneg _
  have p1 : 0 ≤ (t : K) * ag ∧ (t : K) * ag ≤ 7000 := ⟨mul_nonneg ht0 hag.1, by nlinarith [hag.1, hag.2]⟩
  have p2 : 0 ≤ ((m % 4 : Nat) : K) * pg ∧ ((m % 4 : Nat) : K) * pg ≤ 3000 :=
    ⟨mul_nonneg hm0 hpg.1, by nlinarith [hpg.1, hpg.2]⟩
  rw [corners_eq, agipd_tile] at hv
  have key : ∀ a b : K, (a = 0 ∨ a = 64) → (b = 0 ∨ b = 128) →
      |(q.1 * (2 / 10000) + Spec.agipdDir m * (t * (64 * (2 / 10000) + ag * (2 / 10000))) + a * (Spec.agipdDir m * (2 / 10000))) / (2 / 10000)| < 100000 ∧
      |(q.2 * (2 / 10000) - ((m % 4 : Nat) : K) * (128 * (2 / 10000) + pg * (2 / 10000)) + b * (-Spec.agipdDir m * (2 / 10000))) / (2 / 10000)| < 100000 := by
    intro a b ha hb
    have e1 : (q.1 * (2 / 10000) + Spec.agipdDir m * (t * (64 * (2 / 10000) + ag * (2 / 10000))) + a * (Spec.agipdDir m * (2 / 10000))) / (2 / 10000) =
        q.1 + Spec.agipdDir m * (64 * t + t * ag + a) := by
      rw [div_eq_iff (by norm_num)]; ring
    have e2 : (q.2 * (2 / 10000) - ((m % 4 : Nat) : K) * (128 * (2 / 10000) + pg * (2 / 10000)) + b * (-Spec.agipdDir m * (2 / 10000))) / (2 / 10000) =
        q.2 - (128 * ((m % 4 : Nat) : K) + ((m % 4 : Nat) : K) * pg) - Spec.agipdDir m * b := by
      rw [div_eq_iff (by norm_num)]; ring
    rw [e1, e2, abs_lt, abs_lt]
    have ha' : 0 ≤ a ∧ a ≤ 64 := by rcases ha with rfl | rfl <;> norm_num
    have hb' : 0 ≤ b ∧ b ≤ 128 := by rcases hb with rfl | rfl <;> norm_num
    rcases agipdDir_cases (K := K) m with hd | hd <;> rw [hd] <;>
      refine ⟨⟨?_, ?_⟩, ⟨?_, ?_⟩⟩ <;> linarith [p1.1, p1.2, p2.1, p2.2, ha'.1, ha'.2, hb'.1, hb'.2]
  have k1 := key 0 0 (Or.inl rfl) (Or.inl rfl)
  have k2 := key 0 128 (Or.inl rfl) (Or.inr rfl)
  have k3 := key 64 128 (Or.inr rfl) (Or.inr rfl)
  have k4 := key 64 0 (Or.inr rfl) (Or.inl rfl)
  rcases hv with rfl | rfl | rfl | rfl <;> simp only [Spec.point, mul_zero, zero_mul, add_zero] at * <;> push_cast <;> assumption

/-- C91 is false for geometries made by `from_quad_positions` in pixels: whatever the positions of the quadrants (up to 10000 pixels from
the centre) and the gaps (up to 1000 pixels), nothing of the data is seen in the image, apart from its first row and column. -/
theorem interpolate_quads_wrong [LinearOrder V] {rowStep : K} (hrow : 0 < rowStep) {interp : Plane V → K → K → Option V}
    (hint : ∀ p s t, ¬ (0 ≤ s ∧ s ≤ (p.h : K)) → interp p s t = none) {junk : Nat → Nat → Nat → Option V} {data : Stack V}
    (hdata : (data.n, data.h, data.w) = (16, 512, 128)) (quads : List (K × K)) (h4 : 4 ≤ quads.length)
    (hq : ∀ q ∈ quads, |q.1| ≤ 10000 ∧ |q.2| ≤ 10000) {ag pg : K} (hag : 0 ≤ ag ∧ ag ≤ 1000) (hpg : 0 ≤ pg ∧ pg ≤ 1000) :
    ∃ g img centre, agipdQuads quads (2 / 10000) ag pg = .ok g ∧
      g.positionInterpolate rowStep interp junk data = .ok (img, centre) ∧
      ∀ y x : Nat, 1 ≤ y → 1 ≤ x → img.get y x = none := by
  obtain ⟨g, hg, hdet, hcomp, hsize, hex, htile⟩ := agipd_quads quads (2 / 10000) ag pg h4
  have hof : ∀ m ∈ g.modules, ∀ f ∈ m, ∃ i t, t < 8 ∧ f = agipdTile (2 / 10000) ag pg (quads.getD (i / 4) (0, 0)) i t ∧ i < 16 := by
    intro m hm f hf
    obtain ⟨i, hi⟩ := List.mem_iff_getElem?.1 hm
    obtain ⟨t, ht⟩ := List.mem_iff_getElem?.1 hf
    obtain ⟨h1, h2, h3⟩ := (htile i t f).1 ⟨m, hi, ht⟩
    exact ⟨i, t, h2, h3, h1⟩
  have hne : ∃ m ∈ g.modules, ∃ f, f ∈ m := by
    obtain ⟨m, hm, hf⟩ := (htile 0 0 _).2 ⟨by norm_num, by norm_num, rfl⟩
    exact ⟨m, List.mem_of_getElem? hm, _, List.mem_of_getElem? hf⟩
  obtain ⟨img, centre, himg⟩ := (interpolate_succeeds hrow interp junk data hne).2 hdata (fun m hm f hf => by
    obtain ⟨i, t, -, rfl, -⟩ := hof m hm f hf
    rw [agipd_tile]
    simp only
    rcases agipdDir_cases (K := K) i with hd | hd <;> rw [hd] <;> norm_num)
  refine ⟨g, img, centre, hg, himg, fun y x hy hx => ?_⟩
  refine interpolate_image_wrong hrow hint hdet hcomp hsize (hex rfl rowStep) (fun m hm f hf v hv => ?_) himg y x hy hx
  obtain ⟨i, t, ht, rfl, hi⟩ := hof m hm f hf
  rw [hdet]
  simp only [Det.pixelShape, Det.pixelSize, one_mul]
  refine agipd_corners_near hag hpg (hq _ ?_) ht hv
  rw [List.getD_eq_getElem?_getD, List.getElem?_eq_getElem (show i / 4 < quads.length by omega)]
  exact List.getElem_mem _

/-- The conditions are met by the positions of quadrants in the documentation, and by data between whose pixels nothing is
interpolated. -/
example : (∀ q ∈ ([(-525, 625), (-550, -10), (520, -160), (542.5, 475)] : List (ℚ × ℚ)), |q.1| ≤ 10000 ∧ |q.2| ≤ 10000) ∧
    (∀ (p : Plane ℚ) (s t : ℚ), ¬ (0 ≤ s ∧ s ≤ (p.h : ℚ)) →
      (if 0 ≤ s ∧ s ≤ (p.h : ℚ) then some (p.get ⌊s⌋.toNat ⌊t⌋.toNat) else none) = none) := by
  refine ⟨?_, fun p s t h => if_neg h⟩
  intro q hq
  simp only [List.mem_cons, List.not_mem_nil, or_false] at hq
  rcases hq with rfl | rfl | rfl | rfl <;> simp only [abs_le] <;> norm_num

/-- An image is made from a geometry with one tile, so that `interpolate_missing_wrong` says something. -/
example (interp : Plane ℚ → ℚ → ℚ → Option ℚ) (junk : Nat → Nat → Nat → Option ℚ) (data : Stack ℚ) (hd : (data.n, data.h, data.w) = (16, 512, 128)) :
    ∃ (img : Plane (Option ℚ)) (centre : Int × Int), (⟨.agipd, [[⟨⟨0, 0, 0⟩, ⟨0, 1, 0⟩, ⟨1, 0, 0⟩, 64, 128⟩]]⟩ : Geom ℚ).positionInterpolate (1 / 5000) interp junk data = .ok (img, centre) := by
  refine (interpolate_succeeds (by norm_num) interp junk data ⟨_, List.mem_singleton_self _, _, List.mem_singleton_self _⟩).2 hd ?_
  intro m hm f hf
  simp only [List.mem_singleton] at hm
  subst hm
  simp only [List.mem_singleton] at hf
  subst hf
  norm_num

end KD.Geo
