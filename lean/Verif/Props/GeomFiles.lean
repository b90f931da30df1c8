/-
C88 XFEL geometry files (HDF5); C89 inverting them; C90, C91 interpolation.
-/
import Verif.Props.Quads

set_option linter.unusedSimpArgs false
set_option linter.unusedSectionVars false

namespace KD.Geo

variable {V : Type} {K : Type} [Field K] [LinearOrder K] [IsStrictOrderedRing K] [FloorRing K]

/-- The position of a tile according to the file and the given position of its quadrant. -/
def Spec.h5Position (f : H5Geom K) (unit : K) (pos : K × K) (Q M T : Nat) (x y : K) : Prop :=
  ∃ mo tp, f.module Q M = some mo ∧ f.tile Q M T = some tp ∧ x = (pos.1 + mo.1 + tp.1) * unit ∧ y = (pos.2 + mo.2 + tp.2) * unit

/-- All groups which are needed are in the file. -/
def Spec.HasGroups (f : H5Geom K) (nTiles : Nat) : Prop :=
  ∀ Q M, 1 ≤ Q → Q ≤ 4 → 1 ≤ M → M ≤ 4 → (∃ mo, f.module Q M = some mo) ∧ ∀ T, 1 ≤ T → T ≤ nTiles → ∃ tp, f.tile Q M T = some tp

theorem h5Corner_ok {f : H5Geom K} {unit : K} {pos : K × K} {Q M T : Nat} {c : Vec K} :
    h5Corner f unit pos Q M T = .ok c ↔ Spec.h5Position f unit pos Q M T c.x c.y ∧ c.z = 0 := by
  unfold h5Corner Spec.h5Position
  cases f.module Q M with
  | none => simp
  | some mo =>
    cases f.tile Q M T with
    | none => simp
    | some tp =>
      simp only [Except.ok.injEq, Option.some.injEq, exists_and_left, exists_eq_left', zero_mul]
      constructor
      · rintro rfl; exact ⟨⟨rfl, rfl⟩, rfl⟩
      · rintro ⟨⟨h1, h2⟩, h3⟩; ext <;> simp [h1, h2, h3]

theorem h5Corner_key {f : H5Geom K} {unit : K} {pos : K × K} {Q M T : Nat} {e : PyErr}
    (h : h5Corner f unit pos Q M T = .error e) : e = .key ∧ (f.module Q M = none ∨ f.tile Q M T = none) := by
  unfold h5Corner at h
  cases hm : f.module Q M with
  | none => rw [hm] at h; simp only [Except.error.injEq] at h; exact ⟨h.symm, Or.inl rfl⟩
  | some mo =>
    rw [hm] at h
    simp only at h
    cases ht : f.tile Q M T with
    | none => rw [ht] at h; simp only [Except.error.injEq] at h; exact ⟨h.symm, Or.inr rfl⟩
    | some tp => rw [ht] at h; simp at h

theorem h5Corner_fails {f : H5Geom K} {unit : K} {pos : K × K} {Q M T : Nat} (h : f.module Q M = none ∨ f.tile Q M T = none) :
    h5Corner f unit pos Q M T = .error .key := by
  unfold h5Corner
  rcases h with h | h
  · rw [h]
  · cases f.module Q M with
    | none => rfl
    | some mo => rw [h]

/-- Both ways to read a file: the geometry has the tiles which are read, or one of them fails. -/
theorem h5_loop (d : Det) (nTiles : Nat) (tile : K × K → Nat → Nat → Nat → R (Frag K)) (positions : List (K × K))
    (h4 : positions.length = 4) :
    (∀ g, h5Quads d nTiles tile positions = .ok g → g.det = d ∧ g.modules.length = 16 ∧ (∀ m ∈ g.modules, m.length = nTiles) ∧
      ∀ m t f, Spec.IsTile g m t f →
        m < 16 ∧ t < nTiles ∧ ∃ pos, positions[m / 4]? = some pos ∧ tile pos (m / 4 + 1) (m % 4 + 1) (t + 1) = .ok f) ∧
    (∀ e, h5Quads d nTiles tile positions = .error e → ∃ pos Q M T, pos ∈ positions ∧ 1 ≤ Q ∧ Q ≤ 4 ∧ 1 ≤ M ∧ M ≤ 4 ∧ 1 ≤ T ∧
      T ≤ nTiles ∧ tile pos Q M T = .error e) := by
  have hnth : ∀ k, k < 16 → ∃ pos, positions[k / 4]? = some pos ∧ nth positions (k / 4) = .ok pos := by
    intro k hk
    have hl : k / 4 < positions.length := by omega
    exact ⟨positions[k / 4], List.getElem?_eq_getElem hl, nth_ok_iff.2 (List.getElem?_eq_getElem hl)⟩
  have hmod : ∀ k, k < 16 → ∃ pos, positions[k / 4]? = some pos ∧
      h5Module nTiles tile positions k = mapE (fun T => tile pos (k / 4 + 1) (k % 4 + 1) (T + 1)) (List.range nTiles) := by
    intro k hk
    obtain ⟨pos, h1, h2⟩ := hnth k hk
    refine ⟨pos, h1, ?_⟩
    unfold h5Module
    rw [h2]
  unfold h5Quads
  rw [if_pos h4]
  constructor
  · intro g hg
    split at hg
    · simp at hg
    · next mods hm =>
      obtain rfl := Except.ok.inj hg
      refine ⟨rfl, by rw [mapE_length hm]; simp, ?_, ?_⟩
      · intro m hmm
        obtain ⟨k, hk, hk'⟩ := mapE_mem hm |>.1 hmm
        have hk16 : k < 16 := by simpa using hk
        obtain ⟨pos, -, e⟩ := hmod k hk16
        rw [e] at hk'
        rw [mapE_length hk']
        simp
      · rintro m t f ⟨mod, b1, b2⟩
        obtain ⟨k, hk, hk'⟩ := mapE_getElem? hm b1
        obtain ⟨hk1, hk2⟩ := List.getElem?_eq_some_iff.1 hk
        simp only [List.length_range] at hk1
        simp only [List.getElem_range] at hk2
        subst hk2
        obtain ⟨pos, e1, e2⟩ := hmod m hk1
        rw [e2] at hk'
        obtain ⟨T, hT, hT'⟩ := mapE_getElem? hk' b2
        obtain ⟨ht1, ht2⟩ := List.getElem?_eq_some_iff.1 hT
        simp only [List.length_range] at ht1
        simp only [List.getElem_range] at ht2
        subst ht2
        exact ⟨hk1, ht1, pos, e1, hT'⟩
  · intro e he
    split at he
    · next e' hm =>
      obtain rfl := Except.error.inj he
      obtain ⟨k, hk, hk'⟩ := mapE_error_of hm
      have hk16 : k < 16 := by simpa using hk
      obtain ⟨pos, e1, e2⟩ := hmod k hk16
      rw [e2] at hk'
      obtain ⟨T, hT, hT'⟩ := mapE_error_of hk'
      have hTn : T < nTiles := by simpa using hT
      exact ⟨pos, k / 4 + 1, k % 4 + 1, T + 1, List.mem_of_getElem? e1, by omega, by omega, by omega, by omega, by omega, by omega, hT'⟩
    · simp at he

/-- C88: AssertionError unless four positions are given. -/
theorem h5_positions (f : H5Geom K) (rowStep unit : K) (positions : List (K × K)) (h : positions.length ≠ 4) :
    lpdH5 f positions unit = .error .assertion ∧ dsscH5 f rowStep positions unit = .error .assertion := by
  unfold lpdH5 dsscH5 h5Quads
  rw [if_neg h, if_neg h]
  exact ⟨rfl, rfl⟩

/-- C88: LPD. If the file has positions of all modules and tiles, the geometry is complete, and the corner of tile T of module M of
quadrant Q with the highest x and y is where the file and the positions of the quadrants say. -/
theorem lpd_h5 (f : H5Geom K) (unit : K) (positions : List (K × K)) (h4 : positions.length = 4) (hg : Spec.HasGroups f 16) :
    ∃ g, lpdH5 f positions unit = .ok g ∧ g.det = .lpd ∧ Spec.Complete g ∧ Spec.RightSize g ∧
      (∀ rowStep : K, ∀ m ∈ g.modules, ∀ t ∈ m, Spec.Exact (g.det.pixelShape rowStep) t) ∧
      ∀ m t fr, Spec.IsTile g m t fr → fr.ss = ⟨0, 5 / 10000, 0⟩ ∧ fr.fs = ⟨5 / 10000, 0, 0⟩ ∧
        ∃ pos x y, positions[m / 4]? = some pos ∧ Spec.h5Position f unit pos (m / 4 + 1) (m % 4 + 1) (t + 1) x y ∧
          Spec.point fr 32 128 = ⟨x, y, 0⟩ := by
  obtain ⟨hok, herr⟩ := h5_loop .lpd Det.lpd.nModules (lpdH5Tile f unit) positions h4
  cases hr : lpdH5 f positions unit with
  | error e =>
    exfalso
    unfold lpdH5 at hr
    obtain ⟨pos, Q, M, T, -, q1, q2, m1, m2, t1, t2, ht⟩ := herr e hr
    obtain ⟨⟨mo, h1⟩, h2⟩ := hg Q M q1 q2 m1 m2
    obtain ⟨tp, h3⟩ := h2 T t1 t2
    unfold lpdH5Tile h5Corner at ht
    rw [h1, h3] at ht
    simp at ht
  | ok g =>
    unfold lpdH5 at hr
    obtain ⟨a1, a2, a3, a4⟩ := hok g hr
    have key : ∀ m t fr, Spec.IsTile g m t fr → fr.ss = ⟨0, 5 / 10000, 0⟩ ∧ fr.fs = ⟨5 / 10000, 0, 0⟩ ∧ fr.ssPixels = 32 ∧
        fr.fsPixels = 128 ∧
        ∃ pos x y, positions[m / 4]? = some pos ∧ Spec.h5Position f unit pos (m / 4 + 1) (m % 4 + 1) (t + 1) x y ∧
          Spec.point fr 32 128 = ⟨x, y, 0⟩ := by
      intro m t fr hf
      obtain ⟨-, -, pos, p1, p2⟩ := a4 m t fr hf
      unfold lpdH5Tile at p2
      split at p2
      · simp at p2
      · next c hc =>
        obtain ⟨c1, c2⟩ := h5Corner_ok.1 hc
        obtain rfl := Except.ok.inj p2
        refine ⟨by simp [Det.pixelSize], by simp [Det.pixelSize], rfl, rfl, pos, c.x, c.y, p1, c1, ?_⟩
        simp only [Spec.point, Vec.sub, Vec.smul, Det.pixelSize, Det.ssPixels, Det.fsPixels, c2]
        refine Vec.ext ?_ ?_ ?_ <;> simp only <;> push_cast <;> ring
    have key' : ∀ m ∈ g.modules, ∀ t ∈ m, t.ss = ⟨0, 5 / 10000, 0⟩ ∧ t.fs = ⟨5 / 10000, 0, 0⟩ ∧ t.ssPixels = 32 ∧
        t.fsPixels = 128 := by
      intro m hm t ht
      obtain ⟨i, hi⟩ := List.getElem?_of_mem hm
      obtain ⟨j, hj⟩ := List.getElem?_of_mem ht
      obtain ⟨k1, k2, k3, k4, -⟩ := key i j t ⟨m, hi, hj⟩
      exact ⟨k1, k2, k3, k4⟩
    refine ⟨g, rfl, a1, ⟨by rw [a2, a1]; rfl, fun m hm => by rw [a3 m hm, a1]; rfl⟩, ?_, ?_, ?_⟩
    · intro m hm t ht
      rw [a1]
      obtain ⟨-, -, k3, k4⟩ := key' m hm t ht
      exact ⟨k3, k4⟩
    · intro rowStep m hm t ht
      obtain ⟨k1, k2, -, -⟩ := key' m hm t ht
      refine ⟨(1, 0), (0, 1), ⟨by simp [Spec.UnitStep], by simp [Spec.UnitStep], by simp⟩, ?_⟩
      rw [a1, k1, k2]
      simp [Det.pixelShape, Det.pixelSize]
    · intro m t fr hf
      obtain ⟨k1, k2, -, -, k5⟩ := key m t fr hf
      exact ⟨k1, k2, k5⟩

/-- C88: DSSC. The given position is the one of the corner of the tile with the lowest x and y; the first two quadrants are turned
by 180 degrees against the others. -/
theorem dssc_h5 (f : H5Geom K) (rowStep unit : K) (hrow : 0 < rowStep) (positions : List (K × K)) (h4 : positions.length = 4)
    (hg : Spec.HasGroups f 2) :
    ∃ g, dsscH5 f rowStep positions unit = .ok g ∧ g.det = .dssc ∧ Spec.Complete g ∧ Spec.RightSize g ∧
      (∀ m ∈ g.modules, ∀ t ∈ m, Spec.Exact (g.det.pixelShape rowStep) t) ∧
      ∀ m t fr, Spec.IsTile g m t fr →
        (let d : K := if m / 4 < 2 then 1 else -1
         fr.ss = ⟨0, d * (236 / 1000000 * rowStep), 0⟩ ∧ fr.fs = ⟨-d * (236 / 1000000), 0, 0⟩) ∧
        ∃ pos x y, positions[m / 4]? = some pos ∧ Spec.h5Position f unit pos (m / 4 + 1) (m % 4 + 1) (t + 1) x y ∧
          (∃ s ∈ [(0 : K), 128], ∃ u ∈ [(0 : K), 256], Spec.point fr s u = ⟨x, y, 0⟩) ∧
          ∀ s ∈ [(0 : K), 128], ∀ u ∈ [(0 : K), 256], x ≤ (Spec.point fr s u).x ∧ y ≤ (Spec.point fr s u).y := by
  obtain ⟨hok, herr⟩ := h5_loop .dssc 2 (dsscH5Tile f rowStep unit) positions h4
  cases hr : dsscH5 f rowStep positions unit with
  | error e =>
    exfalso
    unfold dsscH5 at hr
    obtain ⟨pos, Q, M, T, -, q1, q2, m1, m2, t1, t2, ht⟩ := herr e hr
    obtain ⟨⟨mo, h1⟩, h2⟩ := hg Q M q1 q2 m1 m2
    obtain ⟨tp, h3⟩ := h2 T t1 t2
    unfold dsscH5Tile h5Corner at ht
    rw [h1, h3] at ht
    simp at ht
  | ok g =>
    unfold dsscH5 at hr
    obtain ⟨a1, a2, a3, a4⟩ := hok g hr
    have key : ∀ m t fr, Spec.IsTile g m t fr →
        (let d : K := if m / 4 < 2 then 1 else -1
         fr.ss = ⟨0, d * (236 / 1000000 * rowStep), 0⟩ ∧ fr.fs = ⟨-d * (236 / 1000000), 0, 0⟩) ∧ fr.ssPixels = 128 ∧
        fr.fsPixels = 256 ∧
        ∃ pos x y, positions[m / 4]? = some pos ∧ Spec.h5Position f unit pos (m / 4 + 1) (m % 4 + 1) (t + 1) x y ∧
          (∃ s ∈ [(0 : K), 128], ∃ u ∈ [(0 : K), 256], Spec.point fr s u = ⟨x, y, 0⟩) ∧
          ∀ s ∈ [(0 : K), 128], ∀ u ∈ [(0 : K), 256], x ≤ (Spec.point fr s u).x ∧ y ≤ (Spec.point fr s u).y := by
      intro m t fr hf
      obtain ⟨-, -, pos, p1, p2⟩ := a4 m t fr hf
      unfold dsscH5Tile at p2
      split at p2
      · simp at p2
      · next c hc =>
        obtain ⟨c1, c2⟩ := h5Corner_ok.1 hc
        obtain rfl := Except.ok.inj p2
        rw [Nat.add_sub_cancel]
        by_cases hm : m / 4 < 2
        · simp only [hm, if_true]
          refine ⟨⟨?_, ?_⟩, rfl, rfl, pos, c.x, c.y, p1, c1, ⟨0, by simp, 256, by simp, ?_⟩, ?_⟩
          · simp only [Det.pixelSize, Vec.mk.injEq]; push_cast; exact ⟨trivial, by ring, trivial⟩
          · simp only [Det.pixelSize, Vec.mk.injEq]; push_cast; exact ⟨by ring, trivial, trivial⟩
          · simp only [Spec.point, Vec.sub, Vec.smul, Det.pixelSize, Det.fsPixels, c2]
            refine Vec.ext ?_ ?_ ?_ <;> simp only <;> push_cast <;> ring
          · intro s hs u hu
            simp only [List.mem_cons, List.not_mem_nil, or_false] at hs hu
            simp only [Spec.point, Vec.sub, Vec.smul, Det.pixelSize, Det.fsPixels, c2]
            push_cast
            have h0 : (0 : K) < 236 / 1000000 * rowStep := by positivity
            rcases hs with rfl | rfl <;> rcases hu with rfl | rfl <;> constructor <;> nlinarith
        · simp only [hm, if_false]
          refine ⟨⟨?_, ?_⟩, rfl, rfl, pos, c.x, c.y, p1, c1, ⟨128, by simp, 0, by simp, ?_⟩, ?_⟩
          · simp only [Det.pixelSize, Vec.mk.injEq]; push_cast; exact ⟨trivial, by ring, trivial⟩
          · simp only [Det.pixelSize, Vec.mk.injEq]; push_cast; exact ⟨by ring, trivial, trivial⟩
          · rw [if_neg (by decide)]
            simp only [Spec.point, Vec.sub, Vec.smul, Det.pixelSize, Det.ssPixels, c2]
            refine Vec.ext ?_ ?_ ?_ <;> simp only <;> push_cast <;> ring
          · intro s hs u hu
            simp only [List.mem_cons, List.not_mem_nil, or_false] at hs hu
            rw [if_neg (by decide)]
            simp only [Spec.point, Vec.sub, Vec.smul, Det.pixelSize, Det.ssPixels, c2]
            push_cast
            have h0 : (0 : K) < 236 / 1000000 * rowStep := by positivity
            rcases hs with rfl | rfl <;> rcases hu with rfl | rfl <;> constructor <;> nlinarith
    refine ⟨g, rfl, a1, ⟨by rw [a2, a1]; rfl, fun m hm => by rw [a3 m hm, a1]; rfl⟩, ?_, ?_, ?_⟩
    · intro m hm t ht
      obtain ⟨i, hi⟩ := List.getElem?_of_mem hm
      obtain ⟨j, hj⟩ := List.getElem?_of_mem ht
      obtain ⟨-, k3, k4, -⟩ := key i j t ⟨m, hi, hj⟩
      rw [a1]
      exact ⟨k3, k4⟩
    · intro m hm t ht
      obtain ⟨i, hi⟩ := List.getElem?_of_mem hm
      obtain ⟨j, hj⟩ := List.getElem?_of_mem ht
      obtain ⟨⟨k1, k2⟩, -⟩ := key i j t ⟨m, hi, hj⟩
      refine ⟨(if i / 4 < 2 then 1 else -1, 0), (0, if i / 4 < 2 then -1 else 1), ⟨?_, ?_, ?_⟩, ?_⟩
      · split <;> simp [Spec.UnitStep]
      · split <;> simp [Spec.UnitStep]
      · split <;> simp
      · rw [a1, k1, k2]
        simp only [Det.pixelShape, Det.pixelSize]
        split <;> push_cast <;> refine ⟨by ring, by ring, by ring, by ring⟩
    · intro m t fr hf
      obtain ⟨k1, -, -, k5⟩ := key m t fr hf
      exact ⟨k1, k5⟩

/-- C88: KeyError if a position is missing in the file. -/
theorem h5_missing (f : H5Geom K) (rowStep unit : K) (positions : List (K × K)) (h4 : positions.length = 4) :
    (¬ Spec.HasGroups f 16 → lpdH5 f positions unit = .error .key) ∧
      (¬ Spec.HasGroups f 2 → dsscH5 f rowStep positions unit = .error .key) := by
  have gen : ∀ (d : Det) (n : Nat) (hn : 0 < n) (tile : K × K → Nat → Nat → Nat → R (Frag K))
      (h1 : ∀ pos Q M T, (f.module Q M = none ∨ f.tile Q M T = none) → ∃ e, tile pos Q M T = .error e)
      (h2 : ∀ pos Q M T e, tile pos Q M T = .error e → e = .key),
      ¬ Spec.HasGroups f n → h5Quads d n tile positions = .error .key := by
    intro d n hn tile h1 h2 hne
    obtain ⟨hok, herr⟩ := h5_loop d n tile positions h4
    cases hr : h5Quads d n tile positions with
    | error e =>
      obtain ⟨pos, Q, M, T, -, -, -, -, -, -, -, ht⟩ := herr e hr
      rw [h2 pos Q M T e ht]
    | ok g =>
      exfalso
      apply hne
      obtain ⟨a1, a2, a3, a4⟩ := hok g hr
      have all : ∀ Q M T, 1 ≤ Q → Q ≤ 4 → 1 ≤ M → M ≤ 4 → 1 ≤ T → T ≤ n → f.module Q M ≠ none ∧ f.tile Q M T ≠ none := by
        intro Q M T q1 q2 m1 m2 t1 t2
        have hm : 4 * (Q - 1) + (M - 1) < g.modules.length := by omega
        have ht : T - 1 < g.modules[4 * (Q - 1) + (M - 1)].length := by
          rw [a3 _ (List.getElem_mem hm)]; omega
        obtain ⟨-, -, pos, -, p2⟩ := a4 (4 * (Q - 1) + (M - 1)) (T - 1) _
          ⟨_, List.getElem?_eq_getElem hm, List.getElem?_eq_getElem ht⟩
        rw [show (4 * (Q - 1) + (M - 1)) / 4 + 1 = Q by omega, show (4 * (Q - 1) + (M - 1)) % 4 + 1 = M by omega,
          show T - 1 + 1 = T by omega] at p2
        constructor
        · intro hn
          obtain ⟨e, he⟩ := h1 pos Q M T (Or.inl hn)
          rw [he] at p2; simp at p2
        · intro hn
          obtain ⟨e, he⟩ := h1 pos Q M T (Or.inr hn)
          rw [he] at p2; simp at p2
      intro Q M q1 q2 m1 m2
      constructor
      · exact Option.ne_none_iff_exists'.1 (all Q M 1 q1 q2 m1 m2 (by omega) (by omega)).1
      · intro T t1 t2
        exact Option.ne_none_iff_exists'.1 (all Q M T q1 q2 m1 m2 t1 t2).2
  refine ⟨gen .lpd _ (by decide) _ ?_ ?_, gen .dssc 2 (by decide) _ ?_ ?_⟩
  · intro pos Q M T h
    unfold lpdH5Tile
    rw [h5Corner_fails h]
    exact ⟨_, rfl⟩
  · intro pos Q M T e h
    unfold lpdH5Tile at h
    split at h
    · next hc =>
      obtain rfl := Except.error.inj h
      exact (h5Corner_key hc).1
    · simp at h
  · intro pos Q M T h
    unfold dsscH5Tile
    rw [h5Corner_fails h]
    exact ⟨_, rfl⟩
  · intro pos Q M T e h
    unfold dsscH5Tile at h
    split at h
    · next hc =>
      obtain rfl := Except.error.inj h
      exact (h5Corner_key hc).1
    · simp at h

/-! ### C89: inverting -/

theorem negPos_ok {p : Option (K × K)} {q : K × K} : negPos p = .ok q ↔ ∃ x y, p = some (x, y) ∧ q = (-x, -y) := by
  unfold negPos
  cases p with
  | none => simp
  | some p => simp only [Except.ok.injEq, Option.some.injEq]; constructor
              · rintro rfl; exact ⟨p.1, p.2, rfl, rfl⟩
              · rintro ⟨x, y, rfl, rfl⟩; rfl

theorem negPos_error {p : Option (K × K)} {e : PyErr} (h : negPos p = .error e) : e = .key ∧ p = none := by
  unfold negPos at h
  cases p with
  | none => exact ⟨(Except.error.inj h).symm, rfl⟩
  | some p => simp at h

/-- C89: for a file with all positions the file written has the same description and every position of a module or a tile with
the opposite sign, and no others. -/
theorem invert_positions (f : H5GeomFile K) (d : Str) (hd : f.describtion = some d) (hg : Spec.HasGroups f.geom 16) :
    ∃ r, invertLpd f = .ok r ∧ r.description = some d ∧ r.describtion = none ∧
      (∀ Q M x y, r.geom.module Q M = some (x, y) ↔ 1 ≤ Q ∧ Q ≤ 4 ∧ 1 ≤ M ∧ M ≤ 4 ∧ f.geom.module Q M = some (-x, -y)) ∧
      ∀ Q M T x y, r.geom.tile Q M T = some (x, y) ↔
        1 ≤ Q ∧ Q ≤ 4 ∧ 1 ≤ M ∧ M ≤ 4 ∧ 1 ≤ T ∧ T ≤ 16 ∧ f.geom.tile Q M T = some (-x, -y) := by
  have hts : ∀ k, k < 16 → ∃ m ts, f.geom.module (k / 4 + 1) (k % 4 + 1) = some m ∧
      mapE (fun T => negPos (f.geom.tile (k / 4 + 1) (k % 4 + 1) (T + 1))) (List.range 16) = .ok ts ∧
      invertModule f.geom k = .ok ((-m.1, -m.2), ts) := by
    intro k hk
    obtain ⟨⟨m, h1⟩, h2⟩ := hg (k / 4 + 1) (k % 4 + 1) (by omega) (by omega) (by omega) (by omega)
    obtain ⟨ts, h3⟩ : ∃ ts, mapE (fun T => negPos (f.geom.tile (k / 4 + 1) (k % 4 + 1) (T + 1))) (List.range 16) = .ok ts := by
      apply mapE_exists_ok
      intro T hT
      obtain ⟨tp, h⟩ := h2 (T + 1) (by omega) (by have := List.mem_range.1 hT; omega)
      rw [h]
      exact ⟨_, rfl⟩
    refine ⟨m, ts, h1, h3, ?_⟩
    unfold invertModule
    rw [h1, h3]
    rfl
  obtain ⟨mods, hm⟩ : ∃ mods, mapE (invertModule f.geom) (List.range 16) = .ok mods := by
    apply mapE_exists_ok
    intro k hk
    obtain ⟨m, ts, -, -, h⟩ := hts k (List.mem_range.1 hk)
    exact ⟨_, h⟩
  have hlen : mods.length = 16 := by rw [mapE_length hm]; simp
  have hat : ∀ Q M, 1 ≤ Q → Q ≤ 4 → 1 ≤ M → M ≤ 4 → ∃ m ts, mods[4 * (Q - 1) + (M - 1)]? = some ((-m.1, -m.2), ts) ∧
      f.geom.module Q M = some m ∧ mapE (fun T => negPos (f.geom.tile Q M (T + 1))) (List.range 16) = .ok ts := by
    intro Q M q1 q2 m1 m2
    have hl : 4 * (Q - 1) + (M - 1) < mods.length := by omega
    obtain ⟨k, hk, hk'⟩ := mapE_getElem? hm (List.getElem?_eq_getElem hl)
    obtain ⟨hk1, hk2⟩ := List.getElem?_eq_some_iff.1 hk
    simp only [List.getElem_range] at hk2
    subst hk2
    obtain ⟨m, ts, h1, h2, h3⟩ := hts (4 * (Q - 1) + (M - 1)) (by omega)
    rw [show (4 * (Q - 1) + (M - 1)) / 4 + 1 = Q by omega, show (4 * (Q - 1) + (M - 1)) % 4 + 1 = M by omega] at h1 h2
    rw [h3] at hk'
    refine ⟨m, ts, ?_, h1, h2⟩
    rw [List.getElem?_eq_getElem hl, Except.ok.inj hk']
  refine ⟨⟨none, some d, writtenGeom mods⟩, ?_, rfl, rfl, ?_, ?_⟩
  · unfold invertLpd
    rw [hd, hm]
  · intro Q M x y
    simp only [writtenGeom]
    by_cases hr : 1 ≤ Q ∧ Q ≤ 4 ∧ 1 ≤ M ∧ M ≤ 4
    · rw [if_pos hr]
      obtain ⟨q1, q2, m1, m2⟩ := hr
      obtain ⟨m, ts, e1, e2, -⟩ := hat Q M q1 q2 m1 m2
      rw [e1, e2]
      simp only [Option.map_some, Option.some.injEq, Prod.mk.injEq, Prod.ext_iff, q1, q2, m1, m2, true_and]
      constructor
      · rintro ⟨rfl, rfl⟩; simp
      · rintro ⟨h1, h2⟩; rw [h1, h2]; simp
    · rw [if_neg hr]
      constructor
      · intro h; simp at h
      · rintro ⟨q1, q2, m1, m2, -⟩; exact absurd ⟨q1, q2, m1, m2⟩ hr
  · intro Q M T x y
    simp only [writtenGeom]
    by_cases hr : 1 ≤ Q ∧ Q ≤ 4 ∧ 1 ≤ M ∧ M ≤ 4 ∧ 1 ≤ T
    · rw [if_pos hr]
      obtain ⟨q1, q2, m1, m2, t1⟩ := hr
      obtain ⟨m, ts, e1, -, e3⟩ := hat Q M q1 q2 m1 m2
      rw [e1]
      simp only [Option.bind_some, q1, q2, m1, m2, t1, true_and]
      have hl : ts.length = 16 := by rw [mapE_length e3]; simp
      constructor
      · intro h
        have h' := h
        obtain ⟨ht, -⟩ := List.getElem?_eq_some_iff.1 h'
        obtain ⟨k, hk, hk'⟩ := mapE_getElem? e3 h
        obtain ⟨hk1, hk2⟩ := List.getElem?_eq_some_iff.1 hk
        simp only [List.getElem_range] at hk2
        subst hk2
        rw [show T - 1 + 1 = T by omega] at hk'
        obtain ⟨a, b, h1, h2⟩ := negPos_ok.1 hk'
        rw [Prod.mk.injEq] at h2
        refine ⟨by omega, ?_⟩
        rw [h1, h2.1, h2.2]
        simp
      · rintro ⟨t2, h⟩
        have ht : T - 1 < ts.length := by omega
        obtain ⟨k, hk, hk'⟩ := mapE_getElem? e3 (List.getElem?_eq_getElem ht)
        obtain ⟨hk1, hk2⟩ := List.getElem?_eq_some_iff.1 hk
        simp only [List.getElem_range] at hk2
        subst hk2
        rw [show T - 1 + 1 = T by omega, h] at hk'
        obtain ⟨a, b, h1, h2⟩ := negPos_ok.1 hk'
        simp only [Option.some.injEq, Prod.mk.injEq] at h1
        rw [List.getElem?_eq_getElem ht, h2, ← h1.1, ← h1.2]
        simp
    · rw [if_neg hr]
      constructor
      · intro h; simp at h
      · rintro ⟨q1, q2, m1, m2, t1, -⟩; exact absurd ⟨q1, q2, m1, m2, t1⟩ hr

/-- C89: a file without the (misspelt) description, or without one of the positions, is refused with KeyError. -/
theorem invert_fails (f : H5GeomFile K) (h : f.describtion = none ∨ ¬ Spec.HasGroups f.geom 16) : invertLpd f = .error .key := by
  unfold invertLpd
  cases hd : f.describtion with
  | none => rfl
  | some d =>
    simp only
    have hg : ¬ Spec.HasGroups f.geom 16 := by
      rcases h with h | h
      · rw [hd] at h; simp at h
      · exact h
    cases hm : mapE (invertModule f.geom) (List.range 16) with
    | error e =>
      simp only
      obtain ⟨k, -, hk⟩ := mapE_error_of hm
      unfold invertModule at hk
      cases h1 : negPos (f.geom.module (k / 4 + 1) (k % 4 + 1)) with
      | error e' => rw [h1] at hk; simp only [Except.error.injEq] at hk; rw [← hk, (negPos_error h1).1]
      | ok m =>
        rw [h1] at hk
        simp only at hk
        split at hk
        · next e' h2 =>
          obtain ⟨T, -, hT⟩ := mapE_error_of h2
          rw [← Except.error.inj hk, (negPos_error hT).1]
        · simp at hk
    | ok mods =>
      exfalso
      apply hg
      intro Q M q1 q2 m1 m2
      obtain ⟨r, -, hr⟩ := mapE_ok_all hm (a := 4 * (Q - 1) + (M - 1)) (by simp; omega)
      unfold invertModule at hr
      rw [show (4 * (Q - 1) + (M - 1)) / 4 + 1 = Q by omega, show (4 * (Q - 1) + (M - 1)) % 4 + 1 = M by omega] at hr
      split at hr
      · simp at hr
      · next m h1 =>
        split at hr
        · simp at hr
        · next ts h2 =>
          obtain ⟨x, y, h3, -⟩ := negPos_ok.1 h1
          refine ⟨⟨_, h3⟩, ?_⟩
          intro T t1 t2
          obtain ⟨b, -, hb⟩ := mapE_ok_all h2 (a := T - 1) (by simp; omega)
          rw [show T - 1 + 1 = T by omega] at hb
          obtain ⟨x, y, h4, -⟩ := negPos_ok.1 hb
          exact ⟨_, h4⟩

/-- C89: a file which was written by the function cannot be inverted back: the description has another name in it. -/
theorem invert_twice_wrong (f r : H5GeomFile K) (h : invertLpd f = .ok r) : invertLpd r = .error .key := by
  apply invert_fails
  left
  unfold invertLpd at h
  split at h
  · simp at h
  · split at h
    · simp at h
    · rw [← Except.ok.inj h]

/-- C89: apart from the name of the description, inverting twice gives back all positions of the modules and tiles. -/
theorem invert_twice_partial (f : H5GeomFile K) (d : Str) (hd : f.describtion = some d) (hg : Spec.HasGroups f.geom 16) :
    ∃ r r', invertLpd f = .ok r ∧ invertLpd ⟨r.description, none, r.geom⟩ = .ok r' ∧ r'.description = some d ∧
      ∀ Q M, 1 ≤ Q → Q ≤ 4 → 1 ≤ M → M ≤ 4 → r'.geom.module Q M = f.geom.module Q M ∧
        ∀ T, 1 ≤ T → T ≤ 16 → r'.geom.tile Q M T = f.geom.tile Q M T := by
  obtain ⟨r, h1, h2, -, h3, h4⟩ := invert_positions f d hd hg
  have hg' : Spec.HasGroups r.geom 16 := by
    intro Q M q1 q2 m1 m2
    obtain ⟨⟨m, e1⟩, e2⟩ := hg Q M q1 q2 m1 m2
    refine ⟨⟨(-m.1, -m.2), (h3 Q M _ _).2 ⟨q1, q2, m1, m2, by rw [e1]; simp⟩⟩, ?_⟩
    intro T t1 t2
    obtain ⟨t, e3⟩ := e2 T t1 t2
    exact ⟨(-t.1, -t.2), (h4 Q M T _ _).2 ⟨q1, q2, m1, m2, t1, t2, by rw [e3]; simp⟩⟩
  obtain ⟨r', k1, k2, -, k3, k4⟩ := invert_positions ⟨r.description, none, r.geom⟩ d h2 hg'
  refine ⟨r, r', h1, k1, k2, ?_⟩
  intro Q M q1 q2 m1 m2
  obtain ⟨⟨m, e1⟩, e2⟩ := hg Q M q1 q2 m1 m2
  constructor
  · rw [e1]
    exact (k3 Q M m.1 m.2).2 ⟨q1, q2, m1, m2, (h3 Q M _ _).2 ⟨q1, q2, m1, m2, by rw [e1]; simp⟩⟩
  · intro T t1 t2
    obtain ⟨t, e3⟩ := e2 T t1 t2
    rw [e3]
    exact (k4 Q M T t.1 t.2).2 ⟨q1, q2, m1, m2, t1, t2, (h4 Q M T _ _).2 ⟨q1, q2, m1, m2, t1, t2, by rw [e3]; simp⟩⟩

/-- A file in which everything is at some place. -/
def Spec.someFile : H5GeomFile ℚ :=
  ⟨some (ch! "LPD"), none, ⟨fun Q M => some (Q, M), fun _ _ T => some (T, 2 * T)⟩⟩

example : ∃ d, Spec.someFile.describtion = some d ∧ Spec.HasGroups Spec.someFile.geom 16 ∧
    ([(1, 2), (3, 4), (5, 6), (7, 8)] : List (ℚ × ℚ)).length = 4 :=
  ⟨_, rfl, fun Q M _ _ _ _ => ⟨⟨(Q, M), rfl⟩, fun T _ _ => ⟨(T, 2 * T), rfl⟩⟩, rfl⟩

end KD.Geo
