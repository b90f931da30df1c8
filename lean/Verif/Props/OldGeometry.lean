/-
C92 The deprecated LPD geometry: assembling, and units.
-/
import Verif.Spec.OldGeometry
import Verif.Props.Assemble
import Verif.Props.CrystFEL

set_option linter.unusedSimpArgs false
set_option linter.unusedSectionVars false

namespace KD.Geo

variable {V : Type} {K : Type} [Field K] [LinearOrder K] [IsStrictOrderedRing K] [FloorRing K]

theorem oldChild_ok {ch : List (Str × OldFrag K)} (h : (ch.map Prod.fst).Nodup) {name : Str} {c : OldFrag K} :
    oldChild ch name = .ok c ↔ (name, c) ∈ ch := by
  induction ch with
  | nil => simp [oldChild]
  | cons a ch ih =>
    simp only [List.map_cons, List.nodup_cons] at h
    by_cases ha : a.1 = name
    · have e : oldChild (a :: ch) name = .ok a.2 := by simp [oldChild, ha]
      rw [e, Except.ok.injEq, List.mem_cons]
      constructor
      · rintro rfl
        left
        rw [← ha]
      · rintro (h' | h')
        · rw [← h']
        · exfalso
          apply h.1
          rw [ha]
          exact List.mem_map_of_mem (f := Prod.fst) h'
    · have e : oldChild (a :: ch) name = oldChild ch name := by simp [oldChild, ha]
      rw [e, ih h.2, List.mem_cons]
      constructor
      · exact Or.inr
      · rintro (h' | h')
        · exact absurd (by rw [← h']) ha
        · exact h'

/-- `find_offset` gives the sum of the offsets on the way. -/
theorem findOffset_iff {g : OldFrag K} (hg : Spec.IsDict g) (path : List Str) (x y : K) :
    g.findOffset path = .ok (x, y) ↔ ∃ f, Spec.At g path f x y := by
  induction path generalizing g x y with
  | nil =>
    obtain ⟨o, ch⟩ := g
    simp only [OldFrag.findOffset, Except.ok.injEq]
    constructor
    · rintro rfl
      exact ⟨_, Spec.At.here _ ch⟩
    · rintro ⟨f, h⟩
      cases h
      rfl
  | cons name rest ih =>
    obtain ⟨o, ch⟩ := g
    cases hg with
    | node _ _ hn hc =>
    simp only [OldFrag.findOffset]
    constructor
    · intro h
      split at h
      · simp at h
      · next c hcc =>
        have hm := (oldChild_ok hn).1 hcc
        split at h
        · simp at h
        · next p hp =>
          obtain ⟨f, hf⟩ := (ih (hc _ hm) p.1 p.2).1 hp
          have := Except.ok.inj h
          rw [Prod.mk.injEq] at this
          rw [← this.1, ← this.2]
          exact ⟨f, Spec.At.child o ch name c rest f _ _ hm hf⟩
    · rintro ⟨f, h⟩
      cases h with
      | child _ _ _ c _ _ x y hm hf =>
        rw [(oldChild_ok hn).2 hm]
        simp only
        rw [(ih (hc _ hm) x y).2 ⟨f, hf⟩]

mutual
theorem leafPaths_iff (g : OldFrag K) (path : List Str) : path ∈ g.leafPaths ↔ ∃ x y, Spec.Leaf g path x y := by
  match g with
  | .node o [] =>
    simp only [OldFrag.leafPaths, List.mem_singleton]
    constructor
    · rintro rfl
      exact ⟨o.1, o.2, o, Spec.At.here o []⟩
    · rintro ⟨x, y, o', h⟩
      cases h with
      | here => rfl
      | child _ _ _ c _ _ _ _ hm _ => simp at hm
  | .node o (c :: ch) =>
    rw [OldFrag.leafPaths, oldLeafPaths_iff (c :: ch) path]
    constructor
    · rintro ⟨a, ha, rest, rfl, x, y, o', h⟩
      exact ⟨_, _, o', Spec.At.child o _ a.1 a.2 rest _ x y ha h⟩
    · rintro ⟨x, y, o', h⟩
      cases h with
      | child _ _ name a rest _ x y hm h => exact ⟨(name, a), hm, rest, rfl, x, y, o', h⟩

theorem oldLeafPaths_iff (ch : List (Str × OldFrag K)) (path : List Str) :
    path ∈ oldLeafPaths ch ↔ ∃ a ∈ ch, ∃ rest, path = a.1 :: rest ∧ ∃ x y, Spec.Leaf a.2 rest x y := by
  match ch with
  | [] => simp [oldLeafPaths]
  | a :: ch =>
    rw [oldLeafPaths, List.mem_append, oldLeafPaths_iff ch path]
    simp only [List.mem_map, List.mem_cons, exists_eq_or_imp]
    have hl := leafPaths_iff a.2
    constructor
    · rintro (⟨rest, h, rfl⟩ | h)
      · exact Or.inl ⟨rest, rfl, (hl rest).1 h⟩
      · exact Or.inr h
    · rintro (⟨rest, rfl, h⟩ | h)
      · exact Or.inl ⟨rest, (hl rest).2 h, rfl⟩
      · exact Or.inr h
end

theorem at_unique {g : OldFrag K} (hg : Spec.IsDict g) {path : List Str} {f f' : OldFrag K} {x y x' y' : K} (h : Spec.At g path f x y)
    (h' : Spec.At g path f' x' y') : x' = x ∧ y' = y := by
  have e := (findOffset_iff hg path x y).2 ⟨f, h⟩
  have e' := (findOffset_iff hg path x' y').2 ⟨f', h'⟩
  rw [e, Except.ok.injEq, Prod.mk.injEq] at e'
  exact ⟨e'.1.symm, e'.2.symm⟩

/-- C92: the image has room for every tile and for the centre, with a margin of 20 pixels. -/
theorem old_box {g : OldFrag K} (hg : Spec.IsDict g) :
    ∃ w h cx cy : Int, g.dimensions = .ok ((w, h), (cx, cy)) ∧ 20 ≤ cx ∧ cx + 148 ≤ w ∧ 20 ≤ cy ∧ cy + 52 ≤ h ∧
      ∀ path x y, Spec.Leaf g path x y →
        20 ≤ ⌊x / (5 / 10000)⌋ + cx ∧ ⌊x / (5 / 10000)⌋ + cx + 148 ≤ w ∧ 20 ≤ ⌊y / (5 / 10000)⌋ + cy ∧ ⌊y / (5 / 10000)⌋ + cy + 52 ≤ h := by
  obtain ⟨ps, hps⟩ : ∃ ps, mapE g.findOffset g.leafPaths = .ok ps := by
    apply mapE_exists_ok
    intro path hp
    obtain ⟨x, y, o, h⟩ := (leafPaths_iff g path).1 hp
    exact ⟨(x, y), (findOffset_iff hg path x y).2 ⟨_, h⟩⟩
  have mono : ∀ a b : K, a ≤ b → ⌊a / (5 / 10000)⌋ ≤ ⌊b / (5 / 10000)⌋ := by
    intro a b h
    exact Int.floor_le_floor (div_le_div_of_nonneg_right h (by norm_num))
  have z : ⌊(0 : K) / (5 / 10000)⌋ = 0 := by simp
  unfold OldFrag.dimensions
  rw [hps]
  simp only [oldPixel]
  have x0 := mono _ _ (listMin_le (0 : K) (ps.map Prod.fst)).1
  have x1 := mono _ _ (le_listMax (0 : K) (ps.map Prod.fst)).1
  have y0 := mono _ _ (listMin_le (0 : K) (ps.map Prod.snd)).1
  have y1 := mono _ _ (le_listMax (0 : K) (ps.map Prod.snd)).1
  rw [z] at x0 x1 y0 y1
  refine ⟨_, _, _, _, rfl, by omega, by omega, by omega, by omega, ?_⟩
  intro path x y hl
  have hm : (x, y) ∈ ps := by
    obtain ⟨o, hat⟩ := hl
    obtain ⟨b, hb, e⟩ := mapE_ok_all hps ((leafPaths_iff g path).2 ⟨x, y, o, hat⟩)
    rw [(findOffset_iff hg path x y).2 ⟨_, hat⟩, Except.ok.injEq] at e
    rwa [e]
  have a0 := mono _ _ ((listMin_le (0 : K) (ps.map Prod.fst)).2 x (List.mem_map_of_mem (f := Prod.fst) hm))
  have a1 := mono _ _ ((le_listMax (0 : K) (ps.map Prod.fst)).2 x (List.mem_map_of_mem (f := Prod.fst) hm))
  have b0 := mono _ _ ((listMin_le (0 : K) (ps.map Prod.snd)).2 y (List.mem_map_of_mem (f := Prod.snd) hm))
  have b1 := mono _ _ ((le_listMax (0 : K) (ps.map Prod.snd)).2 y (List.mem_map_of_mem (f := Prod.snd) hm))
  omega

/-- The tile t of module c, at row Y and column X, has the cell. -/
def InTile (Y X : Nat → Nat → Nat) (c t y x : Nat) : Prop := Y c t ≤ y ∧ y < Y c t + 32 ∧ X c t ≤ x ∧ x < X c t + 128

/-- What is known while images are assembled. -/
def OldPainted (Y X : Nat → Nat → Nat) (D : Nat → Nat → Nat → Nat → V) (start : Plane V) (done : Nat → Nat → Prop) (img : Plane V) : Prop :=
  img.h = start.h ∧ img.w = start.w ∧ ∀ y x : Nat, y < img.h → x < img.w →
    ((∀ c t, done c t → ¬ InTile Y X c t y x) ∧ img.get y x = start.get y x) ∨
    ∃ c t, done c t ∧ InTile Y X c t y x ∧ (∀ c' t', done c' t' → Spec.Later c t c' t' → ¬ InTile Y X c' t' y x) ∧
      img.get y x = D c t (31 - (y - Y c t)) (127 - (x - X c t))

theorem oldPath_eq (c t : Nat) : oldPath c t = Spec.oldTile c t := rfl

/-- Placing one tile. -/
theorem old_place {g : OldFrag K} (hg : Spec.IsDict g) {centre : Int × Int} {Y X : Nat → Nat → Nat} {D : Nat → Nat → Nat → Nat → V}
    {start img : Plane V} {done : Nat → Nat → Prop} (hp : OldPainted Y X D start done img) {c t : Nat} {px py : K}
    (hl : Spec.Leaf g (Spec.oldTile c t) px py) (hY : (Y c t : Int) = ⌊py / (5 / 10000)⌋ + centre.2)
    (hX : (X c t : Int) = ⌊px / (5 / 10000)⌋ + centre.1) (hh : Y c t + 32 ≤ start.h) (hw : X c t + 128 ≤ start.w)
    {p : Plane V} (p1 : p.h = 32) (p2 : p.w = 128) (pD : ∀ i j, i < 32 → j < 128 → p.get i j = D c t i j)
    (hdone : ∀ c' t', done c' t' → Spec.Later c' t' c t) :
    ∃ img', g.place centre c img (p, t) = .ok img' ∧ OldPainted Y X D start (fun c' t' => done c' t' ∨ (c' = c ∧ t' = t)) img' := by
  obtain ⟨o, hat⟩ := hl
  obtain ⟨src, hs, s1, s2, s3⟩ := stride_ok p (-1) (-1) (Or.inr rfl) (Or.inr rfl)
  simp only [show ¬ ((-1 : Int) = 1) by decide, if_false] at s3
  obtain ⟨q1, q2, q3⟩ := hp
  obtain ⟨img', ha, a1, a2, a3, a4⟩ := assign_inside (out := img) (src := src) (y := Y c t) (x := X c t) (by omega) (by omega)
  refine ⟨img', ?_, ?_⟩
  · unfold OldFrag.place
    rw [oldPath_eq, (findOffset_iff hg _ px py).2 ⟨_, hat⟩]
    simp only [oldPixel, hs]
    rw [← hY, ← hX]
    rw [s1, s2] at ha
    push_cast at ha
    exact ha
  · refine ⟨by omega, by omega, ?_⟩
    intro y x hy hx
    by_cases hin : InTile Y X c t y x
    · right
      obtain ⟨i1, i2, i3, i4⟩ := hin
      refine ⟨c, t, Or.inr ⟨rfl, rfl⟩, ⟨i1, i2, i3, i4⟩, ?_, ?_⟩
      · rintro c' t' (hd | ⟨rfl, rfl⟩) hlat
        · have := hdone c' t' hd
          unfold Spec.Later at this hlat
          omega
        · unfold Spec.Later at hlat
          omega
      · rw [a3 y x i1 (by omega) i3 (by omega), s3 _ _ (by omega) (by omega), pD _ _ (by omega) (by omega), p1, p2]
    · have e : img'.get y x = img.get y x := by
        apply a4
        rintro ⟨b1, b2, b3, b4⟩
        exact hin ⟨b1, by omega, b3, by omega⟩
      rcases q3 y x (by omega) (by omega) with ⟨r1, r2⟩ | ⟨c', t', r1, r2, r3, r4⟩
      · left
        refine ⟨?_, by rw [e, r2]⟩
        rintro c' t' (hd | ⟨rfl, rfl⟩)
        · exact r1 c' t' hd
        · exact hin
      · right
        refine ⟨c', t', Or.inl r1, r2, ?_, by rw [e, r4]⟩
        rintro c'' t'' (hd | ⟨rfl, rfl⟩) hlat
        · exact r3 c'' t'' hd hlat
        · exact hin

/-- The tiles which the deprecated function gives. -/
theorem old_tiles (p : Plane V) (hh : p.h = 256) (hw : p.w = 256) :
    ∃ tiles, splitChannel p true = .ok tiles ∧ tiles.length = 16 ∧ ∀ (t : Nat) (a : Plane V), tiles[t]? = some a → a.h = 32 ∧ a.w = 128 ∧
      ∀ i j, i < 32 → j < 128 → a.get i j = p.get ((Det.lpd.tileSlice t).y0 + i) ((Det.lpd.tileSlice t).x0 + j) := by
  obtain ⟨old, new, h1, h2, h3, h4⟩ := split_old_new_partial p hh hw
  obtain ⟨ts, k1, k2, k3⟩ := split_regions .lpd p hh hw
  rw [h2] at k1
  obtain rfl := Except.ok.inj k1
  have hlen : new.length = 16 := k2
  refine ⟨old, h1, by omega, ?_⟩
  intro t a ha
  have ht : t < old.length := (List.getElem?_eq_some_iff.1 ha).1
  have hb : new[t]? = some new[t] := List.getElem?_eq_getElem (by omega)
  obtain ⟨s1, s2, s3⟩ := h4 t a _ ha hb
  obtain ⟨r1, r2, r3⟩ := k3 t _ hb
  obtain ⟨-, n1, n2, -, -⟩ := tile_inside .lpd (t := t) (by show t < 16; omega)
  have e1 : (Spec.part p (Det.lpd.tileSlice t)).h = 32 := by
    show (Det.lpd.tileSlice t).y1 - (Det.lpd.tileSlice t).y0 = 32
    rw [n1]; simp [Spec.tileShape]
  have e2 : (Spec.part p (Det.lpd.tileSlice t)).w = 128 := by
    show (Det.lpd.tileSlice t).x1 - (Det.lpd.tileSlice t).x0 = 128
    rw [n2]; simp [Spec.tileShape]
  refine ⟨by omega, by omega, ?_⟩
  intro i j hi hj
  rw [s3 i j (by omega) (by omega), r3 i j (by omega) (by omega)]
  rfl

/-- C92: with all tiles in the geometry and data of floats, every pixel is put where its tile is, turned by 180 degrees, inside the image;
where tiles overlap the last one is seen, and other cells are nan. -/
theorem old_assemble (g : OldFrag K) (hg : Spec.IsDict g) (hc : Spec.OldComplete g) (nan : V) (data : Stack V)
    (hd : data.n = 16 ∧ data.h = 256 ∧ data.w = 256) :
    ∃ img centre, g.positionAll (some nan) data = .ok (img, centre) ∧
      (∀ c i j row col, Spec.OldCovers g centre c i j row col → 20 ≤ row ∧ row + 20 < img.h ∧ 20 ≤ col ∧ col + 20 < img.w) ∧
      ∀ row col : Nat, row < img.h → col < img.w →
        ((∀ c i j, ¬ Spec.OldCovers g centre c i j row col) ∧ img.get row col = nan) ∨
        ∃ c i j, Spec.OldCovers g centre c i j row col ∧
          (∀ c' i' j', Spec.OldCovers g centre c' i' j' row col → ¬ Spec.Later c (Spec.tileOf .lpd i j) c' (Spec.tileOf .lpd i' j')) ∧
          img.get row col = data.get c i j := by
  obtain ⟨w, h, cx, cy, hdim, -, -, -, -, hbox⟩ := old_box hg
  have hpos : ∀ c t, ∃ xy : K × K, c < 16 → t < 16 → Spec.Leaf g (Spec.oldTile c t) xy.1 xy.2 := by
    intro c t
    by_cases hct : c < 16 ∧ t < 16
    · obtain ⟨x, y, hl⟩ := hc c t hct.1 hct.2
      exact ⟨(x, y), fun _ _ => hl⟩
    · exact ⟨(0, 0), fun h1 h2 => absurd ⟨h1, h2⟩ hct⟩
  choose P hP using hpos
  let Y : Nat → Nat → Nat := fun c t => (⌊(P c t).2 / (5 / 10000)⌋ + cy).toNat
  let X : Nat → Nat → Nat := fun c t => (⌊(P c t).1 / (5 / 10000)⌋ + cx).toNat
  have hY : ∀ c t, c < 16 → t < 16 → (Y c t : Int) = ⌊(P c t).2 / (5 / 10000)⌋ + cy ∧ 20 ≤ Y c t ∧ (Y c t : Int) + 52 ≤ h := by
    intro c t h1 h2
    obtain ⟨-, -, b3, b4⟩ := hbox _ _ _ (hP c t h1 h2)
    simp only [Y]
    omega
  have hX : ∀ c t, c < 16 → t < 16 → (X c t : Int) = ⌊(P c t).1 / (5 / 10000)⌋ + cx ∧ 20 ≤ X c t ∧ (X c t : Int) + 148 ≤ w := by
    intro c t h1 h2
    obtain ⟨b1, b2, -, -⟩ := hbox _ _ _ (hP c t h1 h2)
    simp only [X]
    omega
  let D : Nat → Nat → Nat → Nat → V := fun c t i j => data.get c ((Det.lpd.tileSlice t).y0 + i) ((Det.lpd.tileSlice t).x0 + j)
  let start : Plane V := ⟨h.toNat, w.toNat, fun _ _ => nan⟩
  obtain ⟨img, hfold, hpaint⟩ : ∃ img, foldE (g.placeModule (cx, cy) data) start (List.range 16) = .ok img ∧
      OldPainted Y X D start (fun c t => c < 16 ∧ t < 16) img := by
    have gen : ∀ n, n ≤ 16 → ∃ img, foldE (g.placeModule (cx, cy) data) start (List.range n) = .ok img ∧
        OldPainted Y X D start (fun c t => c < n ∧ t < 16) img := by
      intro n
      induction n with
      | zero =>
        intro _
        exact ⟨start, rfl, rfl, rfl, fun y x _ _ => Or.inl ⟨fun c t hd => absurd hd.1 (Nat.not_lt_zero _), rfl⟩⟩
      | succ n ih =>
        intro hn
        obtain ⟨img, hf, hp⟩ := ih (by omega)
        obtain ⟨tiles, ht, hlen, hreg⟩ := old_tiles (⟨data.h, data.w, data.get n⟩ : Plane V) hd.2.1 hd.2.2
        obtain ⟨img', hf', hp'⟩ := foldE_zipIdx
          (fun k img => OldPainted Y X D start (fun c t => (c < n ∧ t < 16) ∨ (c = n ∧ t < k)) img)
          (g.place (cx, cy) n) tiles img (by
            obtain ⟨q1, q2, q3⟩ := hp
            refine ⟨q1, q2, ?_⟩
            intro y x hy hx
            rcases q3 y x hy hx with ⟨r1, r2⟩ | ⟨c, t, r1, r2, r3, r4⟩
            · left
              refine ⟨?_, r2⟩
              rintro c t (hd | ⟨-, hd⟩)
              · exact r1 c t hd
              · omega
            · right
              refine ⟨c, t, Or.inl r1, r2, ?_, r4⟩
              rintro c' t' (hd | ⟨-, hd⟩) hlat
              · exact r3 c' t' hd hlat
              · omega)
          (by
            intro k a img0 hk hp0
            have hk16 : k < 16 := by
              have := (List.getElem?_eq_some_iff.1 hk).1
              omega
            obtain ⟨y1, y2, y3⟩ := hY n k (by omega) hk16
            obtain ⟨x1, x2, x3⟩ := hX n k (by omega) hk16
            obtain ⟨a1, a2, a3⟩ := hreg k a hk
            obtain ⟨img1, e1, e2⟩ := old_place hg (centre := (cx, cy)) hp0 (hP n k (by omega) hk16) y1 x1
              (by simp only [start]; omega) (by simp only [start]; omega) a1 a2 a3 (by
                rintro c' t' (hd | hd)
                · exact Or.inl hd.1
                · exact Or.inr ⟨hd.1, hd.2⟩)
            refine ⟨img1, e1, ?_⟩
            have hiff : (fun c' t' => ((c' < n ∧ t' < 16) ∨ (c' = n ∧ t' < k)) ∨ (c' = n ∧ t' = k)) =
                (fun c t => (c < n ∧ t < 16) ∨ (c = n ∧ t < k + 1)) := by
              funext c t
              apply propext
              omega
            rw [hiff] at e2
            exact e2)
        refine ⟨img', ?_, ?_⟩
        · have happ : ∀ (l : List Nat) (s s' : Plane V), foldE (g.placeModule (cx, cy) data) s l = .ok s' →
              foldE (g.placeModule (cx, cy) data) s (l ++ [n]) = g.placeModule (cx, cy) data s' n := by
            intro l
            induction l with
            | nil =>
              intro s s' hs
              obtain rfl := Except.ok.inj hs
              simp only [List.nil_append, foldE]
              split <;> simp_all
            | cons a l ihl =>
              intro s s' hs
              simp only [List.cons_append, foldE] at hs ⊢
              split at hs
              · simp at hs
              · next s1 h1 => exact ihl s1 s' hs
          rw [List.range_succ, happ _ _ _ hf]
          unfold OldFrag.placeModule Stack.plane
          rw [if_pos (by omega)]
          simp only [ht]
          exact hf'
        · have hiff : (fun c t => (c < n ∧ t < 16) ∨ (c = n ∧ t < tiles.length)) = (fun c t => c < n + 1 ∧ t < 16) := by
            funext c t
            apply propext
            rw [hlen]
            omega
          rw [hiff] at hp'
          exact hp'
    exact gen 16 (le_refl _)
  -- pixels of modules and pixels of tiles
  have cov : ∀ c i j (row col : Nat), Spec.OldCovers g (cx, cy) c i j row col ↔ c < 16 ∧ i < 256 ∧ j < 256 ∧
      InTile Y X c (Spec.tileOf .lpd i j) row col ∧ 31 - (row - Y c (Spec.tileOf .lpd i j)) = i % 32 ∧
      127 - (col - X c (Spec.tileOf .lpd i j)) = j % 128 := by
    intro c i j row col
    unfold Spec.OldCovers InTile
    constructor
    · rintro ⟨hc1, hi, hj, x, y, ⟨o, hl⟩, h1, h2⟩
      have ht : Spec.tileOf .lpd i j < 16 := tileOf_lt .lpd hi hj
      obtain ⟨o', hl'⟩ := hP c _ hc1 ht
      obtain ⟨rfl, rfl⟩ := at_unique hg hl' hl
      obtain ⟨y1, y2, y3⟩ := hY c _ hc1 ht
      obtain ⟨x1, x2, x3⟩ := hX c _ hc1 ht
      simp only at h1 h2
      rw [← y1] at h1
      rw [← x1] at h2
      have := Nat.mod_lt i (show 0 < 32 by decide)
      have := Nat.mod_lt j (show 0 < 128 by decide)
      exact ⟨hc1, hi, hj, ⟨by omega, by omega, by omega, by omega⟩, by omega, by omega⟩
    · rintro ⟨hc1, hi, hj, ⟨b1, b2, b3, b4⟩, h1, h2⟩
      have ht : Spec.tileOf .lpd i j < 16 := tileOf_lt .lpd hi hj
      obtain ⟨y1, y2, y3⟩ := hY c _ hc1 ht
      obtain ⟨x1, x2, x3⟩ := hX c _ hc1 ht
      refine ⟨hc1, hi, hj, _, _, hP c _ hc1 ht, ?_, ?_⟩
      · simp only
        rw [← y1]
        omega
      · simp only
        rw [← x1]
        omega
  have back : ∀ c t (row col : Nat), c < 16 → t < 16 → InTile Y X c t row col →
      let i := (Det.lpd.tileSlice t).y0 + (31 - (row - Y c t))
      let j := (Det.lpd.tileSlice t).x0 + (127 - (col - X c t))
      Spec.OldCovers g (cx, cy) c i j row col ∧ Spec.tileOf .lpd i j = t := by
    intro c t row col h1 h2 hin
    obtain ⟨p1, p2, p3, p4⟩ := tile_pixel .lpd (t := t) (i := 31 - (row - Y c t)) (j := 127 - (col - X c t)) h2
      (by simp only [Spec.tileShape]; omega) (by simp only [Spec.tileShape]; omega)
    simp only [Spec.inTile, Spec.tileShape, Prod.mk.injEq] at p4
    refine ⟨(cov _ _ _ _ _).2 ⟨h1, p1, p2, ?_, ?_, ?_⟩, p3⟩
    · rw [p3]; exact hin
    · rw [p3]; exact p4.1.symm
    · rw [p3]; exact p4.2.symm
  obtain ⟨q1, q2, q3⟩ := hpaint
  refine ⟨img, (cx, cy), ?_, ?_, ?_⟩
  · unfold OldFrag.positionAll
    rw [if_pos (by rw [hd.1, hd.2.1, hd.2.2]), hdim]
    simp only [start] at hfold
    simp only [hfold]
  · rintro c i j row col ⟨hc1, hi, hj, x, y, hl, h1, h2⟩
    obtain ⟨b1, b2, b3, b4⟩ := hbox _ _ _ hl
    have := Nat.mod_lt i (show 0 < 32 by decide)
    have := Nat.mod_lt j (show 0 < 128 by decide)
    rw [q1, q2]
    simp only at h1 h2
    simp only [start]
    omega
  · intro row col hr hcl
    rcases q3 row col hr hcl with ⟨r1, r2⟩ | ⟨c, t, ⟨r0, r1⟩, r2, r3, r4⟩
    · left
      refine ⟨?_, r2⟩
      intro c i j hcov
      obtain ⟨k1, k2, k3, k4, -⟩ := (cov c i j row col).1 hcov
      exact r1 c _ ⟨k1, tileOf_lt .lpd k2 k3⟩ k4
    · right
      obtain ⟨b1, b2⟩ := back c t row col r0 r1 r2
      refine ⟨c, _, _, b1, ?_, r4⟩
      intro c' i' j' hcov hlat
      rw [b2] at hlat
      obtain ⟨k1, k2, k3, k4, -⟩ := (cov c' i' j' row col).1 hcov
      exact r3 c' _ ⟨k1, tileOf_lt .lpd k2 k3⟩ hlat k4

/-- C92: data of another shape: AssertionError; integers: ValueError. -/
theorem old_assemble_fails (g : OldFrag K) (nan : Option V) (data : Stack V) :
    ((data.n, data.h, data.w) ≠ (16, 256, 256) → g.positionAll nan data = .error .assertion) ∧
      (Spec.IsDict g → (data.n, data.h, data.w) = (16, 256, 256) → g.positionAll (none : Option V) data = .error .value) := by
  unfold OldFrag.positionAll
  constructor
  · intro h
    rw [if_neg h]
  · intro hg h
    obtain ⟨w, hh, cx, cy, hdim, -⟩ := old_box hg
    rw [if_pos h, hdim]

theorem foldE_or {α σ : Type} {f : σ → α → R σ} {err : PyErr} (P : σ → Prop) {l : List α}
    (h : ∀ s a, a ∈ l → P s → (∃ s', f s a = .ok s' ∧ P s') ∨ f s a = .error err) {s : σ} (hs : P s) :
    (∃ s', foldE f s l = .ok s' ∧ P s') ∨ foldE f s l = .error err := by
  induction l generalizing s with
  | nil => exact Or.inl ⟨s, rfl, hs⟩
  | cons a l ih =>
    simp only [foldE]
    rcases h s a List.mem_cons_self hs with ⟨s', e, hs'⟩ | e
    · rw [e]
      exact ih (fun s b hb => h s b (List.mem_cons_of_mem _ hb)) hs'
    · rw [e]
      exact Or.inr rfl

theorem foldE_all_ok {α σ : Type} {f : σ → α → R σ} {l : List α} {s s' : σ} (h : foldE f s l = .ok s') :
    ∀ a ∈ l, ∃ s1 s2, f s1 a = .ok s2 := by
  induction l generalizing s with
  | nil => simp
  | cons a l ih =>
    simp only [foldE] at h
    split at h
    · simp at h
    · next s1 h1 =>
      intro b hb
      rcases List.mem_cons.1 hb with rfl | hb
      · exact ⟨s, s1, h1⟩
      · exact ih h b hb

/-- C92: a tile which is missing from the geometry: KeyError. -/
theorem old_assemble_missing (g : OldFrag K) (hg : Spec.IsDict g) (nan : V) (data : Stack V)
    (hd : data.n = 16 ∧ data.h = 256 ∧ data.w = 256)
    (hc : ∀ c t, c < 16 → t < 16 → (∃ x y, Spec.Leaf g (Spec.oldTile c t) x y) ∨ ∀ f x y, ¬ Spec.At g (Spec.oldTile c t) f x y)
    (hm : ∃ c t, c < 16 ∧ t < 16 ∧ ∀ f x y, ¬ Spec.At g (Spec.oldTile c t) f x y) : g.positionAll (some nan) data = .error .key := by
  obtain ⟨w, h, cx, cy, hdim, -, -, -, -, hbox⟩ := old_box hg
  unfold OldFrag.positionAll
  rw [if_pos (by rw [hd.1, hd.2.1, hd.2.2]), hdim]
  simp only
  have hnone : ∀ path, (∀ f x y, ¬ Spec.At g path f x y) → g.findOffset path = .error .key := by
    intro path hp
    cases hf : g.findOffset path with
    | ok p =>
      obtain ⟨f, h⟩ := (findOffset_iff hg path p.1 p.2).1 hf
      exact absurd h (hp _ _ _)
    | error e =>
      suffices hgen : ∀ (path : List Str) (g : OldFrag K) (e : PyErr), g.findOffset path = .error e → e = .key by rw [hgen path g e hf]
      intro path
      induction path with
      | nil =>
        rintro ⟨o, ch⟩ e h
        simp [OldFrag.findOffset] at h
      | cons name rest ih =>
        rintro ⟨o, ch⟩ e h
        simp only [OldFrag.findOffset] at h
        split at h
        · next e' he =>
          unfold oldChild at he
          split at he <;> simp_all
        · next c hc =>
          split at h
          · next e' he =>
            rw [Except.error.injEq] at h
            rw [← h]
            exact ih c e' he
          · simp at h
  have tiles : ∀ c, c < 16 → ∃ ts, data.plane c = .ok ⟨data.h, data.w, data.get c⟩ ∧ splitChannel (⟨data.h, data.w, data.get c⟩ : Plane V) true = .ok ts ∧
      ts.length = 16 ∧ ∀ (t : Nat) (a : Plane V), ts[t]? = some a → a.h = 32 ∧ a.w = 128 := by
    intro c hc
    obtain ⟨ts, h1, h2, h3⟩ := old_tiles (⟨data.h, data.w, data.get c⟩ : Plane V) hd.2.1 hd.2.2
    refine ⟨ts, ?_, h1, h2, fun t a ha => ⟨(h3 t a ha).1, (h3 t a ha).2.1⟩⟩
    unfold Stack.plane
    rw [if_pos (by omega)]
  rcases foldE_or (f := g.placeModule (cx, cy) data) (err := .key) (fun img : Plane V => img.h = h.toNat ∧ img.w = w.toNat) (l := List.range 16)
      (s := ⟨h.toNat, w.toNat, fun _ _ => nan⟩) (by
        intro img c hcm himg
        rw [List.mem_range] at hcm
        obtain ⟨ts, t1, t2, t3, t4⟩ := tiles c hcm
        unfold OldFrag.placeModule
        simp only [t1, t2]
        apply foldE_or (f := g.place (cx, cy) c) (err := .key) (fun img : Plane V => img.h = h.toNat ∧ img.w = w.toNat) (hs := himg)
        rintro img ⟨a, t⟩ hat himg
        rw [List.mem_zipIdx_iff_getElem?] at hat
        have ht : t < 16 := by
          have := (List.getElem?_eq_some_iff.1 hat).1
          omega
        rcases hc c t hcm ht with ⟨x, y, hl⟩ | hn
        · left
          obtain ⟨b1, b2, b3, b4⟩ := hbox _ _ _ hl
          obtain ⟨o, hat'⟩ := hl
          obtain ⟨a1, a2⟩ := t4 t a hat
          obtain ⟨src, hs, s1, s2, -⟩ := stride_ok a (-1) (-1) (Or.inr rfl) (Or.inr rfl)
          obtain ⟨Y, hY⟩ : ∃ Y : Nat, (Y : Int) = ⌊y / (5 / 10000)⌋ + cy := ⟨(⌊y / (5 / 10000)⌋ + cy).toNat, by omega⟩
          obtain ⟨X, hX⟩ : ∃ X : Nat, (X : Int) = ⌊x / (5 / 10000)⌋ + cx := ⟨(⌊x / (5 / 10000)⌋ + cx).toNat, by omega⟩
          obtain ⟨img', ha, i1, i2, -⟩ := assign_inside (out := img) (src := src) (y := Y) (x := X) (by omega) (by omega)
          refine ⟨img', ?_, by omega, by omega⟩
          unfold OldFrag.place
          rw [oldPath_eq, (findOffset_iff hg _ x y).2 ⟨_, hat'⟩]
          simp only [oldPixel, hs]
          rw [← hY, ← hX]
          rw [s1, s2] at ha
          push_cast at ha
          exact ha
        · right
          unfold OldFrag.place
          rw [oldPath_eq, hnone _ hn]) ⟨rfl, rfl⟩ with ⟨img, hok, -⟩ | herr
  · exfalso
    obtain ⟨c, t, hcm, ht, hn⟩ := hm
    obtain ⟨s1, s2, e⟩ := foldE_all_ok hok c (by simpa using hcm)
    obtain ⟨ts, t1, t2, t3, -⟩ := tiles c hcm
    unfold OldFrag.placeModule at e
    simp only [t1, t2] at e
    obtain ⟨r1, r2, e2⟩ := foldE_all_ok e (ts[t], t) (by
      rw [List.mem_zipIdx_iff_getElem?]
      exact List.getElem?_eq_getElem (by omega))
    unfold OldFrag.place at e2
    rw [oldPath_eq, hnone _ hn] at e2
    simp at e2
  · rw [herr]

/-! ### Reading a file -/

/-- A group in a file has a position, and groups. -/
def Spec.Group (g : H5Group K) (pos : K × K) (groups : List (Str × H5Group K)) : Prop := g = .node (some pos) groups

theorem oldFromGroups_get {gs : List (Str × H5Group K)} {fs : List (Str × OldFrag K)} (h : oldFromGroups gs = .ok fs) {name : Str}
    {g : H5Group K} (hg : (name, g) ∈ gs) : ∃ f, (name, f) ∈ fs ∧ oldFromGroup (1 / 1000) g = .ok f := by
  induction gs generalizing fs with
  | nil => simp at hg
  | cons a gs ih =>
    rw [oldFromGroups] at h
    split at h
    · simp at h
    · next f hf =>
      split at h
      · simp at h
      · next fs' hfs =>
        obtain rfl := Except.ok.inj h
        rcases List.mem_cons.1 hg with e | e
        · refine ⟨f, ?_, ?_⟩
          · rw [← e]; exact List.mem_cons_self
          · rw [← e] at hf; exact hf
        · obtain ⟨f', h1, h2⟩ := ih hfs e
          exact ⟨f', List.mem_cons_of_mem _ h1, h2⟩

/-- Every group below has a position, and different names. -/
inductive Spec.Good : H5Group K → Prop where
  | node (pos : K × K) (groups : List (Str × H5Group K)) (hn : (groups.map Prod.fst).Nodup) (h : ∀ g ∈ groups, Spec.Good g.2) :
      Spec.Good (.node (some pos) groups)

theorem oldFromGroups_names {gs : List (Str × H5Group K)} {fs : List (Str × OldFrag K)} (h : oldFromGroups gs = .ok fs) :
    fs.map Prod.fst = gs.map Prod.fst ∧ ∀ c ∈ fs, ∃ g ∈ gs, oldFromGroup (1 / 1000) g.2 = .ok c.2 := by
  induction gs generalizing fs with
  | nil =>
    rw [oldFromGroups] at h
    obtain rfl := Except.ok.inj h
    simp
  | cons a gs ih =>
    rw [oldFromGroups] at h
    split at h
    · simp at h
    · next f hf =>
      split at h
      · simp at h
      · next fs' hfs =>
        obtain rfl := Except.ok.inj h
        obtain ⟨h1, h2⟩ := ih hfs
        refine ⟨by simp [h1], ?_⟩
        intro c hc
        rcases List.mem_cons.1 hc with rfl | hc
        · exact ⟨a, List.mem_cons_self, hf⟩
        · obtain ⟨g, hg, e⟩ := h2 c hc
          exact ⟨g, List.mem_cons_of_mem _ hg, e⟩

theorem oldFromGroups_ok {gs : List (Str × H5Group K)} (h : ∀ g ∈ gs, ∃ f, oldFromGroup (1 / 1000) g.2 = .ok f) :
    ∃ fs, oldFromGroups gs = .ok fs := by
  induction gs with
  | nil => exact ⟨[], by rw [oldFromGroups]⟩
  | cons a gs ih =>
    obtain ⟨f, hf⟩ := h a List.mem_cons_self
    obtain ⟨fs, hfs⟩ := ih (fun g hg => h g (List.mem_cons_of_mem _ hg))
    exact ⟨(a.1, f) :: fs, by rw [oldFromGroups, hf, hfs]⟩

theorem oldFromGroup_good {g : H5Group K} (hg : Spec.Good g) (unit : K) : ∃ f, oldFromGroup unit g = .ok f ∧ Spec.IsDict f := by
  induction hg generalizing unit with
  | node pos groups hn _ ih =>
    obtain ⟨fs, hfs⟩ := oldFromGroups_ok (gs := groups) (fun g hg => (ih g hg (1 / 1000)).imp fun _ h => h.1)
    obtain ⟨n1, n2⟩ := oldFromGroups_names hfs
    refine ⟨.node (pos.1 * unit, pos.2 * unit) fs, by rw [oldFromGroup, hfs], .node _ _ (by rw [n1]; exact hn) ?_⟩
    intro c hc
    obtain ⟨g, hg, e⟩ := n2 c hc
    obtain ⟨f, hf, hd⟩ := ih g hg (1 / 1000)
    rw [hf] at e
    obtain rfl := Except.ok.inj e
    exact hd

/-- A quadrant in the file. -/
def Spec.GoodQuad (file : Str → Option (H5Group K)) (q : Nat) : Prop :=
  ∃ mods, file (ch! "Q" ++ Nat.toDigits 10 (q + 1)) = some (.node none mods) ∧ (mods.map Prod.fst).Nodup ∧ ∀ m ∈ mods, Spec.Good m.2

theorem oldQuad_good {file : Str → Option (H5Group K)} {unit : K} {q : Nat} (h : Spec.GoodQuad file q) (qp : K × K) :
    ∃ f, oldQuad file unit (qp, q) = .ok (ch! "Q" ++ natStr (q + 1), f) ∧ Spec.IsDict f := by
  obtain ⟨mods, h1, h2, h3⟩ := h
  obtain ⟨fs, hfs⟩ : ∃ fs, mapE (oldModule unit) mods = .ok fs := by
    apply mapE_exists_ok
    intro m hm
    obtain ⟨f, hf, -⟩ := oldFromGroup_good (h3 m hm) unit
    exact ⟨(m.1, f), by simp only [oldModule, hf]⟩
  refine ⟨.node (qp.1 * unit, qp.2 * unit) fs, by simp only [oldQuad, natStr, h1, hfs], .node _ _ ?_ ?_⟩
  · have e : fs.map Prod.fst = mods.map Prod.fst := by
      clear h1 h2
      induction mods generalizing fs with
      | nil =>
        obtain rfl := Except.ok.inj hfs
        rfl
      | cons a mods ih =>
        obtain ⟨b, bs, hb, hbs, rfl⟩ := mapE_cons_ok.1 hfs
        obtain ⟨f, hf, -⟩ := oldFromGroup_good (h3 a List.mem_cons_self) unit
        simp only [oldModule, hf] at hb
        obtain rfl := Except.ok.inj hb
        rw [List.map_cons, List.map_cons, ih (fun m hm => h3 m (List.mem_cons_of_mem _ hm)) bs hbs]
    rw [e]
    exact h2
  · intro c hc
    obtain ⟨m, hm, e⟩ := (mapE_mem hfs).1 hc
    obtain ⟨f, hf, hd⟩ := oldFromGroup_good (h3 m hm) unit
    simp only [oldModule, hf] at e
    obtain rfl := Except.ok.inj e
    exact hd

/-- C92: reading succeeds if there is a group for each quadrant, and every module and tile has a position. -/
theorem old_read (file : Str → Option (H5Group K)) (positions : List (K × K)) (unit : K)
    (h : ∀ q < positions.length, Spec.GoodQuad file q) : ∃ g, oldFromH5 file positions unit = .ok g ∧ Spec.IsDict g := by
  obtain ⟨quads, hq⟩ : ∃ quads, mapE (oldQuad file unit) positions.zipIdx = .ok quads := by
    apply mapE_exists_ok
    rintro ⟨qp, q⟩ hq
    rw [List.mem_zipIdx_iff_getElem?] at hq
    obtain ⟨f, hf, -⟩ := oldQuad_good (unit := unit) (h q (List.getElem?_eq_some_iff.1 hq).1) qp
    exact ⟨_, hf⟩
  have key : ∀ (k : Nat) (c : Str × OldFrag K), quads[k]? = some c → c.1 = ch! "Q" ++ natStr (k + 1) ∧ Spec.IsDict c.2 := by
    intro k c hk
    have hlen := mapE_length hq
    have hk' := (List.getElem?_eq_some_iff.1 hk).1
    have hkp : k < positions.length := by rw [hlen, List.length_zipIdx] at hk'; exact hk'
    obtain ⟨f, hf, hd⟩ := oldQuad_good (unit := unit) (h k hkp) positions[k]
    have hz : positions.zipIdx[k]? = some (positions[k], k) := by
      rw [List.getElem?_zipIdx, List.getElem?_eq_getElem hkp]
      simp
    obtain ⟨a, ha, e⟩ := mapE_getElem? hq hk
    rw [hz, Option.some.injEq] at ha
    subst ha
    rw [hf] at e
    obtain rfl := Except.ok.inj e
    exact ⟨rfl, hd⟩
  refine ⟨_, by unfold oldFromH5; rw [hq], .node _ _ ?_ ?_⟩
  · rw [List.nodup_iff_getElem?_ne_getElem?]
    intro i j hij hj e
    rw [List.length_map] at hj
    rw [List.getElem?_map, List.getElem?_map, List.getElem?_eq_getElem hj, List.getElem?_eq_getElem (show i < quads.length by omega)] at e
    have e1 := (key i _ (List.getElem?_eq_getElem (by omega))).1
    have e2 := (key j _ (List.getElem?_eq_getElem hj)).1
    simp only [Option.map_some, Option.some.injEq] at e
    rw [e1, e2] at e
    have := natStr_inj (List.append_cancel_left e)
    omega
  · intro c hc
    obtain ⟨k, hk⟩ := List.mem_iff_getElem?.1 hc
    exact (key k c hk).2

/-- C92: a quadrant which is not in the file: KeyError. -/
theorem old_read_missing (file : Str → Option (H5Group K)) (positions : List (K × K)) (unit : K)
    (h : ∀ q < positions.length, Spec.GoodQuad file q ∨ file (ch! "Q" ++ Nat.toDigits 10 (q + 1)) = none)
    (hm : ∃ q < positions.length, file (ch! "Q" ++ Nat.toDigits 10 (q + 1)) = none) :
    oldFromH5 file positions unit = .error .key := by
  have hnone : ∀ (qp : K × K) (q : Nat), file (ch! "Q" ++ Nat.toDigits 10 (q + 1)) = none → oldQuad file unit (qp, q) = .error .key := by
    intro qp q hq
    simp only [oldQuad, natStr, hq]
  obtain ⟨q, hq, hqn⟩ := hm
  obtain ⟨e, he⟩ : ∃ e, mapE (oldQuad file unit) positions.zipIdx = .error e := by
    rw [mapE_error_iff]
    refine ⟨(positions[q], q), ?_, .key, hnone _ _ hqn⟩
    rw [List.mem_zipIdx_iff_getElem?]
    exact List.getElem?_eq_getElem hq
  unfold oldFromH5
  rw [he]
  obtain ⟨⟨qp, k⟩, hk, hk'⟩ := mapE_error_of he
  rw [List.mem_zipIdx_iff_getElem?] at hk
  rcases h k (List.getElem?_eq_some_iff.1 hk).1 with hg | hn
  · obtain ⟨f, hf, -⟩ := oldQuad_good (unit := unit) hg qp
    rw [hf] at hk'
    simp at hk'
  · rw [hnone _ _ hn, Except.error.injEq] at hk'
    rw [← hk']

/-- C92: the position of a tile read from a file: the ones of the quadrant and the module are in the given unit, but the one of the tile
is always in millimetres. -/
theorem old_position (file : Str → Option (H5Group K)) (positions : List (K × K)) (unit : K) (g : OldFrag K)
    (h : oldFromH5 file positions unit = .ok g) (q : Nat) (qp : K × K) (hq : positions[q]? = some qp)
    (mods : List (Str × H5Group K)) (hf : file (ch! "Q" ++ Nat.toDigits 10 (q + 1)) = some (.node none mods))
    (m : Str) (mp : K × K) (tiles : List (Str × H5Group K)) (hm : (m, H5Group.node (some mp) tiles) ∈ mods)
    (t : Str) (tp : K × K) (ht : (t, H5Group.node (some tp) []) ∈ tiles) :
    Spec.Leaf g [ch! "Q" ++ Nat.toDigits 10 (q + 1), m, t] (qp.1 * unit + mp.1 * unit + tp.1 / 1000) (qp.2 * unit + mp.2 * unit + tp.2 / 1000) := by
  unfold oldFromH5 at h
  split at h
  · simp at h
  · next quads hquads =>
    obtain rfl := Except.ok.inj h
    obtain ⟨b, hb, e⟩ := mapE_ok_all hquads (a := (qp, q)) (by rw [List.mem_zipIdx_iff_getElem?]; exact hq)
    unfold oldQuad at e
    simp only [natStr, hf] at e
    split at e
    · simp at e
    · next modules hmods =>
      obtain rfl := Except.ok.inj e
      obtain ⟨b2, hb2, e2⟩ := mapE_ok_all hmods hm
      unfold oldModule at e2
      split at e2
      · simp at e2
      · next f hf2 =>
        obtain rfl := Except.ok.inj e2
        rw [oldFromGroup] at hf2
        split at hf2
        · simp at hf2
        · next ch hch =>
          obtain rfl := Except.ok.inj hf2
          obtain ⟨f3, hf3, e3⟩ := oldFromGroups_get hch ht
          rw [oldFromGroup, oldFromGroups] at e3
          obtain rfl := Except.ok.inj e3
          refine ⟨(tp.1 * (1 / 1000), tp.2 * (1 / 1000)), ?_⟩
          have step := Spec.At.child (0, 0) quads (ch! "Q" ++ Nat.toDigits 10 (q + 1)) _ [m, t] _ _ _ hb
            (Spec.At.child _ modules m _ [t] _ _ _ hb2 (Spec.At.child _ ch t _ [] _ _ _ hf3 (Spec.At.here _ [])))
          convert step using 1
          · simp only; ring
          · simp only; ring

/-- A file with one tile. -/
def Spec.oneTile : Str → Option (H5Group ℚ) := fun name =>
  if name = ch! "Q1" then some (.node none [(ch! "M1", .node (some (10, 20)) [(ch! "T01", .node (some (3, 4)) [])])]) else none

/-- C92 is false for units: the same positions in micrometres give another geometry. -/
theorem old_units_wrong : ∃ g g' : OldFrag ℚ, oldFromH5 Spec.oneTile [(1, 2)] (1 / 1000) = .ok g ∧
    oldFromH5 (fun n => if n = ch! "Q1" then some (.node none [(ch! "M1", .node (some (10000, 20000)) [(ch! "T01", .node (some (3000, 4000)) [])])]) else none)
      [(1000, 2000)] (1 / 1000000) = .ok g' ∧
    g.findOffset [ch! "Q1", ch! "M1", ch! "T01"] = .ok (14 / 1000, 26 / 1000) ∧
    g'.findOffset [ch! "Q1", ch! "M1", ch! "T01"] = .ok (3011 / 1000, 4022 / 1000) := by
  refine ⟨.node (0, 0) [(ch! "Q1", .node (1 * (1 / 1000), 2 * (1 / 1000)) [(ch! "M1", .node (10 * (1 / 1000), 20 * (1 / 1000))
      [(ch! "T01", .node (3 * (1 / 1000), 4 * (1 / 1000)) [])])])],
    .node (0, 0) [(ch! "Q1", .node (1000 * (1 / 1000000), 2000 * (1 / 1000000)) [(ch! "M1", .node (10000 * (1 / 1000000), 20000 * (1 / 1000000))
      [(ch! "T01", .node (3000 * (1 / 1000), 4000 * (1 / 1000)) [])])])], rfl, rfl, ?_, ?_⟩
  · norm_num [OldFrag.findOffset, oldChild]
  · norm_num [OldFrag.findOffset, oldChild]

example : Spec.GoodQuad Spec.oneTile 0 :=
  ⟨_, rfl, by simp, by
    rintro m hm
    obtain rfl := List.mem_singleton.1 hm
    refine .node _ _ (by simp) ?_
    rintro t ht
    obtain rfl := List.mem_singleton.1 ht
    exact .node _ _ (by simp) (by simp)⟩

/-- C92 for units, which holds for the default unit only: the position of a tile is the sum of the three positions in the file. Missing:
other units. -/
theorem old_units_partial (file : Str → Option (H5Group K)) (positions : List (K × K)) (g : OldFrag K)
    (h : oldFromH5 file positions (1 / 1000) = .ok g) (q : Nat) (qp : K × K) (hq : positions[q]? = some qp)
    (mods : List (Str × H5Group K)) (hf : file (ch! "Q" ++ Nat.toDigits 10 (q + 1)) = some (.node none mods))
    (m : Str) (mp : K × K) (tiles : List (Str × H5Group K)) (hm : (m, H5Group.node (some mp) tiles) ∈ mods)
    (t : Str) (tp : K × K) (ht : (t, H5Group.node (some tp) []) ∈ tiles) :
    Spec.Leaf g [ch! "Q" ++ Nat.toDigits 10 (q + 1), m, t] ((qp.1 + mp.1 + tp.1) / 1000) ((qp.2 + mp.2 + tp.2) / 1000) := by
  have := old_position file positions _ g h q qp hq mods hf m mp tiles hm t tp ht
  convert this using 1 <;> ring

/-- A geometry with all tiles: each module at some place. -/
def Spec.someOld : OldFrag ℚ :=
  .node (0, 0) ((List.range 4).map (fun q => (ch! "Q" ++ natStr (q + 1), .node ((q : ℚ) / 10, 0)
    ((List.range 4).map (fun m => (ch! "M" ++ natStr (m + 1), .node (0, (m : ℚ) / 5)
      ((List.range 16).map (fun t => (tileName (t + 1), .node ((t / 8 : Nat) * (65 / 1000), (t % 8 : Nat) * (17 / 1000)) [])))))))))

example : Spec.IsDict Spec.someOld ∧ Spec.OldComplete Spec.someOld := by
  constructor
  · refine .node _ _ (by rw [List.map_map]; decide) ?_
    intro c hc
    obtain ⟨q, -, rfl⟩ := List.mem_map.1 hc
    refine .node _ _ (by rw [List.map_map]; decide) ?_
    intro c hc
    obtain ⟨m, -, rfl⟩ := List.mem_map.1 hc
    refine .node _ _ (by rw [List.map_map]; decide) ?_
    intro c hc
    obtain ⟨t, -, rfl⟩ := List.mem_map.1 hc
    exact .node _ _ (by simp) (by simp)
  · intro c t hc ht
    refine ⟨_, _, _, Spec.At.child _ _ _ _ _ _ _ _ (List.mem_map_of_mem (a := c / 4) (by simp; omega))
      (Spec.At.child _ _ _ _ _ _ _ _ (List.mem_map_of_mem (a := c % 4) (by simp; omega))
        (Spec.At.child _ _ _ _ _ _ _ _ (List.mem_map_of_mem (a := t) (by simpa using ht)) (Spec.At.here _ _)))⟩

end KD.Geo
