/- Properties C55, C56 and C60: when arrays of detector data can be made, and their shape; data without pulses. -/
import Verif.Props.DetArray
import Verif.Lemmas.DetSuccess

set_option linter.unusedSimpArgs false

namespace KD
open Spec

variable {V : Type}

/-- The file has every train of the list between two of its trains. -/
def Spec.HasBetween (f : FileAccess V) (l : List Nat) : Prop :=
  ∀ t ∈ l, (∃ a ∈ f.trainIds, a ≤ t) → (∃ b ∈ f.trainIds, t ≤ b) → t ∈ f.trainIds

/-- In a train no two frames have the same pulse ID. -/
def Spec.PulsesDistinct (num : V → Nat) (c : DC V) (source key : Str) : Prop :=
  ∀ t k k' p v v', FrameOf num c source key t k p v → FrameOf num c source key t k' p v' → k = k'

/-- The shape of one entry without the extra dimension of length 1 which raw files have in front. -/
def Spec.entryShape (shape : List Nat) : List Nat := if shape.head? = some 1 then shape.tail else shape

theorem startsWith_iff {s p : Str} : startsWith s p = true ↔ ∃ rest, s = p ++ rest := by
  unfold startsWith
  rw [List.isPrefixOf_iff_prefix]
  exact ⟨fun ⟨t, h⟩ => ⟨t, h.symm⟩, fun ⟨t, h⟩ => ⟨t, h.symm⟩⟩

theorem hasBetween_covers {f : FileAccess V} {l : List Nat} (h : HasBetween f l) : CoversIn f l := by
  intro t ht x y hx hy h1 h2
  exact h t ht ⟨x, List.mem_of_getElem? hx, h1⟩ ⟨y, List.mem_of_getLast? hy, h2⟩

theorem castU64_nonneg {libs : Libs} {i : Int} {n : Nat} (h : castU64 libs i = .ok n) (hi : 0 ≤ i) : (n : Int) = i := by
  unfold castU64 at h
  rw [if_neg (by omega)] at h
  split at h
  · obtain rfl := Except.ok.inj h
    omega
  · simp at h

/-- The numbers wanted by `by_index` increase, unless the user gives a list which does not. -/
theorem checkPulses_increasing {libs : Libs} {arg : PulseArg} {ps : Pulses} (h : checkPulses libs arg = .ok ps)
    (hl : ∀ l, arg = .by_ false (.list l) → l.Pairwise (· < ·) ∧ ∀ i ∈ l, 0 ≤ i) (hb : ps.byId = false) :
    ps.set.desired.Pairwise (· < ·) := by
  unfold checkPulses at h
  split at h
  · simp at h
  · split at h
    · rename_i a b s _ _ _
      split at h
      · simp at h
      · split at h
        · simp at h
        · rename_i hs _
          obtain rfl := Except.ok.inj h
          simp only [PulseSet.desired, arange]
          rw [List.pairwise_iff_getElem]
          intro i j hi hj hij
          rw [List.getElem_range', List.getElem_range']
          have : 0 < s.toNat := by omega
          have := Nat.mul_lt_mul_of_pos_left hij this
          omega
    · simp at h
  · split at h
    · simp at h
    · obtain rfl := Except.ok.inj h
      simp [PulseSet.desired]
  · rename_i id l
    split at h
    · simp at h
    · rename_i ns hns
      obtain rfl := Except.ok.inj h
      obtain rfl : id = false := hb
      obtain ⟨h1, h2⟩ := hl l rfl
      refine mapE_pairwise hns h1 ?_
      intro a ha b hb x y hab hx hy
      have := castU64_nonneg hx (h2 a ha)
      have := castU64_nonneg hy (h2 b hb)
      omega

theorem get_array_succeeds_of {kind : Option Str} {c : DC V} {name : Option Str} {modules : Option (List Nat)} {minModules : Int}
    {d : Det V} {libs : Libs} {num : V → Nat} {key : Str} {arg : PulseArg} {ps : Pulses} {shape : List Nat}
    (hd : Det.init kind c name modules minModules = .ok d) (hk : ∃ rest, key = ch! "image." ++ rest)
    (hps : checkPulses libs arg = .ok ps) (hl : ∀ l, arg = .by_ false (.list l) → l.Pairwise (· < ·) ∧ ∀ i ∈ l, 0 ≤ i)
    (hp : PlainSources d) (hv : ∀ x ∈ d.sourceToModno, ∀ f ∈ d.data.files, Holds f x.1 → ∀ chunk ∈ trainChunks d.data.trainIds,
      ChunkField f chunk x.1 key ∧ ChunkField f chunk x.1 (pulseIdKey key))
    (hcov : ∀ x ∈ d.sourceToModno, ∀ f ∈ c.files, Holds f x.1 → HasBetween f d.data.trainIds)
    (hsome : ∀ x ∈ d.sourceToModno, ∃ f ∈ c.files, Holds f x.1 ∧ ∃ t ∈ d.data.trainIds, t ∈ f.trainIds)
    (huniq : ∀ x ∈ d.sourceToModno, PulsesDistinct num c x.1 key)
    (hshape : ∀ x ∈ d.sourceToModno, ∀ f ∈ c.files, Holds f x.1 → ∀ ds, f.dataset (ch! "INSTRUMENT") x.1 key = .ok ds →
      ds.rowShape = shape)
    (hdim : (entryShape shape).length = 3 ∨ (entryShape shape).length = 2 ∨ (entryShape shape).length = 0) :
    ∃ a, d.getArray libs num key arg = .ok (.pulses a) ∧ a.rowShape = entryShape shape := by
  obtain ⟨hm, hord⟩ := detector_modules hd
  obtain ⟨hn, hsort, -, -, hfiles, hkept⟩ := init_data hd hp
  have hsq : squeezeShape shape = entryShape shape := squeezeShape_eq shape
  have hmod : ∀ x ∈ d.modules, ∃ a, d.modulePart num key ps x = .ok (x.1, a) ∧ a.rowShape = entryShape shape := by
    rintro ⟨m, s⟩ hx
    have hin := (hm s m).1 hx
    have hsd : ∃ f ∈ d.data.files, Holds f s ∧ ∃ t ∈ d.data.trainIds, t ∈ f.trainIds := by
      obtain ⟨f, h1, h2, t, h3, h4⟩ := hsome _ hin
      exact ⟨f, hkept f h1 _ hin h2 ⟨t, h3, h4⟩, h2, t, h3, h4⟩
    obtain ⟨a, ha, hsh⟩ := moduleData_ok (d := d) (num := num) (source := s) (key := key) (ps := ps) (shape := shape)
      (hv _ hin) (hsort.imp (fun h => by omega))
      (fun f h1 h2 => hasBetween_covers (hcov _ hin f (hfiles f h1) h2)) (checkPulses_increasing hps hl)
      (fun f h1 h2 => hshape _ hin f (hfiles f h1) h2) (by rw [hsq]; exact hdim)
      (by
        rintro t k k' p v v' ⟨f, h1, h2, h3⟩ ⟨f', h1', h2', h3'⟩
        exact huniq _ hin t k k' p v v' ⟨f, hfiles f h1, h2, h3⟩ ⟨f', hfiles f' h1', h2', h3'⟩) hsd hn
    refine ⟨a, ?_, by rw [hsh, hsq]⟩
    unfold Det.modulePart
    simp only [ha]
  obtain ⟨l, hl'⟩ := mapE_exists_ok (f := d.modulePart num key ps) (l := d.modules)
    (fun x hx => by obtain ⟨a, ha, _⟩ := hmod x hx; exact ⟨_, ha⟩)
  have hlshape : ∀ y ∈ l, y.2.rowShape = entryShape shape := by
    intro y hy
    obtain ⟨x, hx, hxy⟩ := (mapE_mem hl').1 hy
    obtain ⟨a, ha, hsh⟩ := hmod x hx
    rw [ha] at hxy
    obtain rfl := Except.ok.inj hxy
    exact hsh
  have hne : l ≠ [] := by
    have hms : d.modules ≠ [] := by
      have := init_sources_ne hd
      intro hc
      cases hs : d.sourceToModno with
      | nil => exact this hs
      | cons x xs =>
        have h1 := (hm x.1 x.2).2 (by rw [hs]; simp)
        rw [hc] at h1
        simp at h1
    intro hc
    have := mapE_length hl'
    rw [hc] at this
    exact hms (List.length_eq_zero_iff.1 this.symm)
  have hkey : startsWith key (ch! "image.") = true := by
    rw [startsWith_iff]
    exact hk
  have hsame : joinImageSizes (l.map (fun x => x.2.rowShape)) = .ok (entryShape shape) := by
    refine joinImageSizes_same ?_ (by simpa using hne)
    intro a ha
    obtain ⟨y, hy, rfl⟩ := List.mem_map.1 ha
    exact hlshape y hy
  refine ⟨⟨l.map Prod.fst, joinLabels (l.map (fun x => x.2.trains)), joinLabels (l.map (fun x => x.2.pulses)),
      entryShape shape, l.map (fun x => (x.1, x.2.cells))⟩, ?_, rfl⟩
  unfold Det.getArray
  rw [hps]
  simp only [hkey, if_true, hl']
  cases l with
  | nil => exact absurd rfl hne
  | cons y l =>
    unfold concatModules
    simp only [hsame]

/-- C55, C56, C60. An array of detector data is made whenever: the selection of pulses is accepted (a list given to
`by_index` must increase); the files have valid indexes, all trains kept which are between two of theirs, and distinct pulse
IDs in each train; each module has data in one of the trains kept; and all frames have the same shape, with two or three
dimensions or none, apart from the one of length 1 which raw files have. That dimension is not in the result. -/
theorem get_array_succeeds {kind : Option Str} {c : DC V} {name : Option Str} {modules : Option (List Nat)} {minModules : Int}
    {d : Det V} {libs : Libs} {num : V → Nat} {key : Str} {arg : PulseArg} {ps : Pulses} {shape : List Nat}
    (hd : Det.init kind c name modules minModules = .ok d) (hk : ∃ rest, key = ch! "image." ++ rest)
    (hps : checkPulses libs arg = .ok ps) (hl : ∀ l, arg = .by_ false (.list l) → l.Pairwise (· < ·) ∧ ∀ i ∈ l, 0 ≤ i)
    (hp : PlainSources d) (hv : ∀ x ∈ d.sourceToModno, FramesValid c x.1 key)
    (hcov : ∀ x ∈ d.sourceToModno, ∀ f ∈ c.files, Holds f x.1 → HasBetween f d.data.trainIds)
    (hsome : ∀ x ∈ d.sourceToModno, ∃ f ∈ c.files, Holds f x.1 ∧ ∃ t ∈ d.data.trainIds, t ∈ f.trainIds)
    (huniq : ∀ x ∈ d.sourceToModno, PulsesDistinct num c x.1 key)
    (hshape : ∀ x ∈ d.sourceToModno, ∀ f ∈ c.files, Holds f x.1 → ∀ ds, f.dataset (ch! "INSTRUMENT") x.1 key = .ok ds →
      ds.rowShape = shape)
    (hdim : (entryShape shape).length = 3 ∨ (entryShape shape).length = 2 ∨ (entryShape shape).length = 0) :
    ∃ a, d.getArray libs num key arg = .ok (.pulses a) ∧ a.rowShape = entryShape shape :=
  get_array_succeeds_of hd hk hps hl hp (fun x hx f hf hh chunk _ =>
    ⟨chunkField_of_valid ((framesValid_data hd hp (hv x hx)).1 f hf hh) chunk,
      chunkField_of_valid ((framesValid_data hd hp (hv x hx)).2 f hf hh) chunk⟩) hcov hsome huniq hshape hdim

/-- C55. With `by_index` and a list in which a number is not above one before it, there is no array, if a module has a train
with so many frames that both are wanted: HDF5 datasets can only be read in order. -/
theorem get_array_unordered {kind : Option Str} {c : DC V} {name : Option Str} {modules : Option (List Nat)} {minModules : Int}
    {d : Det V} {libs : Libs} {num : V → Nat} {key : Str} {l : List Int}
    (hd : Det.init kind c name modules minModules = .ok d) (hk : ∃ rest, key = ch! "image." ++ rest)
    (hp : PlainSources d) {x : Str × Nat} (hx : x ∈ d.sourceToModno) (hv : FramesValid c x.1 key)
    {t k k' p p' : Nat} {v v' : V} (ht : t ∈ d.data.trainIds)
    (h1 : FrameOf num c x.1 key t k p v) (h2 : FrameOf num c x.1 key t k' p' v')
    {i j : Nat} (hij : i < j) (hi : l[i]? = some (k : Int)) (hj : l[j]? = some (k' : Int)) (hkk : k' ≤ k) :
    ∃ e, d.getArray libs num key (.by_ false (.list l)) = .error e := by
  cases hr : d.getArray libs num key (.by_ false (.list l)) with
  | error e => exact ⟨e, rfl⟩
  | ok r =>
    exfalso
    have hkey : startsWith key (ch! "image.") = true := by
      rw [startsWith_iff]; exact hk
    obtain ⟨hm, -⟩ := detector_modules hd
    obtain ⟨hn, hsort, -, -, -, -⟩ := init_data hd hp
    have hvd := framesValid_data hd hp hv
    have h1 := (frameOf_data hd hp hx ht).2 h1
    have h2 := (frameOf_data hd hp hx ht).2 h2
    unfold Det.getArray at hr
    split at hr
    · simp at hr
    · rename_i ps hps
      rw [if_pos hkey] at hr
      split at hr
      · simp at hr
      · rename_i ml hml
        obtain ⟨y, -, hy⟩ := mapE_ok_all hml ((hm x.1 x.2).2 hx)
        have hmd := (modulePart_ok hy).2
        have hset : ∃ ns, ps = ⟨false, .list ns⟩ ∧ mapE (castU64 libs) l = .ok ns := by
          unfold checkPulses at hps
          simp only at hps
          split at hps
          · simp at hps
          · rename_i ns hns
            exact ⟨ns, (Except.ok.inj hps).symm, hns⟩
        obtain ⟨ns, rfl, hns⟩ := hset
        unfold Det.moduleData at hmd
        split at hmd
        · simp at hmd
        · rename_i fl hfl
          obtain ⟨f, f1, f2, n, firsts, counts, first, count, w1, w2, w3, w4, w5, -, -⟩ := h1
          obtain ⟨f', f1', f2', n', firsts', counts', first', count', w1', w2', w3', w4', w5', -, -⟩ := h2
          obtain rfl := same_file hn f1 f1' f2 f2' (List.mem_of_getElem? w1) (List.mem_of_getElem? w1')
          rw [w2] at w2'
          obtain ⟨rfl, rfl⟩ := Prod.mk.inj (Except.ok.inj w2')
          have hpair := (hvd.1 f f1 f2).trains
          have hnn : n = n' := by
            have e1 := List.getElem?_eq_some_iff.1 w1
            have e2 := List.getElem?_eq_some_iff.1 w1'
            obtain ⟨b1, e1⟩ := e1
            obtain ⟨b2, e2⟩ := e2
            have hnd : f.trainIds.Nodup := hpair.imp (fun h => by omega)
            exact (List.Nodup.getElem_inj_iff hnd).1 (e1.trans e2.symm)
          subst hnn
          rw [w4] at w4'
          obtain rfl := Option.some.inj w4'
          obtain ⟨fi, co, ds, q1, q2, q3, q4, q5, q6⟩ := (hvd.1 f f1 f2).data
          have q1' : f.getIndex x.1 (partition '.' key).1 = .ok (fi, co) := q1
          rw [w2] at q1'
          obtain ⟨rfl, rfl⟩ := Prod.mk.inj (Except.ok.inj q1')
          have hfi : f ∈ d.data.sourceIndex x.1 := by
            simp only [DC.sourceIndex, List.mem_filter, decide_eq_true_eq]
            exact ⟨f1, f2⟩
          obtain ⟨as, -, has⟩ := mapE_ok_all hfl hfi
          have htc := ht
          rw [← trainChunks_flatten d.data.trainIds, List.mem_flatten] at htc
          obtain ⟨chunk, hc, htc⟩ := htc
          unfold fileData at has
          rw [w2] at has
          simp only at has
          split at has
          · simp at has
          · rename_i os hos
            obtain ⟨o, -, ho⟩ := mapE_ok_all hos hc
            have hinc := chunkData_increasing ho (chunks_run hc) hpair htc w1 w3 w4
            have cast : ∀ (i k : Nat), l[i]? = some (k : Int) → ns[i]? = some k := by
              intro i k hik
              have hF := mapE_ok_iff.1 hns
              rw [List.forall₂_iff_get] at hF
              obtain ⟨b, hb⟩ := List.getElem?_eq_some_iff.1 hik
              have := hF.2 i b (by omega)
              simp only [List.get_eq_getElem, hb] at this
              have e := castU64_nonneg this (by omega)
              have hlt : i < ns.length := by omega
              exact List.getElem?_eq_some_iff.2 ⟨hlt, by omega⟩
            have c1 := cast i k hi
            have c2 := cast j k' hj
            rw [List.pairwise_filter] at hinc
            obtain ⟨b1, c1⟩ := List.getElem?_eq_some_iff.1 c1
            obtain ⟨b2, c2⟩ := List.getElem?_eq_some_iff.1 c2
            have := List.pairwise_iff_getElem.1 hinc i j b1 b2 hij (by simpa [c1] using w5) (by simpa [c2] using w5')
            omega

end KD

namespace KD
open Spec

theorem exDet_frame_key {t k p v : Nat} {n : Char} {key : Str} (hp : pulseIdKey key = ch! "image.pulseId")
    (hg : (partition '.' key).1 = ch! "image") (h : FrameOf id exDetData (exSource n) key t k p v) :
    (t = 10 ∨ t = 11 ∨ t = 12) ∧ (k = 0 ∧ p = 5 ∨ k = 1 ∧ p = 7) := by
  obtain ⟨f, hf, hh, i, firsts, counts, first, count, w1, w2, w3, w4, w5, ⟨pds, w6, z, w7, w8⟩, -⟩ := h
  rw [hp] at w6
  rw [hg] at w2
  simp only [exDetData, List.mem_cons, List.not_mem_nil, or_false] at hf
  have hn : ∀ m : Char, exSource n = exSource m → n = m := by
    intro m hm
    have := List.append_cancel_right hm
    have := List.append_cancel_left this
    exact (List.cons.inj this).1
  rcases hf with rfl | rfl
  · obtain rfl : n = '3' := by
      rcases hh with hh | hh
      · simp [exModule] at hh
      · exact hn _ (List.mem_singleton.1 hh)
    rw [(exModule_data (Or.inr rfl)).2.1] at w6
    rw [exModule_index (firsts := [0, 2, 4]) (counts := [2, 2, 0]) (tids := [10, 11, 12]) (ids := [5, 7, 5, 7])
      (rows := [100, 101, 110, 111]) (Or.inr rfl) rfl rfl (by decide) (by decide)] at w2
    obtain rfl := Except.ok.inj w6
    obtain ⟨rfl, rfl⟩ := Prod.mk.inj (Except.ok.inj w2)
    have hi : i < 3 := (List.getElem?_eq_some_iff.1 w1).1
    have : i = 0 ∨ i = 1 ∨ i = 2 := by omega
    rcases this with rfl | rfl | rfl <;> simp [exModule] at w1 w3 w4 <;> subst w1 w3 w4 <;>
      (have : k = 0 ∨ k = 1 := by omega) <;> rcases this with rfl | rfl <;> simp at w7 w8 w5 <;> simp [← w8, ← w7]
  · obtain rfl : n = '0' := by
      rcases hh with hh | hh
      · simp [exModule] at hh
      · exact hn _ (List.mem_singleton.1 hh)
    rw [(exModule_data (Or.inl rfl)).2.1] at w6
    rw [exModule_index (firsts := [0, 2, 4]) (counts := [2, 2, 2]) (tids := [10, 11, 12]) (ids := [5, 7, 5, 7, 5, 7])
      (rows := [200, 201, 210, 211, 220, 221]) (Or.inl rfl) rfl rfl (by decide) (by decide)] at w2
    obtain rfl := Except.ok.inj w6
    obtain ⟨rfl, rfl⟩ := Prod.mk.inj (Except.ok.inj w2)
    have hi : i < 3 := (List.getElem?_eq_some_iff.1 w1).1
    have : i = 0 ∨ i = 1 ∨ i = 2 := by omega
    rcases this with rfl | rfl | rfl <;> simp [exModule] at w1 w3 w4 <;> subst w1 w3 w4 <;>
      (have : k = 0 ∨ k = 1 := by omega) <;> rcases this with rfl | rfl <;> simp at w7 w8 w5 <;> simp [← w8, ← w7]

theorem exDet_frame {t k p v : Nat} {n : Char} (h : FrameOf id exDetData (exSource n) (ch! "image.data") t k p v) :
    (t = 10 ∨ t = 11 ∨ t = 12) ∧ (k = 0 ∧ p = 5 ∨ k = 1 ∧ p = 7) := exDet_frame_key (by decide) (by decide) h

theorem exDet_sources {x : Str × Nat} (hx : x ∈ exDet.sourceToModno) : x = (exSource '3', 3) ∨ x = (exSource '0', 0) := by
  simpa [exDet] using hx

/-- The example meets the hypotheses of `get_array_succeeds`, for any list of increasing numbers. -/
example (l : List Nat) (hl : l.Pairwise (· < ·)) (hb : ∀ n ∈ l, n < 2 ^ 64) :
    ∃ a, exDet.getArray ⟨true, true⟩ id (ch! "image.data") (.by_ false (.list (l.map Int.ofNat))) = .ok (.pulses a) ∧
      a.rowShape = [2, 2] := by
  have hcast : mapE (castU64 ⟨true, true⟩) (l.map Int.ofNat) = .ok ((l.map Int.ofNat).map Int.toNat) :=
    mapE_ok_of_forall (fun i hi => by
      obtain ⟨n, hn, rfl⟩ := List.mem_map.1 hi
      have := hb n hn
      unfold castU64
      rw [if_neg (by simp), if_pos (by simp only [Int.ofNat_eq_natCast]; omega)])
  have hfile : ∀ f ∈ exDetData.files, f.trainIds = [10, 11, 12] := by decide
  refine get_array_succeeds (shape := [1, 2, 2]) (ps := ⟨false, .list ((l.map Int.ofNat).map Int.toNat)⟩) exDet_init ⟨ch! "data", rfl⟩
    ?_ ?_ exDet_valid.1 exDet_valid.2.1 ?_ ?_ ?_ ?_ (Or.inr (Or.inl rfl))
  · simp only [checkPulses, hcast]
  · intro l' h'
    have := PulseArg.by_.inj h'
    have := PulseVal.list.inj this.2
    subst this
    refine ⟨?_, ?_⟩
    · rw [List.pairwise_map]
      exact hl.imp (fun h => by simpa using h)
    · intro i hi
      obtain ⟨n, -, rfl⟩ := List.mem_map.1 hi
      simp
  · intro x hx f hf hh t ht _ _
    rw [hfile f hf]
    exact ht
  · intro x hx
    rcases exDet_sources hx with rfl | rfl
    · exact ⟨_, List.mem_cons_self, Or.inr (List.mem_singleton.2 rfl), 10, by decide, by decide⟩
    · exact ⟨_, List.mem_cons_of_mem _ List.mem_cons_self, Or.inr (List.mem_singleton.2 rfl), 10, by decide, by decide⟩
  · intro x hx t k k' p v v' h1 h2
    rcases exDet_sources hx with rfl | rfl <;>
      (have := (exDet_frame h1).2; have := (exDet_frame h2).2; omega)
  · intro x hx f hf hh ds hds
    simp only [exDetData, List.mem_cons, List.not_mem_nil, or_false] at hf
    rcases exDet_sources hx with rfl | rfl <;> rcases hf with rfl | rfl
    · rw [(exModule_data (Or.inr rfl)).1] at hds; obtain rfl := Except.ok.inj hds; rfl
    · exact absurd hh (by rintro (h | h) <;> revert h <;> decide)
    · exact absurd hh (by rintro (h | h) <;> revert h <;> decide)
    · rw [(exModule_data (Or.inl rfl)).1] at hds; obtain rfl := Except.ok.inj hds; rfl

/-- Frames in the wrong order, or twice. -/
example (libs : Libs) : (∃ e, exDet.getArray libs id (ch! "image.data") (.by_ false (.list [1, 0])) = .error e) ∧
    ∃ e, exDet.getArray libs id (ch! "image.data") (.by_ false (.list [0, 0])) = .error e := by
  have hx : (exSource '0', 0) ∈ exDet.sourceToModno := by simp [exDet]
  have fr : ∀ k p v, ((k = 0 ∧ p = 5 ∧ v = 200) ∨ (k = 1 ∧ p = 7 ∧ v = 201)) →
      FrameOf id exDetData (exSource '0') (ch! "image.data") 10 k p v := by
    intro k p v h
    refine ⟨exModule '0' [10, 11, 12] [0, 2, 4] [2, 2, 2] [5, 7, 5, 7, 5, 7] [200, 201, 210, 211, 220, 221], by simp [exDetData],
      Or.inr (List.mem_singleton.2 rfl), 0, [0, 2, 4], [2, 2, 2], 0, 2, rfl, ?_, rfl, rfl, by omega, ?_, ?_⟩
    · have hg : (partition '.' (ch! "image.data")).1 = ch! "image" := by decide
      rw [hg]
      exact exModule_index (Or.inl rfl) rfl rfl (by decide) (by decide)
    · have hp : pulseIdKey (ch! "image.data") = ch! "image.pulseId" := by decide
      rw [hp]
      refine ⟨_, (exModule_data (Or.inl rfl)).2.1, p, ?_, rfl⟩
      rcases h with ⟨rfl, rfl, rfl⟩ | ⟨rfl, rfl, rfl⟩ <;> rfl
    · refine ⟨_, (exModule_data (Or.inl rfl)).1, ?_⟩
      rcases h with ⟨rfl, rfl, rfl⟩ | ⟨rfl, rfl, rfl⟩ <;> rfl
  exact ⟨get_array_unordered exDet_init ⟨ch! "data", rfl⟩ exDet_valid.1 hx (exDet_valid.2.1 _ hx) (t := 10) (by decide)
      (fr 1 7 201 (by simp)) (fr 0 5 200 (by simp)) (i := 0) (j := 1) (by decide) rfl rfl (by decide),
    get_array_unordered exDet_init ⟨ch! "data", rfl⟩ exDet_valid.1 hx (exDet_valid.2.1 _ hx) (t := 10) (by decide)
      (fr 0 5 200 (by simp)) (fr 0 5 200 (by simp)) (i := 0) (j := 1) (by decide) rfl rfl (by decide)⟩

/-- Keys without `image.` at the beginning. -/
example : ¬ ∃ rest, (ch! "header.magic") = ch! "image." ++ rest := by
  rintro ⟨rest, h⟩
  simp at h

end KD
