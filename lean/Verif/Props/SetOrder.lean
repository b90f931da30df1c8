/-
C131: the file written depends neither on the order in which Python goes through sets, nor on the order of the files.
-/
import Verif.Spec.SetOrder
import Verif.Props.FileOrder
import Verif.Props.WriteErrors
import Verif.Props.Metadata

set_option linter.unusedSimpArgs false

namespace KD

open KD.Spec

variable {V : Type}

/-- The fields in the order in which they are written. -/
def SetOrder.fields (o : SetOrder) : List Fld :=
  o.control.flatMap (fun s => (o.keys s).map (fun k => (false, s, k))) ++
    o.instrument.flatMap (fun s => (o.keys s).map (fun k => (true, s, k)))

theorem writeKeys_any {o : SetOrder} {b : Bool} {add : WState V → Str → Str → R (WState V)} {g : WState V → Fld → R (WState V)}
    {l : List Str} (hadd : ∀ w s k, add w s k = g w (b, s, k)) : ∀ w : WState V,
    foldE (o.writeKeys add) w l = foldE g w (l.flatMap (fun s => (o.keys s).map (fun k => (b, s, k)))) := by
  induction l with
  | nil => intro w; rfl
  | cons s l ih =>
    intro w
    have h1 : o.writeKeys add w s = foldE g w ((o.keys s).map (fun k => (b, s, k))) := by
      unfold SetOrder.writeKeys
      rw [foldE_map]
      exact foldE_congr (fun w' k hk' => hadd w' s k)
    simp only [List.flatMap_cons]
    rw [foldE_two, ← h1]
    simp only [foldE]
    cases o.writeKeys add w s with
    | error e => rfl
    | ok w' => exact ih w'

/-- Finishing after a fold, if there was no error. -/
def finishOf (T : List Nat) (r : R (WState V)) : R (H5File V) :=
  match r with
  | .error e => .error e
  | .ok w => w.finish T

theorem finishOf_ok {T : List Nat} {r : R (WState V)} {h : H5File V} :
    finishOf T r = .ok h ↔ ∃ w, r = .ok w ∧ w.finish T = .ok h := by
  cases r <;> simp [finishOf]

theorem order_write {o : SetOrder} {c : DC V} {addC addI : WState V → Str → Str → R (WState V)} {g : WState V → Fld → R (WState V)}
    (hC : ∀ w s k, addC w s k = g w (false, s, k)) (hI : ∀ w s k, addI w s k = g w (true, s, k)) :
    o.write c addC addI = finishOf c.trainIds (foldE g WState.new o.fields) := by
  unfold SetOrder.write SetOrder.fields
  rw [writeKeys_any hC, foldE_two]
  cases foldE g WState.new (o.control.flatMap (fun s => (o.keys s).map (fun k => (false, s, k)))) with
  | error e => rfl
  | ok w =>
    simp only
    rw [writeKeys_any hI]
    generalize foldE g w _ = r
    cases r <;> rfl

theorem order_field {c : DC V} {o : SetOrder} (h : OrderFor c o) (F : Fld) : F ∈ o.fields ↔ HasField c F.1 F.2.1 F.2.2 := by
  obtain ⟨b, s, k⟩ := F
  have hmem : ∀ {s}, (s ∈ c.controlSources ∨ s ∈ c.instrumentSources) → s ∈ c.allSources := by
    intro s hs; unfold DC.allSources; simpa using hs
  simp only [SetOrder.fields, List.mem_append, List.mem_flatMap, List.mem_map, Prod.mk.injEq]
  constructor
  · rintro (⟨s', h1, k', h2, rfl, rfl, rfl⟩ | ⟨s', h1, k', h2, rfl, rfl, rfl⟩)
    · have h1 := h.control.mem_iff.1 h1
      obtain ⟨ks, h3, h4⟩ := h.keys s' (hmem (Or.inl h1))
      exact ⟨by simpa using h1, ks, h3, h4.mem_iff.1 h2⟩
    · have h1 := h.instrument.mem_iff.1 h1
      obtain ⟨ks, h3, h4⟩ := h.keys s' (hmem (Or.inr h1))
      exact ⟨by simpa using h1, ks, h3, h4.mem_iff.1 h2⟩
  · rintro ⟨h1, ks', h2, h3⟩
    cases b with
    | true =>
      simp only [if_true] at h1
      obtain ⟨ks, h4, h5⟩ := h.keys s (hmem (Or.inr h1))
      rw [h4] at h2
      obtain rfl := Except.ok.inj h2
      exact Or.inr ⟨s, h.instrument.mem_iff.2 h1, k, h5.mem_iff.2 h3, rfl, rfl, rfl⟩
    | false =>
      simp only [Bool.false_eq_true, if_false] at h1
      obtain ⟨ks, h4, h5⟩ := h.keys s (hmem (Or.inl h1))
      rw [h4] at h2
      obtain rfl := Except.ok.inj h2
      exact Or.inl ⟨s, h.control.mem_iff.2 h1, k, h5.mem_iff.2 h3, rfl, rfl, rfl⟩

theorem order_nodup {c : DC V} {o : SetOrder} (h : OrderFor c o) : o.fields.Nodup := by
  have hone : ∀ (b : Bool) (l : List Str), l.Nodup → (∀ s ∈ l, s ∈ c.allSources) →
      (l.flatMap (fun s => (o.keys s).map (fun k => ((b, s, k) : Fld)))).Nodup := by
    intro b l hl hkl
    rw [List.nodup_flatMap]
    refine ⟨?_, ?_⟩
    · intro s hs
      obtain ⟨ks, h1, h2⟩ := h.keys s (hkl s hs)
      exact (h2.nodup_iff.2 (keysForSource_nodup h1)).map (fun k k' h => by simpa using h)
    · refine hl.imp ?_
      intro s s' hne
      simp only [Function.onFun, List.disjoint_left, List.mem_map]
      rintro F ⟨k, -, rfl⟩ ⟨k', -, e⟩
      simp at e
      exact hne e.1.symm
  unfold SetOrder.fields
  rw [List.nodup_append]
  refine ⟨hone _ _ (h.control.nodup_iff.2 (List.nodup_dedup _)) (fun s hs => ?_),
    hone _ _ (h.instrument.nodup_iff.2 (List.nodup_dedup _)) (fun s hs => ?_), ?_⟩
  · unfold DC.allSources; simp [h.control.mem_iff.1 hs]
  · unfold DC.allSources; simp [h.instrument.mem_iff.1 hs]
  intro F hF F' hF' e
  obtain ⟨s, -, h2⟩ := List.mem_flatMap.1 hF
  obtain ⟨k, -, rfl⟩ := List.mem_map.1 h2
  obtain ⟨s', -, h2'⟩ := List.mem_flatMap.1 hF'
  obtain ⟨k', -, rfl⟩ := List.mem_map.1 h2'
  simp at e

/-! ### Adding fields in two orders -/

theorem get?_perm {α β : Type _} [DecidableEq α] {d d' : Dict α β} (hn : d.keys.Nodup) (h : ∀ x, x ∈ d ↔ x ∈ d') (hn' : d'.keys.Nodup)
    (k : α) : d.get? k = d'.get? k := by
  have key : ∀ {d d' : Dict α β}, d.keys.Nodup → d'.keys.Nodup → (∀ x, x ∈ d → x ∈ d') → ∀ v, d.get? k = some v → d'.get? k = some v := by
    intro d d' hn hn' h v hv
    exact (Dict.get?_eq_some_iff hn').2 (h _ ((Dict.get?_eq_some_iff hn).1 hv))
  cases h1 : d.get? k with
  | some v => exact (key hn hn' (fun x hx => (h x).1 hx) v h1).symm
  | none =>
    cases h2 : d'.get? k with
    | none => rfl
    | some v =>
      have := key hn' hn (fun x hx => (h x).2 hx) v h2
      rw [h1] at this
      simp at this

theorem sortStrs_eq_of_perm {l l' : List Str} (h : l.Perm l') : sortStrs l = sortStrs l' := by
  unfold sortStrs
  have : IsTrans Str (fun a b => a ≤ b) := ⟨fun a b c h1 h2 => List.le_trans h1 h2⟩
  have : Std.Total (fun a b : Str => a ≤ b) := ⟨fun a b => List.le_total _ _⟩
  refine List.Perm.eq_of_pairwise (le := fun a b : Str => a ≤ b) ?_ (List.pairwise_insertionSort _ _) (List.pairwise_insertionSort _ _)
    ((List.perm_insertionSort _ _).trans (h.trans (List.perm_insertionSort _ _).symm))
  intro a b _ _ h1 h2
  exact List.le_antisymm h1 h2

/-- Adding the same fields in another order succeeds as well, and gives the same file. -/
theorem fold_any_order {c : DC V} (hn : WellNamed c) (ha : NamesApart c) {D : Fld → Option (Dataset V × List Nat)}
    (hlab : ∀ F F', HasField c F.1 F.2.1 F.2.2 → HasField c F'.1 F'.2.1 F'.2.2 → ixName F = ixName F' → ∀ x x',
      D F = some x → D F' = some x' → x.2 = x'.2)
    {Fs Fs' : List Fld} (hp : Fs.Perm Fs') (hnd : Fs.Nodup) (hin : ∀ F ∈ Fs, HasField c F.1 F.2.1 F.2.2)
    {h : H5File V} (hfs : finishOf c.trainIds (foldE (addFld c.trainIds D) WState.new Fs) = .ok h) :
    ∃ h', finishOf c.trainIds (foldE (addFld c.trainIds D) WState.new Fs') = .ok h' ∧ SameStored h h' := by
  obtain ⟨w, hfold, hfin⟩ := finishOf_ok.1 hfs
  have hcol : ∀ F ∈ Fs, ∀ F' ∈ Fs, ixName F' = ixName F → F'.1 = F.1 := fun F hF F' hF' => ixName_instr hn (hin F hF) (hin F' hF')
  have hcol' : ∀ F ∈ Fs', ∀ F' ∈ Fs', ixName F' = ixName F → F'.1 = F.1 :=
    fun F hF F' hF' => hcol F (hp.mem_iff.2 hF) F' (hp.mem_iff.2 hF')
  have hi := winv_fold hcol hfold
  have hpw : Fs'.Pairwise (fun F F' => pathClash (fldPath F) (fldPath F') = false) := by
    refine List.Pairwise.imp_of_mem ?_ (hp.nodup_iff.1 hnd)
    intro F F' hF hF' hne
    have hF := hin F (hp.mem_iff.2 hF)
    have hF' := hin F' (hp.mem_iff.2 hF')
    rw [pathClash_false]
    exact ⟨fun h => hne (fldPath_apart hn ha hF hF' h), fun h => hne (fldPath_apart hn ha hF' hF h).symm⟩
  obtain ⟨w', hfold'⟩ := addFlds_succeed_some (T := c.trainIds) (D := D) hcol' (by
    intro F hF x hx hb
    have hF := hp.mem_iff.2 hF
    obtain ⟨ix, hix⟩ := hi.ixAll F hF x hx
    obtain ⟨F2, g1, x2, g2, g3, g4⟩ := hi.ixFrom _ _ hix
    have hb2 : F2.1 = false := (hcol F hF F2 g1 g3).trans hb
    unfold IxOk at g4
    rw [hb2] at g4
    simp only [Bool.false_eq_true, if_false] at g4
    rw [hlab F F2 (hin F hF) (hin F2 g1) g3.symm x x2 hx g2]
    exact g4.1) hpw
  have hi' := winv_fold hcol' hfold'
  obtain ⟨h', hfin'⟩ := finish_succeeds hn ha (D := D) (fun F hF => hin F (hp.mem_iff.2 hF)) hfold'
  refine ⟨h', finishOf_ok.2 ⟨w', hfold', hfin'⟩, ?_⟩
  have hix : ∀ (name : Str) (ix : List Nat × List Nat), (name, ix) ∈ w.indexes ↔ (name, ix) ∈ w'.indexes := by
    have key : ∀ {G G' : List Fld} {v v' : WState V}, (∀ F, F ∈ G → F ∈ G') → (∀ F ∈ G', HasField c F.1 F.2.1 F.2.2) →
        foldE (addFld c.trainIds D) WState.new G = .ok v → foldE (addFld c.trainIds D) WState.new G' = .ok v' →
        WInv c.trainIds D G v → WInv c.trainIds D G' v' → ∀ x, x ∈ v.indexes → x ∈ v'.indexes := by
      intro G G' v v' hG hGin hv hv' i i' x hx
      obtain ⟨name, ix⟩ := x
      have hx := (Dict.get?_eq_some_iff (indexes_nodup hv)).2 hx
      obtain ⟨F, g1, y, g2, g3, g4⟩ := i.ixFrom _ _ hx
      obtain ⟨ix', hix'⟩ := i'.ixAll F (hG F g1) y g2
      obtain ⟨F', k1, y', k2, k3, k4⟩ := i'.ixFrom _ _ hix'
      have he := hlab F F' (hGin F (hG F g1)) (hGin F' k1) k3.symm y y' g2 k2
      have e : ix = ix' := by rw [ixOk_counts g4, ixOk_counts k4, he]
      rw [← g3, e]
      exact (Dict.get?_eq_some_iff (indexes_nodup hv')).1 hix'
    intro name ix
    exact ⟨key (fun F hF => hp.mem_iff.1 hF) (fun F hF => hin F (hp.mem_iff.2 hF)) hfold hfold' hi hi' (name, ix),
      key (fun F hF => hp.mem_iff.2 hF) hin hfold' hfold hi' hi (name, ix)⟩
  have hsrc : sortStrs w.sources = sortStrs w'.sources := by
    apply sortStrs_eq_of_perm
    rw [List.perm_ext_iff_of_nodup (sources_nodup hfold) (sources_nodup hfold')]
    intro id
    rw [hi.srcs, hi'.srcs]
    simp only [hp.mem_iff]
  have hdn : ∀ {G : List Fld} {v : WState V}, WInv c.trainIds D G v → v.datasets.keys.Nodup := by
    intro G v i
    unfold Dict.keys
    rw [List.Nodup, List.pairwise_map]
    apply i.noClash.imp
    intro a b hab e
    rw [e, pathClash_self] at hab
    simp at hab
  unfold WState.finish at hfin hfin'
  cases hI : foldE writeIndexGroup [] w.indexes with
  | error e => rw [hI] at hfin; simp at hfin
  | ok index =>
    cases hI' : foldE writeIndexGroup [] w'.indexes with
    | error e => rw [hI'] at hfin'; simp at hfin'
    | ok index' =>
      rw [hI] at hfin
      rw [hI'] at hfin'
      obtain rfl := Except.ok.inj hfin
      obtain rfl := Except.ok.inj hfin'
      obtain ⟨x1, x2⟩ := writeIndexes_ok hI
      obtain ⟨y1, y2⟩ := writeIndexes_ok hI'
      refine ⟨rfl, rfl, by simp only [hsrc], rfl, ?_, fun _ => Iff.rfl, ?_⟩
      · refine get?_perm x2 ?_ y2
        intro z
        rw [x1, y1, List.mem_map, List.mem_map]
        constructor
        · rintro ⟨⟨n, ix⟩, e1, e2⟩; exact ⟨(n, ix), (hix n ix).1 e1, e2⟩
        · rintro ⟨⟨n, ix⟩, e1, e2⟩; exact ⟨(n, ix), (hix n ix).2 e1, e2⟩
      · refine get?_perm (hdn hi) ?_ (hdn hi')
        intro z
        rw [hi.data, hi'.data]
        exact (hp.filterMap _).mem_iff

/-! ### The labels of the fields of one index -/

theorem ixName_group {c : DC V} (hn : WellNamed c) {F F' : Fld} (hF : HasField c F.1 F.2.1 F.2.2)
    (hF' : HasField c F'.1 F'.2.1 F'.2.2) (h : ixName F = ixName F') :
    F.2.1 = F'.2.1 ∧ c.keyGroup F.2.1 F.2.2 = c.keyGroup F'.2.1 F'.2.2 := by
  have hb := ixName_instr hn hF' hF h
  obtain ⟨b, s, k⟩ := F
  obtain ⟨b', s', k'⟩ := F'
  simp only at hb hF hF' ⊢
  subst hb
  cases b with
  | true =>
    have m1 : s ∈ c.instrumentSources := by simpa using hF.1
    have m2 : s' ∈ c.instrumentSources := by simpa using hF'.1
    obtain ⟨d, ch, p1, rfl⟩ := hn.instrument s m1
    obtain ⟨d', ch', p2, rfl⟩ := hn.instrument s' m2
    have e : instrumentId d ch (partition '.' k).1 = instrumentId d' ch' (partition '.' k').1 := by
      rw [← srcId_instrument, ← srcId_instrument]
      unfold srcId
      rw [h]
    obtain ⟨rfl, rfl, e3⟩ := instrumentId_inj p1 p2 e
    refine ⟨rfl, ?_⟩
    unfold DC.keyGroup
    rw [e3]
  | false =>
    simp only [ixName, Bool.false_eq_true, if_false] at h
    subst h
    refine ⟨rfl, ?_⟩
    have hc := hn.control s (by simpa using hF.1)
    have hni : s ∉ c.instrumentSources := by
      intro hi
      obtain ⟨d, ch, -, rfl⟩ := hn.instrument s hi
      simp at hc
    unfold DC.keyGroup
    rw [if_neg hni, if_neg hni]

theorem fldData_labels {c : DC V} (hn : WellNamed c) {F F' : Fld} (hF : HasField c F.1 F.2.1 F.2.2)
    (hF' : HasField c F'.1 F'.2.1 F'.2.2) (h : ixName F = ixName F') {x x' : Dataset V × List Nat}
    (hx : fldData c F = some x) (hx' : fldData c F' = some x') : x.2 = x'.2 := by
  obtain ⟨h1, h2⟩ := ixName_group hn hF hF' h
  obtain ⟨a, a1, a2, -⟩ := fldData_some hx
  obtain ⟨a', b1, b2, -⟩ := fldData_some hx'
  rw [← h1] at b1 h2
  have := group_labels h2 b1 a1
  rw [a2, b2] at this
  exact this

theorem assembleData_labels {c : DC V} {s k : Str} {x : Dataset V × List Nat} (h : assembleData c s k = .ok (some x)) :
    ∃ chunks, c.sortedChunks s k = .ok chunks ∧ x.2 = chunks.flatMap labelsOf := by
  unfold assembleData at h
  unfold DC.sortedChunks
  cases hcs : c.findDataChunks s k with
  | error e => rw [hcs] at h; simp at h
  | ok cs =>
    rw [hcs] at h
    simp only at h
    refine ⟨_, rfl, ?_⟩
    have hl := flatMap_filter_nonEmpty (g := labelsOf) (fun ch h0 => npRepeat_sum_zero _ _ h0) (sortBy Chunk.sortKey cs)
    rw [filter_sortBy] at h
    rw [← hl]
    split at h
    · simp at h
    next ch0 chs hfl =>
    split at h
    · simp at h
    next ds0 hds0 =>
    split at h
    · simp at h
    next parts hparts =>
    obtain rfl := Option.some.inj (Except.ok.inj h)
    rw [hfl]
    rfl

theorem fldVirtual_some {c : DC V} {F : Fld} {x : Dataset V × List Nat} (h : fldVirtual c F = some x) :
    assembleData c F.2.1 F.2.2 = .ok (some x) := by
  unfold fldVirtual at h
  cases ha : assembleData c F.2.1 F.2.2 with
  | error e => rw [ha] at h; simp at h
  | ok y => rw [ha] at h; simp only at h; rw [h]

theorem fldVirtual_same_labels {c : DC V} (hn : WellNamed c) {F F' : Fld} (hF : HasField c F.1 F.2.1 F.2.2)
    (hF' : HasField c F'.1 F'.2.1 F'.2.2) (h : ixName F = ixName F') {x x' : Dataset V × List Nat}
    (hx : fldVirtual c F = some x) (hx' : fldVirtual c F' = some x') : x.2 = x'.2 := by
  obtain ⟨h1, h2⟩ := ixName_group hn hF hF' h
  obtain ⟨chs, a1, a2⟩ := assembleData_labels (fldVirtual_some hx)
  obtain ⟨chs', b1, b2⟩ := assembleData_labels (fldVirtual_some hx')
  rw [← h1] at b1 h2
  rw [sortedChunks_setKey h2, b1] at a1
  simp only [Except.map] at a1
  obtain rfl := Except.ok.inj a1
  rw [a2, b2, List.flatMap_map]
  rfl

/-! ### The fields of two collections with the same contents -/

theorem same_hasField {c d : DC V} (h : SameContents c d) (hk : SameKeys c.files) {b : Bool} {s k : Str}
    (hF : HasField c b s k) : HasField d b s k := by
  obtain ⟨h1, ks, h2, h3⟩ := hF
  obtain ⟨e1, e2, e3⟩ := same_available h hk
  have hs : s ∈ c.allSources := by unfold DC.allSources; cases b <;> simp_all
  obtain ⟨-, ks', h4, h5⟩ := (e3 s k).1 ⟨hs, ks, h2, h3⟩
  refine ⟨?_, ks', h4, h5⟩
  cases b <;> simp_all

theorem mem_le_sum_counts {l : List Nat} {n : Nat} (h : n ∈ l) : n ≤ l.sum := by
  induction l with
  | nil => simp at h
  | cons a l ih =>
    rw [List.sum_cons]
    rcases List.mem_cons.1 h with rfl | h
    · omega
    · have := ih h; omega

/-- The virtual dataset does not depend on the order of the files. -/
theorem same_assembleData {c d : DC V} (h : SameContents c d) (hc : NoConflict c.files) {s k : Str}
    {x : Option (Dataset V × List Nat)} (hx : assembleData c s k = .ok x) : assembleData d s k = .ok x := by
  unfold assembleData at hx ⊢
  cases hcs : c.findDataChunks s k with
  | error e => rw [hcs] at hx; simp at hx
  | ok cs =>
    obtain ⟨cs', hcs', -, hfil⟩ := same_sortedChunks h hc hcs
    have hne : ∀ ch : Chunk V, ch.nonEmpty = (ch.counts.sum != 0) := by
      intro ch
      cases hn : ch.nonEmpty with
      | false => rw [nonEmpty_false hn]; rfl
      | true =>
        symm
        rw [bne_iff_ne]
        intro h0
        unfold Chunk.nonEmpty at hn
        rw [List.any_eq_true] at hn
        obtain ⟨n, h1, h2⟩ := hn
        have h3 : n ≤ ch.counts.sum := mem_le_sum_counts h1
        have h4 : 0 < n := by simpa using h2
        omega
    have e : (Chunk.nonEmpty : Chunk V → Bool) = fun ch => ch.counts.sum != 0 := funext hne
    rw [hcs] at hx
    rw [hcs']
    simp only at hx ⊢
    rw [filter_sortBy, e, ← hfil, ← e, ← filter_sortBy]
    exact hx

theorem fold_each {α σ : Type _} {f : σ → α → R σ} {l : List α} {s r : σ} (h : foldE f s l = .ok r) :
    ∀ a ∈ l, ∃ s1 s2, f s1 a = .ok s2 := by
  have := foldE_inv (P := fun done _ => ∀ a ∈ done, ∃ s1 s2, f s1 a = .ok s2) (done := []) (l := l) (by simp) (by
    intro done s a s' _ h1 h2 b hb
    rcases List.mem_append.1 hb with hb | hb
    · exact h1 b hb
    · rw [List.mem_singleton] at hb; subst hb; exact ⟨_, _, h2⟩) h
  simpa using this

/-- A field which `write` can write into a file. -/
def GoodField (c : DC V) (F : Fld) : Prop :=
  ∃ a tids, c.getArray F.2.1 F.2.2 id = .ok a ∧ a.coords = some tids ∧ (F.1 = false → a.rows.length = c.trainIds.length)

theorem goodField_of {c : DC V} {w w' : WState V} {F : Fld} (h : addAny c w F = .ok w') : GoodField c F := by
  obtain ⟨b, s, k⟩ := F
  unfold addAny at h
  cases b with
  | true =>
    obtain ⟨-, x, hx⟩ := addInstrument_ok (by simpa using h)
    obtain ⟨a, h1, h2, -⟩ := fldData_some hx
    exact ⟨a, _, h1, h2, by simp⟩
  | false =>
    obtain ⟨-, x, hx, hl⟩ := addControl_ok (by simpa using h)
    obtain ⟨a, h1, h2, h3⟩ := fldData_some hx
    rw [h3] at hl
    exact ⟨a, _, h1, h2, fun _ => hl⟩

theorem goodField_add {c : DC V} {F : Fld} (h : GoodField c F) (w : WState V) :
    addAny c w F = addFld c.trainIds (fldData c) w F := by
  obtain ⟨a, tids, h1, h2, h3⟩ := h
  obtain ⟨b, s, k⟩ := F
  have hD : fldData c (b, s, k) = some (⟨a.rows, a.rowShape, a.dtype⟩, tids) := by
    unfold fldData; rw [h1]; simp [h2]
  unfold addAny addFld
  rw [hD]
  simp only at h1 h3 ⊢
  cases b with
  | true =>
    simp only [if_true]
    unfold addInstrument
    rw [h1]
    simp only
    rw [show sectionName true = ch! "INSTRUMENT" from rfl]
    cases w.create (dataPath (ch! "INSTRUMENT") s k) ⟨a.rows, a.rowShape, a.dtype⟩ with
    | error e => rfl
    | ok w1 => simp only [h2, makeIx, if_true]
  | false =>
    simp only [Bool.false_eq_true, if_false]
    unfold addControl
    rw [h1]
    simp only
    rw [if_neg (by simpa using h3 rfl), show sectionName false = ch! "CONTROL" from rfl]
    cases w.create (dataPath (ch! "CONTROL") s k) ⟨a.rows, a.rowShape, a.dtype⟩ with
    | error e => rfl
    | ok w1 => simp only [h2, makeIx, Bool.false_eq_true, if_false]

theorem order_fields_perm {c d : DC V} {o o' : SetOrder} (ho : OrderFor c o) (ho' : OrderFor d o')
    (hF : ∀ b s k, HasField c b s k ↔ HasField d b s k) : o.fields.Perm o'.fields := by
  rw [List.perm_ext_iff_of_nodup (order_nodup ho) (order_nodup ho')]
  intro F
  rw [order_field ho, order_field ho', hF]

theorem write_order_core {c d : DC V} (hn : WellNamed c) (ha : NamesApart c) (hT : c.trainIds = d.trainIds)
    (hF : ∀ b s k, HasField c b s k ↔ HasField d b s k)
    (hA : ∀ s k a, c.getArray s k id = .ok a → d.getArray s k id = .ok a) {o o' : SetOrder} (ho : OrderFor c o) (ho' : OrderFor d o')
    {h : H5File V} (hw : c.writeInOrder o = .ok h) : ∃ h', d.writeInOrder o' = .ok h' ∧ SameStored h h' := by
  unfold DC.writeInOrder at hw ⊢
  rw [order_write (addC := addControl c) (addI := addInstrument c) (g := addAny c) (fun w s k => rfl) (fun w s k => rfl)] at hw
  rw [order_write (addC := addControl d) (addI := addInstrument d) (g := addAny d) (fun w s k => rfl) (fun w s k => rfl)]
  obtain ⟨w, hfold, -⟩ := finishOf_ok.1 hw
  have hgood : ∀ F ∈ o.fields, GoodField c F := by
    intro F hFm
    obtain ⟨s1, s2, h1⟩ := fold_each hfold F hFm
    exact goodField_of h1
  have hp := order_fields_perm ho ho' hF
  have hgood' : ∀ F ∈ o'.fields, GoodField d F := by
    intro F hFm
    obtain ⟨a, tids, h1, h2, h3⟩ := hgood F (hp.mem_iff.2 hFm)
    exact ⟨a, tids, hA _ _ _ h1, h2, fun hb => by rw [← hT]; exact h3 hb⟩
  have hD : ∀ F ∈ o'.fields, fldData d F = fldData c F := by
    intro F hFm
    obtain ⟨a, tids, h1, h2, h3⟩ := hgood F (hp.mem_iff.2 hFm)
    unfold fldData
    rw [h1, hA _ _ _ h1]
  rw [foldE_congr (g := addFld c.trainIds (fldData c)) (fun w F hFm => goodField_add (hgood F hFm) w)] at hw
  rw [foldE_congr (g := addFld c.trainIds (fldData c)) (fun w F hFm => by
    rw [goodField_add (hgood' F hFm) w]
    unfold addFld
    rw [hD F hFm, ← hT]), ← hT]
  exact fold_any_order hn ha (fun F F' hF1 hF2 e x x' hx hx' => fldData_labels hn hF1 hF2 e hx hx') hp (order_nodup ho)
    (fun F hFm => (order_field ho F).1 hFm) hw

/-- Adding a field of either kind to a virtual file. -/
def addAnyVirtual (c : DC V) (w : WState V) (F : Fld) : R (WState V) :=
  if F.1 then dropPath (vAddInstrument c w F.2.1 F.2.2) else dropPath (vAddControl c w F.2.1 F.2.2)

theorem addAnyVirtual_eq {c : DC V} {F : Fld} (hx : ∃ x, assembleData c F.2.1 F.2.2 = .ok x) (w : WState V) :
    addAnyVirtual c w F = addFld c.trainIds (fldVirtual c) w F := by
  obtain ⟨b, s, k⟩ := F
  cases b with
  | true => exact vDrop_instrument hx
  | false => exact vDrop_control hx

theorem addAnyVirtual_ok {c : DC V} {w w' : WState V} {F : Fld} (h : addAnyVirtual c w F = .ok w') :
    ∃ x, assembleData c F.2.1 F.2.2 = .ok x := by
  obtain ⟨b, s, k⟩ := F
  cases ha : assembleData c s k with
  | ok x => exact ⟨x, rfl⟩
  | error e =>
    cases b with
    | true => simp [addAnyVirtual, vAddInstrument, ha, dropPath] at h
    | false => simp [addAnyVirtual, vAddControl, ha, dropPath] at h

theorem write_virtual_order_core {c d : DC V} (hn : WellNamed c) (ha : NamesApart c) (hT : c.trainIds = d.trainIds)
    (hF : ∀ b s k, HasField c b s k ↔ HasField d b s k)
    (hA : ∀ s k x, assembleData c s k = .ok x → assembleData d s k = .ok x) {o o' : SetOrder} (ho : OrderFor c o) (ho' : OrderFor d o')
    {h : H5File V} (hw : c.writeVirtualInOrder o = .ok h) : ∃ h', d.writeVirtualInOrder o' = .ok h' ∧ SameStored h h' := by
  unfold DC.writeVirtualInOrder at hw ⊢
  rw [order_write (addC := fun w s k => dropPath (vAddControl c w s k)) (addI := fun w s k => dropPath (vAddInstrument c w s k))
    (g := addAnyVirtual c) (fun w s k => rfl) (fun w s k => rfl)] at hw
  rw [order_write (addC := fun w s k => dropPath (vAddControl d w s k)) (addI := fun w s k => dropPath (vAddInstrument d w s k))
    (g := addAnyVirtual d) (fun w s k => rfl) (fun w s k => rfl)]
  obtain ⟨w, hfold, -⟩ := finishOf_ok.1 hw
  have hgood : ∀ F ∈ o.fields, ∃ x, assembleData c F.2.1 F.2.2 = .ok x := by
    intro F hFm
    obtain ⟨s1, s2, h1⟩ := fold_each hfold F hFm
    exact addAnyVirtual_ok h1
  have hp := order_fields_perm ho ho' hF
  rw [foldE_congr (g := addFld c.trainIds (fldVirtual c)) (fun w F hFm => addAnyVirtual_eq (hgood F hFm) w)] at hw
  rw [foldE_congr (g := addFld c.trainIds (fldVirtual c)) (fun w F hFm => by
    obtain ⟨x, hx⟩ := hgood F (hp.mem_iff.2 hFm)
    rw [addAnyVirtual_eq ⟨x, hA _ _ _ hx⟩ w]
    unfold addFld fldVirtual
    rw [hx, hA _ _ _ hx, ← hT]), ← hT]
  exact fold_any_order hn ha (fun F F' hF1 hF2 e x x' hx hx' => fldVirtual_same_labels hn hF1 hF2 e hx hx') hp (order_nodup ho)
    (fun F hFm => (order_field ho F).1 hFm) hw

/-! ### The theorems -/

/-- `write` and `write_virtual` of this model go through the sets in one of the possible orders. -/
theorem write_in_some_order {c : DC V} (hk : KeysReadable c) : ∃ o, OrderFor c o ∧ c.writeInOrder o = c.write ∧
    c.writeVirtualInOrder o = c.writeVirtual := by
  have key : ∀ (add : WState V → Str → Str → R (WState V)) (l : List Str), (∀ s ∈ l, s ∈ c.allSources) → ∀ w,
      foldE ((⟨c.controlSources, c.instrumentSources, keysOf c⟩ : SetOrder).writeKeys add) w l = foldE (writeSource c add) w l := by
    intro add l hl w
    refine foldE_congr (fun w' s hs => ?_)
    obtain ⟨ks, hks⟩ := hk s (hl s hs)
    unfold SetOrder.writeKeys writeSource
    simp only [keysOf_eq hks, hks]
  have hC : ∀ s ∈ c.controlSources, s ∈ c.allSources := fun s hs => by unfold DC.allSources; simp [hs]
  have hI : ∀ s ∈ c.instrumentSources, s ∈ c.allSources := fun s hs => by unfold DC.allSources; simp [hs]
  have hw : ∀ addC addI, (⟨c.controlSources, c.instrumentSources, keysOf c⟩ : SetOrder).write c addC addI = writeWith c addC addI := by
    intro addC addI
    unfold SetOrder.write writeWith
    rw [key addC _ hC]
    cases foldE (writeSource c addC) WState.new c.controlSources with
    | error e => rfl
    | ok w =>
      simp only
      rw [key addI _ hI]
      generalize foldE (writeSource c addI) w c.instrumentSources = r
      cases r <;> rfl
  refine ⟨⟨c.controlSources, c.instrumentSources, keysOf c⟩, ⟨.refl _, .refl _, ?_⟩, hw _ _, hw _ _⟩
  intro s hs
  obtain ⟨ks, hks⟩ := hk s hs
  exact ⟨ks, hks, by simp only [keysOf_eq hks]; exact .refl _⟩

/-- C131. In whatever order Python goes through the sets of sources and keys, `write` succeeds or fails alike, and writes the same file. -/
theorem write_any_order {c : DC V} (hn : WellNamed c) (ha : NamesApart c) {o o' : SetOrder} (ho : OrderFor c o) (ho' : OrderFor c o')
    {h : H5File V} (hw : c.writeInOrder o = .ok h) : ∃ h', c.writeInOrder o' = .ok h' ∧ SameStored h h' :=
  write_order_core hn ha rfl (fun _ _ _ => Iff.rfl) (fun _ _ _ h => h) ho ho' hw

/-- C131. The same for `write_virtual`. -/
theorem write_virtual_any_order {c : DC V} (hn : WellNamed c) (ha : NamesApart c) {o o' : SetOrder} (ho : OrderFor c o)
    (ho' : OrderFor c o') {h : H5File V} (hw : c.writeVirtualInOrder o = .ok h) :
    ∃ h', c.writeVirtualInOrder o' = .ok h' ∧ SameStored h h' :=
  write_virtual_order_core hn ha rfl (fun _ _ _ => Iff.rfl) (fun _ _ _ h => h) ho ho' hw

/-- C131. Nor does the order of the files of the collection matter, if files which share a source have the same keys for it. -/
theorem write_files_order {c d : DC V} (h : SameContents c d) (hc : NoConflict c.files) (hk : SameKeys c.files) (hn : WellNamed c)
    (ha : NamesApart c) {o o' : SetOrder} (ho : OrderFor c o) (ho' : OrderFor d o') {f : H5File V}
    (hw : c.writeInOrder o = .ok f) : ∃ f', d.writeInOrder o' = .ok f' ∧ SameStored f f' :=
  write_order_core hn ha h.trains
    (fun _ _ _ => ⟨same_hasField h hk, same_hasField (sameContents_symm h) (sameKeys_perm h.files hk)⟩)
    (fun _ _ _ ha => same_array h hc hk ha) ho ho' hw

/-- C131. The same for `write_virtual`. -/
theorem write_virtual_files_order {c d : DC V} (h : SameContents c d) (hc : NoConflict c.files) (hk : SameKeys c.files)
    (hn : WellNamed c) (ha : NamesApart c) {o o' : SetOrder} (ho : OrderFor c o) (ho' : OrderFor d o') {f : H5File V}
    (hw : c.writeVirtualInOrder o = .ok f) : ∃ f', d.writeVirtualInOrder o' = .ok f' ∧ SameStored f f' :=
  write_virtual_order_core hn ha h.trains
    (fun _ _ _ => ⟨same_hasField h hk, same_hasField (sameContents_symm h) (sameKeys_perm h.files hk)⟩)
    (fun _ _ _ ha => same_assembleData h hc ha) ho ho' hw

/-! ### Examples -/

/-- Another order for `exWrite` with its files reversed: both orders write the same file. -/
example : ∃ h h', exWrite.write = .ok h ∧ (∃ o', OrderFor exWriteRev o' ∧ exWriteRev.writeInOrder o' = .ok h') ∧ SameStored h h' ∧
    h.datasets.get? [ch! "INSTRUMENT", ch! "D:o", ch! "data", ch! "y"] = some ⟨[10, 11, 12, 20], [], 0⟩ := by
  obtain ⟨hc, hk, hl⟩ := exWrite_files
  obtain ⟨o, ho, hw, -⟩ := write_in_some_order exWrite_keys
  obtain ⟨h, hh, hds⟩ : ∃ h, exWrite.write = .ok h ∧
      h.datasets.get? [ch! "INSTRUMENT", ch! "D:o", ch! "data", ch! "y"] = some ⟨[10, 11, 12, 20], [], 0⟩ := by
    cases hx : exWrite.write with
    | error e =>
      exfalso
      have : (match exWrite.write with | .error _ => false | .ok _ => true) = true := by decide
      rw [hx] at this
      simp at this
    | ok h =>
      refine ⟨h, rfl, ?_⟩
      have : (match exWrite.write with
        | .error _ => none
        | .ok h => h.datasets.get? [ch! "INSTRUMENT", ch! "D:o", ch! "data", ch! "y"]) = some ⟨[10, 11, 12, 20], [], 0⟩ := by decide
      rw [hx] at this
      exact this
  have ho' : OrderFor exWriteRev ⟨[ch! "C"], [ch! "D:o"], fun s => if s = ch! "C" then [ch! "x.value"] else [ch! "data.y"]⟩ := by
    refine ⟨by decide, by decide, ?_⟩
    have e : exWriteRev.allSources = [ch! "C", ch! "D:o"] := by decide
    rw [e]
    intro s hs
    rcases List.mem_cons.1 hs with rfl | hs
    · exact ⟨[ch! "x.value"], by decide, by decide⟩
    · obtain rfl := List.mem_singleton.1 hs
      exact ⟨[ch! "data.y"], by decide, by decide⟩
  obtain ⟨h', h1, h2⟩ := write_files_order exWriteRev_same hc hk exWrite_writable.named exWrite_apart ho ho' (hw.trans hh)
  exact ⟨h, h', hh, ⟨_, ho', h1⟩, h2, hds⟩

/-- A file with one control source, the key `x.value` and one entry for each train. -/
def exCtrlAs (name source : Str) (tids rows : List Nat) (dtype : Nat) : FileAccess Nat :=
  ⟨name, tids, [source], [],
    { trainId := some tids, version := some (ch! "1.0"), sources05 := none, sources10 := some [ch! "CONTROL/" ++ source],
      index := [([ch! "INDEX", source],
        ⟨some ((List.range tids.length).map (BitVec.ofNat 64)), some (tids.map (fun _ => 1#64)), none, none⟩)],
      groups := [], datasets := [([ch! "CONTROL", source, ch! "x", ch! "value"], ⟨rows, [], dtype⟩)] }⟩

/-- The source `C` has no data for train 3, and the files disagree about the type of the data of the source `E`. -/
def exTwoFail : DC Nat where
  files := [exCtrlAs (ch! "a") (ch! "C") [1, 2] [31, 32] 0, exCtrlAs (ch! "b") (ch! "E") [1] [41] 0,
    exCtrlAs (ch! "c") (ch! "E") [2, 3] [42, 43] 1]
  selection := [(ch! "C", none), (ch! "E", none)]
  trainIds := [1, 2, 3]
  ctxCloses := true

/-- C131. Which exception is raised may depend on the order: where two fields can not be written, it is the one for the first of them. -/
theorem write_error_order_wrong :
    let o : List Str → SetOrder := fun l => ⟨l, [], fun _ => [ch! "x.value"]⟩
    OrderFor exTwoFail (o [ch! "C", ch! "E"]) ∧ OrderFor exTwoFail (o [ch! "E", ch! "C"]) ∧
      exTwoFail.writeInOrder (o [ch! "C", ch! "E"]) = .error .assertion ∧
      exTwoFail.writeInOrder (o [ch! "E", ch! "C"]) = .error .generic := by
  have e : exTwoFail.allSources = [ch! "C", ch! "E"] := by decide
  have hk : ∀ s ∈ exTwoFail.allSources, ∃ ks, exTwoFail.keysForSource s = .ok ks ∧ [ch! "x.value"].Perm ks := by
    rw [e]
    intro s hs
    rcases List.mem_cons.1 hs with rfl | hs
    · exact ⟨[ch! "x.value"], by decide, .refl _⟩
    · obtain rfl := List.mem_singleton.1 hs
      exact ⟨[ch! "x.value"], by decide, .refl _⟩
  exact ⟨⟨by decide, by decide, hk⟩, ⟨by decide, by decide, hk⟩, by decide, by decide⟩

end KD
