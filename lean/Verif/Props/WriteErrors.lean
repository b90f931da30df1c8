/- Property C129: which exception writing raises. -/
import Verif.Props.VirtualSucceeds

set_option linter.unusedSimpArgs false

namespace KD

variable {V : Type}

namespace Spec

/-- Why a field can not be written, with the exception for it: the files disagree about its type or shape; it is control data
without exactly one entry for some selected train; there is no data to take the trains from. -/
inductive FieldFails (c : DC V) (instr : Bool) (source key : Str) : PyErr → Prop
  | mismatch : Mismatch c instr source key → FieldFails c instr source key .generic
  | notOneEach (t : Nat) : ¬ Mismatch c instr source key → instr = false → t ∈ c.trainIds → ¬ OneEntry c instr source key t →
      FieldFails c instr source key .assertion
  | noData : ¬ Mismatch c instr source key → ¬ HasData c instr source key → (instr = true ∨ c.trainIds = []) →
      FieldFails c instr source key .key

/-- The fields in the order in which they are written: control sources first, and source by source. -/
def WriteOrder (c : DC V) (l : List (Bool × Str × Str)) : Prop :=
  ∃ ks : Str → List Str, (∀ s ∈ c.allSources, c.keysForSource s = .ok (ks s)) ∧
    l = (c.controlSources.flatMap (fun s => (ks s).map (fun k => (false, s, k)))) ++
      c.instrumentSources.flatMap (fun s => (ks s).map (fun k => (true, s, k)))

end Spec

open Spec

/-- Only one exception fits. -/
theorem fieldFails_unique {c : DC V} {b : Bool} {s k : Str} {e e' : PyErr} (h : FieldFails c b s k e)
    (h' : FieldFails c b s k e') : e = e' := by
  cases h with
  | mismatch h1 => cases h' with
    | mismatch => rfl
    | notOneEach _ h2 => exact absurd h1 h2
    | noData h2 => exact absurd h1 h2
  | notOneEach t h1 hb ht => cases h' with
    | mismatch h2 => exact absurd h2 h1
    | notOneEach => rfl
    | noData _ _ h3 =>
      rcases h3 with h3 | h3
      · rw [hb] at h3; simp at h3
      · rw [h3] at ht; simp at ht
  | noData h1 _ h3 => cases h' with
    | mismatch h2 => exact absurd h2 h1
    | notOneEach t _ hb ht =>
      rcases h3 with h3 | h3
      · rw [hb] at h3; simp at h3
      · rw [h3] at ht; simp at ht
    | noData => rfl

/-- A field which fails in no way fulfils the condition for being written. -/
theorem not_fieldFails {c : DC V} {b : Bool} {s k : Str} (h : ∀ e, ¬ FieldFails c b s k e) :
    ¬ Mismatch c b s k ∧ HasData c b s k ∧ (b = false → ∀ t ∈ c.trainIds, OneEntry c b s k t) := by
  have hm : ¬ Mismatch c b s k := fun hm => h _ (.mismatch hm)
  have ho : b = false → ∀ t ∈ c.trainIds, OneEntry c b s k t := by
    intro hb t ht
    by_contra hn
    exact h _ (.notOneEach t hm hb ht hn)
  refine ⟨hm, ?_, ho⟩
  by_contra hn
  cases hb : b with
  | true => exact h _ (.noData hm hn (Or.inl hb))
  | false =>
    cases hT : c.trainIds with
    | nil => exact h _ (.noData hm hn (Or.inr hT))
    | cons t T =>
      obtain ⟨g, h1, h2, v, h3⟩ := ho hb t (by rw [hT]; simp)
      exact hn ⟨t, by rw [hT]; simp, g, h1, h2, by rw [h3]; simp⟩

/-- Adding a field of either kind. -/
def addAny (c : DC V) (w : WState V) (F : Fld) : R (WState V) :=
  if F.1 then addInstrument c w F.2.1 F.2.2 else addControl c w F.2.1 F.2.2

theorem foldE_two {α σ : Type _} {f : σ → α → R σ} {l1 l2 : List α} : ∀ {s : σ}, foldE f s (l1 ++ l2) =
    match foldE f s l1 with
    | .error e => .error e
    | .ok s' => foldE f s' l2 := by
  induction l1 with
  | nil => intro s; rfl
  | cons a l1 ih =>
    intro s
    simp only [List.cons_append, foldE]
    cases f s a with
    | error e => rfl
    | ok s1 => exact ih

theorem writeSources_any {c : DC V} {b : Bool} {add : WState V → Str → Str → R (WState V)} {g : WState V → Fld → R (WState V)}
    {ks : Str → List Str} {l : List Str} (hk : ∀ s ∈ l, c.keysForSource s = .ok (ks s))
    (hadd : ∀ w s k, add w s k = g w (b, s, k)) : ∀ w : WState V,
    foldE (writeSource c add) w l = foldE g w (l.flatMap (fun s => (ks s).map (fun k => (b, s, k)))) := by
  induction l with
  | nil => intro w; rfl
  | cons s l ih =>
    intro w
    have h1 : writeSource c add w s = foldE g w ((ks s).map (fun k => (b, s, k))) := by
      unfold writeSource
      rw [hk s (by simp)]
      simp only
      rw [foldE_map]
      exact foldE_congr (fun w' k hk' => hadd w' s k)
    simp only [List.flatMap_cons]
    rw [foldE_two, ← h1]
    simp only [foldE]
    cases writeSource c add w s with
    | error e => rfl
    | ok w' => exact ih (fun s hs => hk s (by simp [hs])) w'

/-- Writing, field by field. -/
theorem write_any {c : DC V} {Fs : List Fld} (h : WriteOrder c Fs) : c.write =
    match foldE (addAny c) WState.new Fs with
    | .error e => .error e
    | .ok w => w.finish c.trainIds := by
  obtain ⟨ks, hk, rfl⟩ := h
  unfold DC.write writeWith
  rw [writeSources_any (b := false) (add := addControl c) (g := addAny c) (ks := ks) (fun s hs => hk s (by unfold DC.allSources; simp [hs]))
    (fun w s k => rfl), foldE_two]
  cases foldE (addAny c) WState.new (c.controlSources.flatMap (fun s => (ks s).map (fun k => (false, s, k)))) with
  | error e => rfl
  | ok w =>
    simp only
    rw [writeSources_any (b := true) (add := addInstrument c) (g := addAny c) (ks := ks) (fun s hs => hk s (by unfold DC.allSources; simp [hs]))
      (fun w s k => rfl)]
    generalize foldE (addAny c) w _ = r
    cases r <;> rfl

theorem writeOrder_field {c : DC V} {Fs : List Fld} (h : WriteOrder c Fs) (F : Fld) :
    F ∈ Fs ↔ HasField c F.1 F.2.1 F.2.2 := by
  obtain ⟨ks, hk, rfl⟩ := h
  obtain ⟨b, s, k⟩ := F
  have hmem : ∀ {s}, (s ∈ c.controlSources ∨ s ∈ c.instrumentSources) → s ∈ c.allSources := by
    intro s hs; unfold DC.allSources; simpa using hs
  simp only [List.mem_append, List.mem_flatMap, List.mem_map, Prod.mk.injEq]
  constructor
  · rintro (⟨s', h1, k', h2, rfl, rfl, rfl⟩ | ⟨s', h1, k', h2, rfl, rfl, rfl⟩)
    · exact ⟨by simpa using h1, _, hk s' (hmem (Or.inl h1)), h2⟩
    · exact ⟨by simpa using h1, _, hk s' (hmem (Or.inr h1)), h2⟩
  · rintro ⟨h1, ks', h2, h3⟩
    cases b with
    | true =>
      simp only [if_true] at h1
      rw [hk s (hmem (Or.inr h1))] at h2
      obtain rfl := Except.ok.inj h2
      exact Or.inr ⟨s, h1, k, h3, rfl, rfl, rfl⟩
    | false =>
      simp only [Bool.false_eq_true, if_false] at h1
      rw [hk s (hmem (Or.inl h1))] at h2
      obtain rfl := Except.ok.inj h2
      exact Or.inl ⟨s, h1, k, h3, rfl, rfl, rfl⟩

theorem writeOrder_nodup {c : DC V} {Fs : List Fld} (h : WriteOrder c Fs) : Fs.Nodup := by
  obtain ⟨ks, hk, rfl⟩ := h
  have hone : ∀ (b : Bool) (l : List Str), l.Nodup → (∀ s ∈ l, s ∈ c.allSources) →
      (l.flatMap (fun s => (ks s).map (fun k => ((b, s, k) : Fld)))).Nodup := by
    intro b l hl hkl
    rw [List.nodup_flatMap]
    refine ⟨?_, ?_⟩
    · intro s hs
      exact (keysForSource_nodup (hk s (hkl s hs))).map (fun k k' h => by simpa using h)
    · refine hl.imp ?_
      intro s s' hne
      simp only [Function.onFun, List.disjoint_left, List.mem_map]
      rintro F ⟨k, -, rfl⟩ ⟨k', -, e⟩
      simp at e
      exact hne e.1.symm
  rw [List.nodup_append]
  refine ⟨hone _ _ (List.nodup_dedup _) (fun s hs => by unfold DC.allSources; simp [hs]),
    hone _ _ (List.nodup_dedup _) (fun s hs => by unfold DC.allSources; simp [hs]), ?_⟩
  intro F hF F' hF' e
  obtain ⟨s, -, h2⟩ := List.mem_flatMap.1 hF
  obtain ⟨k, -, rfl⟩ := List.mem_map.1 h2
  obtain ⟨s', -, h2'⟩ := List.mem_flatMap.1 hF'
  obtain ⟨k', -, rfl⟩ := List.mem_map.1 h2'
  simp at e

/-- The data of a field which can be written, and the step for it. -/
theorem addAny_good {c : DC V} (hw : Writable c) {b : Bool} {s k : Str} (hF : HasField c b s k)
    (hg : ∀ e, ¬ FieldFails c b s k e) :
    (∃ x, fldData c (b, s, k) = some x ∧ (b = false → x.2.Nodup)) ∧
    ∀ w, addAny c w (b, s, k) = addFld c.trainIds (fldData c) w (b, s, k) := by
  have hT : c.trainIds.Nodup := hw.trains.imp (fun h => Nat.ne_of_lt h)
  obtain ⟨h1, h2, h3⟩ := not_fieldFails hg
  have hv := hw.valid b s k hF
  obtain ⟨a, ha1, -⟩ := (get_array_mismatch_gaps id hw.noConflict hv (hasField_available hF)).2 h1
  obtain ⟨x, hx⟩ := (fldData_iff hw.noConflict hv).2 ⟨a, ha1, h2⟩
  obtain ⟨a', ha', hco, hds⟩ := fldData_some hx
  simp only at ha'
  rw [ha1] at ha'
  obtain rfl := Except.ok.inj ha'
  obtain ⟨ds, tids⟩ := x
  simp only at hco hds
  subst hds
  refine ⟨⟨_, hx, ?_⟩, ?_⟩
  · rintro rfl
    exact ((one_each hw.noConflict hT hv ha1 hco).2 (h3 rfl)).1
  · intro w
    cases b with
    | true =>
      unfold addAny addInstrument addFld
      simp only [if_true]
      rw [ha1, hx]
      simp only
      cases hcr : w.create (dataPath (ch! "INSTRUMENT") s k) ⟨a.rows, a.rowShape, a.dtype⟩ with
      | error e => rw [show w.create (dataPath (sectionName true) s k) _ = .error e from hcr]
      | ok w1 =>
        rw [show w.create (dataPath (sectionName true) s k) _ = .ok w1 from hcr, hco]
        simp [makeIx]
    | false =>
      unfold addAny addControl addFld
      simp only [Bool.false_eq_true, if_false]
      rw [ha1, hx]
      simp only
      rw [if_neg (by rw [((one_each hw.noConflict hT hv ha1 hco).2 (h3 rfl)).2]; simp)]
      cases hcr : w.create (dataPath (ch! "CONTROL") s k) ⟨a.rows, a.rowShape, a.dtype⟩ with
      | error e => rw [show w.create (dataPath (sectionName false) s k) _ = .error e from hcr]
      | ok w1 =>
        rw [show w.create (dataPath (sectionName false) s k) _ = .ok w1 from hcr, hco]
        simp [makeIx]

theorem create_free {w : WState V} {F : Fld} {ds : Dataset V} (hc : ∀ kv ∈ w.datasets, pathClash kv.1 (fldPath F) = false) :
    ∃ w', w.create (dataPath (sectionName F.1) F.2.1 F.2.2) ds = .ok w' ∧ w'.indexes = w.indexes := by
  unfold WState.create
  dsimp only
  rw [h5path_dataPath]
  have : ¬ (w.datasets.any (fun kv => pathClash kv.1 (fldPath (F.1, F.2.1, F.2.2))) = true) := by
    rw [List.any_eq_true]
    rintro ⟨kv, h1, h2⟩
    rw [hc kv h1] at h2
    simp at h2
  rw [if_neg this]
  exact ⟨_, rfl, rfl⟩

/-- The control data of one source has the same labels for all keys. -/
theorem control_labels {c : DC V} {s k k' : Str} {a a' : LArr V} (hv : FollowsIn c c.trainIds false s k)
    (h : c.getArray s k id = .ok a) (h' : c.getArray s k' id = .ok a') : a'.coords.getD [] = a.coords.getD [] := by
  refine group_labels ?_ h h'
  have hni : s ∉ c.instrumentSources := by
    intro hi
    unfold DC.instrumentSources at hi
    rw [List.mem_dedup, List.mem_flatMap] at hi
    obtain ⟨f, f1, f2⟩ := hi
    have f3 := (List.mem_filter.1 f2).1
    have := (hv f f1 (Or.inr f3)).2.2.1.category
    simp only [Bool.false_eq_true, if_false] at this
    exact this.2 f3
  unfold DC.keyGroup
  rw [if_neg hni, if_neg hni]

/-- The step for a field which fails. -/
theorem addAny_bad {c : DC V} (hw : Writable c) {b : Bool} {s k : Str} (hF : HasField c b s k) {e : PyErr}
    (he : FieldFails c b s k e) {w : WState V} (hp : ∀ kv ∈ w.datasets, pathClash kv.1 (fldPath (b, s, k)) = false)
    (hix : ∀ a, b = false → c.getArray s k id = .ok a → w.indexes.get? s ≠ none → (a.coords.getD []).Nodup) :
    addAny c w (b, s, k) = .error e := by
  have hT : c.trainIds.Nodup := hw.trains.imp (fun h => Nat.ne_of_lt h)
  have hv := hw.valid b s k hF
  obtain ⟨m1, m2⟩ := get_array_mismatch_gaps id hw.noConflict hv (hasField_available hF)
  cases he with
  | mismatch hm =>
    unfold addAny addInstrument addControl
    simp only
    rw [m1 hm]
    split <;> rfl
  | notOneEach t hm hb ht hn =>
    subst hb
    obtain ⟨a, ha, -⟩ := m2 hm
    unfold addAny addControl
    simp only [Bool.false_eq_true, if_false]
    rw [ha]
    simp only
    by_cases hl : a.rows.length = c.trainIds.length
    · rw [if_neg (by simpa using hl)]
      obtain ⟨w', hw', hi'⟩ := create_free (F := (false, s, k)) (ds := ⟨a.rows, a.rowShape, a.dtype⟩) hp
      rw [show w.create (dataPath (ch! "CONTROL") s k) _ = .ok w' from hw']
      simp only
      have hlab := (get_array_follows hw.noConflict hv ha).1
      cases hco : a.coords with
      | none =>
        unfold AllLabelled at hlab
        rw [hco] at hlab
        simp only [Option.getD_none, List.length_nil] at hlab
        rw [← hlab] at hl
        rw [List.length_eq_zero_iff.1 hl.symm] at ht
        simp at ht
      | some tids =>
        simp only
        have hnd : ¬ tids.Nodup := fun h => hn ((one_each hw.noConflict hT hv ha hco).1 ⟨h, hl⟩ t ht)
        unfold makeControlIndex
        rw [hi']
        cases hg : w.indexes.get? s with
        | some ix =>
          have := hix a rfl ha (by rw [hg]; simp)
          rw [hco] at this
          exact absurd this hnd
        | none =>
          simp only
          rw [if_pos]
          intro h
          exact hnd (by rw [← (List.dedup_sublist tids).eq_of_length h]; exact List.nodup_dedup _)
    · rw [if_pos hl]
  | noData hm hd hor =>
    obtain ⟨a, ha, -⟩ := m2 hm
    have hco : a.coords = none := by
      cases hco : a.coords with
      | none => rfl
      | some tids =>
        exfalso
        obtain ⟨-, -, hd'⟩ := (fldData_iff hw.noConflict hv).1 ⟨_, by unfold fldData; simp only; rw [ha]; simp only; rw [hco]; rfl⟩
        exact hd hd'
    have hlab := (get_array_follows hw.noConflict hv ha).1
    unfold AllLabelled at hlab
    rw [hco] at hlab
    simp only [Option.getD_none, List.length_nil] at hlab
    obtain ⟨w', hw', -⟩ := create_free (F := (b, s, k)) (ds := ⟨a.rows, a.rowShape, a.dtype⟩) hp
    cases b with
    | true =>
      unfold addAny addInstrument
      simp only [if_true]
      rw [ha]
      simp only
      rw [show w.create (dataPath (ch! "INSTRUMENT") s k) _ = .ok w' from hw', hco]
    | false =>
      rcases hor with hor | hor
      · simp at hor
      unfold addAny addControl
      simp only [Bool.false_eq_true, if_false]
      rw [ha]
      simp only
      rw [if_neg (by rw [← hlab, hor]; simp), show w.create (dataPath (ch! "CONTROL") s k) _ = .ok w' from hw', hco]

/-- C129. For readable files and names which do not collide in one file, `write` raises an exception if and only if some field can not
be written, and it is the exception for the first such field in the order of writing. -/
theorem write_error_iff {c : DC V} (hw : Writable c) (ha : NamesApart c) {Fs : List (Bool × Str × Str)}
    (ho : WriteOrder c Fs) (e : PyErr) :
    c.write = .error e ↔ ∃ pre b s k post, Fs = pre ++ (b, s, k) :: post ∧ FieldFails c b s k e ∧
      ∀ x ∈ pre, ∀ e', ¬ FieldFails c x.1 x.2.1 x.2.2 e' := by
  have hk : KeysReadable c := by
    obtain ⟨ks, hks, -⟩ := ho
    exact fun s hs => ⟨ks s, hks s hs⟩
  have key : ∀ {pre : List Fld} {b : Bool} {s k : Str} {post : List Fld} {e : PyErr}, Fs = pre ++ (b, s, k) :: post →
      FieldFails c b s k e → (∀ x ∈ pre, ∀ e', ¬ FieldFails c x.1 x.2.1 x.2.2 e') → c.write = .error e := by
    intro pre b s k post e hFs he hpre
    have hin : ∀ F ∈ Fs, HasField c F.1 F.2.1 F.2.2 := fun F h => (writeOrder_field ho F).1 h
    have hF : HasField c b s k := hin (b, s, k) (by rw [hFs]; simp)
    have hpm : ∀ F ∈ pre, F ∈ Fs := fun F h => by rw [hFs]; simp [h]
    have hcol : ∀ F ∈ pre, ∀ F' ∈ pre, ixName F' = ixName F → F'.1 = F.1 :=
      fun F hF F' hF' => ixName_instr hw.named (hin F (hpm F hF)) (hin F' (hpm F' hF'))
    have hpw : Fs.Pairwise (fun F F' => pathClash (fldPath F) (fldPath F') = false) := by
      refine List.Pairwise.imp_of_mem ?_ (writeOrder_nodup ho)
      intro F F' hF hF' hne
      rw [pathClash_false]
      exact ⟨fun h => hne (fldPath_apart hw.named ha (hin F hF) (hin F' hF') h),
        fun h => hne (fldPath_apart hw.named ha (hin F' hF') (hin F hF) h).symm⟩
    rw [hFs, List.pairwise_append] at hpw
    obtain ⟨w, hfold⟩ := addFlds_succeed (T := c.trainIds) hcol (D := fldData c) (fun F hF =>
      (addAny_good hw (hin F (hpm F hF)) (hpre F hF)).1) hpw.1
    have hi := winv_fold hcol hfold
    have hany : foldE (addAny c) WState.new pre = .ok w := by
      rw [foldE_congr (g := addFld c.trainIds (fldData c)) (fun w' F hF =>
        (addAny_good hw (hin F (hpm F hF)) (hpre F hF)).2 w')]
      exact hfold
    have hbad : addAny c w (b, s, k) = .error e := by
      refine addAny_bad hw hF he ?_ ?_
      · intro kv hkv
        rw [hi.data, List.mem_filterMap] at hkv
        obtain ⟨G, hG, hG2⟩ := hkv
        rw [Option.map_eq_some_iff] at hG2
        obtain ⟨y, -, rfl⟩ := hG2
        exact hpw.2.2 G hG (b, s, k) (by simp)
      · rintro a rfl hga hne
        obtain ⟨ix, hix⟩ := Option.ne_none_iff_exists'.1 hne
        obtain ⟨⟨b', s', k'⟩, g1, x', g2, g3, g4⟩ := hi.ixFrom _ _ hix
        have hF' := hin _ (hpm _ g1)
        have hb := ixName_instr hw.named (F := (false, s, k)) hF hF' g3
        simp only at hb hF'
        subst hb
        simp only [ixName, Bool.false_eq_true, if_false] at g3
        subst g3
        simp only [IxOk, Bool.false_eq_true, if_false] at g4
        obtain ⟨a2, h21, h22, -⟩ := fldData_some g2
        have := control_labels (hw.valid false s' k hF) hga h21
        rw [← this, h22]
        exact g4.1
    rw [write_any ho, hFs, foldE_two, hany]
    simp only [foldE, hbad]
  constructor
  · intro hwe
    have hex : ∃ F ∈ Fs, ∃ e', FieldFails c F.1 F.2.1 F.2.2 e' := by
      by_contra hn
      push Not at hn
      obtain ⟨h, hh⟩ := (write_succeeds_iff hw ha hk).2 (fun b s k hF =>
        not_fieldFails (hn (b, s, k) ((writeOrder_field ho _).2 hF)))
      rw [hh] at hwe
      simp at hwe
    classical
    obtain ⟨pre, F, post, h1, h2, h3⟩ : ∃ pre F post, Fs = pre ++ F :: post ∧ (∃ e', FieldFails c F.1 F.2.1 F.2.2 e') ∧
        ∀ x ∈ pre, ∀ e', ¬ FieldFails c x.1 x.2.1 x.2.2 e' := by
      clear key ho
      induction Fs with
      | nil => obtain ⟨F, h, -⟩ := hex; simp at h
      | cons G Fs ih =>
        by_cases hG : ∃ e', FieldFails c G.1 G.2.1 G.2.2 e'
        · exact ⟨[], G, Fs, rfl, hG, by simp⟩
        · obtain ⟨pre, F, post, h1, h2, h3⟩ := ih (by
            obtain ⟨F, h, h'⟩ := hex
            rcases List.mem_cons.1 h with rfl | h
            · exact absurd h' hG
            · exact ⟨F, h, h'⟩)
          refine ⟨G :: pre, F, post, by rw [h1]; rfl, h2, ?_⟩
          intro x hx
          rcases List.mem_cons.1 hx with rfl | hx
          · exact fun e' he' => hG ⟨e', he'⟩
          · exact h3 x hx
    obtain ⟨b, s, k⟩ := F
    obtain ⟨e', he'⟩ := h2
    have := key h1 he' h3
    rw [hwe] at this
    obtain rfl := Except.error.inj this
    exact ⟨pre, b, s, k, post, h1, he', h3⟩
  · rintro ⟨pre, b, s, k, post, h1, h2, h3⟩
    exact key h1 h2 h3

/-- Finishing a file never fails for names which do not collide. -/
theorem finish_succeeds {c : DC V} (hn : WellNamed c) (ha : NamesApart c) {D : Fld → Option (Dataset V × List Nat)}
    {Fs : List Fld} {w : WState V} (hFs : ∀ F ∈ Fs, HasField c F.1 F.2.1 F.2.2)
    (hfold : foldE (addFld c.trainIds D) WState.new Fs = .ok w) : ∃ h, w.finish c.trainIds = .ok h := by
  have hi := winv_fold (fun F hF F' hF' => ixName_instr hn (hFs F hF) (hFs F' hF')) hfold
  have hnames : ∀ x ∈ w.indexes, ∃ F ∈ Fs, ixName F = x.1 := by
    intro x hx
    obtain ⟨F, h1, -, -, h2, -⟩ := hi.ixFrom x.1 x.2 ((Dict.get?_eq_some_iff (indexes_nodup hfold)).2 hx)
    exact ⟨F, h1, h2⟩
  obtain ⟨index, hindex⟩ := writeIndexes_succeed (l := w.indexes) (by
    intro x hx y hy
    obtain ⟨F, h1, h2⟩ := hnames x hx
    rw [← h2]
    exact ix_not_trainId hn ha (hFs F h1) hy) (by
    have hnd := indexes_nodup hfold
    unfold Dict.keys at hnd
    rw [List.Nodup, List.pairwise_map] at hnd
    refine List.Pairwise.imp_of_mem ?_ hnd
    intro x x' hx hx' hne y hy z hz
    obtain ⟨F, h1, h2⟩ := hnames x hx
    obtain ⟨F', h1', h2'⟩ := hnames x' hx'
    rw [← h2, ← h2', pathClash_false]
    rw [← h2, ← h2'] at hne
    exact ⟨fun h => hne (ix_apart hn ha (hFs F h1) (hFs F' h1') hy hz h),
      fun h => hne (ix_apart hn ha (hFs F' h1') (hFs F h1) hz hy h).symm⟩)
  unfold WState.finish
  rw [hindex]
  exact ⟨_, rfl⟩

theorem makeIx_error {T : List Nat} {w : WState V} {F : Fld} {tids : List Nat} {e : PyErr}
    (h : makeIx T w F tids = .error e) : e = .assertion := by
  obtain ⟨b, s, k⟩ := F
  unfold makeIx at h
  cases b with
  | true =>
    obtain ⟨w', hw'⟩ := makeIx_succeeds (T := T) (w := w) (F := (true, s, k)) (tids := tids) (by simp)
    unfold makeIx at hw'
    rw [hw'] at h
    simp at h
  | false =>
    simp only [Bool.false_eq_true, if_false] at h
    unfold makeControlIndex at h
    split at h
    · simp at h
    · split at h
      · exact (Except.error.inj h).symm
      · simp at h

theorem addFlds_error {T : List Nat} {D : Fld → Option (Dataset V × List Nat)} {Fs : List Fld} {e : PyErr}
    (hcol : ∀ F ∈ Fs, ∀ F' ∈ Fs, ixName F' = ixName F → F'.1 = F.1)
    (hp : Fs.Pairwise (fun F F' => pathClash (fldPath F) (fldPath F') = false))
    (h : foldE (addFld T D) WState.new Fs = .error e) : e = .assertion := by
  induction Fs using List.reverseRecOn with
  | nil => simp [foldE] at h
  | append_singleton Fs F ih =>
    rw [List.pairwise_append] at hp
    have hcol' : ∀ G ∈ Fs, ∀ G' ∈ Fs, ixName G' = ixName G → G'.1 = G.1 :=
      fun G hG G' hG' => hcol G (by simp [hG]) G' (by simp [hG'])
    rw [foldE_two] at h
    cases hw : foldE (addFld T D) WState.new Fs with
    | error e' =>
      rw [hw] at h
      obtain rfl := Except.error.inj h
      exact ih hcol' hp.1 hw
    | ok w =>
      rw [hw] at h
      have hi := winv_fold hcol' hw
      simp only [foldE] at h
      cases ha : addFld T D w F with
      | ok w' => rw [ha] at h; simp at h
      | error e' =>
        rw [ha] at h
        obtain rfl := Except.error.inj h
        unfold addFld at ha
        split at ha
        · simp at ha
        next ds tids hD =>
        obtain ⟨w', hw', -⟩ := create_free (F := F) (ds := ds) (w := w) (by
          intro kv hkv
          rw [hi.data, List.mem_filterMap] at hkv
          obtain ⟨G, hG, hG2⟩ := hkv
          rw [Option.map_eq_some_iff] at hG2
          obtain ⟨y, -, rfl⟩ := hG2
          exact hp.2.2 G hG F (by simp))
        rw [hw'] at ha
        exact makeIx_error ha

/-- C129. Where the files agree on types and shapes, the only exception of `write_virtual` is `AssertionError`, and it is raised if and
only if some selected train has several entries of a control field. -/
theorem write_virtual_error_iff {c : DC V} (hw : Writable c) (ha : NamesApart c) (hk : KeysReadable c)
    (hm : ∀ b s k, HasField c b s k → ¬ Mismatch c b s k) (e : PyErr) :
    c.writeVirtual = .error e ↔ e = .assertion ∧ ∃ s k, HasField c false s k ∧ ∃ t ∈ c.trainIds, ∃ g ∈ c.files,
      Holds g s ∧ 1 < (fileEntries g false s k t).length := by
  have hiff := write_virtual_succeeds_iff hw ha hk hm
  have hone : ∀ e, c.writeVirtual = .error e → e = .assertion := by
    intro e he
    have ho : WriteOrder c (c.controlSources.flatMap (fun s => (keysOf c s).map (fun k => (false, s, k))) ++
        c.instrumentSources.flatMap (fun s => (keysOf c s).map (fun k => (true, s, k)))) := by
      refine ⟨keysOf c, fun s hs => ?_, rfl⟩
      obtain ⟨ks, hks⟩ := hk s hs
      rw [hks, keysOf_eq hks]
    have hin := fun F => (writeOrder_field ho F).1
    have hpw := List.Pairwise.imp_of_mem (S := fun F F' => pathClash (fldPath F) (fldPath F') = false) (by
      intro F F' hF hF' hne
      rw [pathClash_false]
      exact ⟨fun h => hne (fldPath_apart hw.named ha (hin F hF) (hin F' hF') h),
        fun h => hne (fldPath_apart hw.named ha (hin F' hF') (hin F hF) h).symm⟩) (writeOrder_nodup ho)
    have hcol := fun F hF F' hF' => ixName_instr hw.named (hin F hF) (hin F' hF')
    have hmem : ∀ {b : Bool} {s : Str}, (if b then s ∈ c.instrumentSources else s ∈ c.controlSources) → ∀ k ∈ keysOf c s,
        HasField c b s k := by
      intro b s hs k hk'
      obtain ⟨ks, hks⟩ := hk s (by unfold DC.allSources; cases b <;> simp_all)
      rw [keysOf_eq hks] at hk'
      exact ⟨hs, ks, hks, hk'⟩
    have eC := writeSources_eq (c := c) (b := false) (add := fun w s k => dropPath (vAddControl c w s k)) (T := c.trainIds)
      (D := fldVirtual c) (l := c.controlSources) (fun s hs => hk s (by unfold DC.allSources; simp [hs])) (by
        intro w s k hs hk'
        have hF := hmem (b := false) (by simpa using hs) k hk'
        exact vDrop_control (fldVirtual_labels hw (F := (false, s, k)) hF (hm _ _ _ hF)).1)
    have eI := writeSources_eq (c := c) (b := true) (add := fun w s k => dropPath (vAddInstrument c w s k)) (T := c.trainIds)
      (D := fldVirtual c) (l := c.instrumentSources) (fun s hs => hk s (by unfold DC.allSources; simp [hs])) (by
        intro w s k hs hk'
        have hF := hmem (b := true) (by simpa using hs) k hk'
        exact vDrop_instrument (fldVirtual_labels hw (F := (true, s, k)) hF (hm _ _ _ hF)).1)
    unfold DC.writeVirtual writeWith at he
    rw [eC] at he
    refine addFlds_error (T := c.trainIds) (D := fldVirtual c) hcol hpw ?_
    rw [foldE_two]
    cases h1 : foldE (addFld c.trainIds (fldVirtual c)) WState.new
        (c.controlSources.flatMap (fun s => (keysOf c s).map (fun k => (false, s, k)))) with
    | error e' =>
      rw [h1] at he
      obtain rfl := Except.error.inj he
      rfl
    | ok w =>
      rw [h1] at he
      simp only at he ⊢
      rw [eI] at he
      cases h2 : foldE (addFld c.trainIds (fldVirtual c)) w
          (c.instrumentSources.flatMap (fun s => (keysOf c s).map (fun k => (true, s, k)))) with
      | error e' =>
        rw [h2] at he
        obtain rfl := Except.error.inj he
        rfl
      | ok w' =>
        exfalso
        rw [h2] at he
        obtain ⟨h, hh⟩ := finish_succeeds hw.named ha (D := fldVirtual c) hin (foldE_append.2 ⟨w, h1, h2⟩)
        simp only at he
        rw [hh] at he
        simp at he
  have hneg : (∃ s k, HasField c false s k ∧ ∃ t ∈ c.trainIds, ∃ g ∈ c.files, Holds g s ∧
      1 < (fileEntries g false s k t).length) ↔ ¬ ∃ h, c.writeVirtual = .ok h := by
    rw [hiff]
    unfold AtMostOneEntry
    push Not
    rfl
  constructor
  · intro he
    exact ⟨hone e he, hneg.2 (by rintro ⟨h, hh⟩; rw [hh] at he; simp at he)⟩
  · rintro ⟨rfl, hex⟩
    have := hneg.1 hex
    cases hv : c.writeVirtual with
    | ok h => exact absurd ⟨h, hv⟩ this
    | error e' => rw [hone e' hv]

/-- `exWrite` with other selected trains. -/
def exWriteT (T : List Nat) : DC Nat := { exWrite with trainIds := T }

theorem exWriteT_hyps {T : List Nat} (h1 : T.Pairwise (· < ·)) (h2 : 0 ∉ T) :
    Writable (exWriteT T) ∧ NamesApart (exWriteT T) ∧
    WriteOrder (exWriteT T) [(false, ch! "C", ch! "x.value"), (true, ch! "D:o", ch! "data.y")] := by
  have hw := exWrite_writable
  refine ⟨⟨⟨hw.noConflict, h1, h2, ⟨hw.named.control, hw.named.instrument, hw.named.keys, hw.named.apart⟩,
    fun b s k hF => validIn_follows (c := exWriteT T) (exWrite_valid hF) T⟩, ?_⟩,
    ⟨exWrite_apart.keys, exWrite_apart.trainId, exWrite_apart.index⟩, ?_⟩
  · intro b s k hF
    refine inOrder_of_ranges b k ?_
    have hs : s ∈ exWrite.allSources := (hasField_available hF).1
    have e : exWrite.allSources = [ch! "C", ch! "D:o"] := by decide
    rw [e] at hs
    intro f hf g hg hh1 hh2 hne
    rcases List.mem_cons.1 hs with rfl | hs
    · have : ∀ f ∈ exWrite.files, ∀ g ∈ exWrite.files, (ch! "C" ∈ f.controlSources ∨ ch! "C" ∈ f.instrumentSources) →
          (ch! "C" ∈ g.controlSources ∨ ch! "C" ∈ g.instrumentSources) → f ≠ g →
          (∀ t ∈ f.trainIds, ∀ u ∈ g.trainIds, t < u) ∨ (∀ t ∈ f.trainIds, ∀ u ∈ g.trainIds, u < t) := by decide
      exact this f hf g hg hh1 hh2 hne
    · obtain rfl := List.mem_singleton.1 hs
      have : ∀ f ∈ exWrite.files, ∀ g ∈ exWrite.files, (ch! "D:o" ∈ f.controlSources ∨ ch! "D:o" ∈ f.instrumentSources) →
          (ch! "D:o" ∈ g.controlSources ∨ ch! "D:o" ∈ g.instrumentSources) → f ≠ g →
          (∀ t ∈ f.trainIds, ∀ u ∈ g.trainIds, t < u) ∨ (∀ t ∈ f.trainIds, ∀ u ∈ g.trainIds, u < t) := by decide
      exact this f hf g hg hh1 hh2 hne
  · refine ⟨fun s => if s = ch! "C" then [ch! "x.value"] else [ch! "data.y"], ?_, ?_⟩
    case refine_2 =>
      rw [show (exWriteT T).controlSources = exWrite.controlSources from rfl,
        show (exWriteT T).instrumentSources = exWrite.instrumentSources from rfl]
      decide
    have e : exWrite.allSources = [ch! "C", ch! "D:o"] := by decide
    intro s hs
    rw [show (exWriteT T).allSources = exWrite.allSources from rfl, e] at hs
    rcases List.mem_cons.1 hs with rfl | hs
    · exact (by decide : exWrite.keysForSource (ch! "C") = .ok [ch! "x.value"])
    · obtain rfl := List.mem_singleton.1 hs
      exact (by decide : exWrite.keysForSource (ch! "D:o") = .ok [ch! "data.y"])

/-- Train 4 has control data but no instrument data, and train 5 no data at all. -/
example : (exWriteT [4]).write = .error .key ∧ (exWriteT [1, 5]).write = .error .assertion ∧
    FieldFails (exWriteT [4]) true (ch! "D:o") (ch! "data.y") .key ∧
    FieldFails (exWriteT [1, 5]) false (ch! "C") (ch! "x.value") .assertion := by
  refine ⟨by decide, by decide, ?_, ?_⟩
  · obtain ⟨h1, h2, h3⟩ := exWriteT_hyps (T := [4]) (by decide) (by decide)
    obtain ⟨pre, b, s, k, post, e, hf, -⟩ := (write_error_iff h1 h2 h3 .key).1 (by decide)
    match pre, e with
    | [], e =>
      cases e
      cases hf with
      | noData _ _ h => simp [exWriteT] at h
    | [_], e => cases e; exact hf
    | _ :: _ :: _, e => simp at e
  · obtain ⟨h1, h2, h3⟩ := exWriteT_hyps (T := [1, 5]) (by decide) (by decide)
    obtain ⟨pre, b, s, k, post, e, hf, -⟩ := (write_error_iff h1 h2 h3 .assertion).1 (by decide)
    match pre, e with
    | [], e => cases e; exact hf
    | [_], e =>
      cases e
      cases hf with
      | notOneEach _ _ h => simp at h
    | _ :: _ :: _, e => simp at e

/-- A control source with two entries in its first train. -/
def exTwo : DC Nat := ⟨[exCtrl (ch! "c") [1, 2] [0, 2] [2, 1] [31, 32, 33]], [(ch! "C", none)], [1, 2], true⟩

theorem exTwo_field {b : Bool} {s k : Str} (h : HasField exTwo b s k) : b = false ∧ s = ch! "C" ∧ k = ch! "x.value" := by
  obtain ⟨h1, ks, h2, h3⟩ := h
  cases b with
  | true =>
    have e : exTwo.instrumentSources = [] := by decide
    rw [if_pos rfl, e] at h1
    simp at h1
  | false =>
    have e : exTwo.controlSources = [ch! "C"] := by decide
    rw [if_neg (by decide), e, List.mem_singleton] at h1
    subst h1
    have : exTwo.keysForSource (ch! "C") = .ok [ch! "x.value"] := by decide
    rw [this] at h2; obtain rfl := Except.ok.inj h2
    exact ⟨rfl, rfl, List.mem_singleton.1 h3⟩

/-- `exTwo` meets the conditions of `write_virtual_error_iff`, and the exception is raised. -/
example : Writable exTwo ∧ NamesApart exTwo ∧ KeysReadable exTwo ∧ (∀ b s k, HasField exTwo b s k → ¬ Mismatch exTwo b s k) ∧
    exTwo.writeVirtual = .error .assertion := by
  have e : exTwo.allSources = [ch! "C"] := by decide
  have ei : exTwo.instrumentSources = [] := by decide
  refine ⟨⟨⟨hasConflicts_false.1 (by decide), by decide, by decide, ⟨by decide, ?_, ?_, ?_⟩, ?_⟩,
    fun b s k hF => inOrder_of_ranges b k ?_⟩, ⟨?_, ?_, ?_⟩, ?_, ?_, by decide⟩
  · rw [ei]; simp
  · intro b s k h
    obtain ⟨-, -, rfl⟩ := exTwo_field h
    exact ⟨[ch! "x", ch! "value"], by decide, by decide, by decide⟩
  · intro b s k s' k' h h' _
    rw [(exTwo_field h).2.1, (exTwo_field h').2.1]
  · intro b s k h
    obtain ⟨rfl, rfl, rfl⟩ := exTwo_field h
    refine validIn_follows (fun f hf _ => ?_) _
    obtain rfl := List.mem_singleton.1 hf
    refine ⟨by decide, by decide, by decide, [0, 2], [2, 1], ⟨[31, 32, 33], [], 0⟩, by decide, by decide, by decide, by decide, ?_, ?_⟩
    · exact contiguous_cons rfl (contiguous_one _ _)
    · exact inBounds_cons (by decide) (inBounds_cons (by decide) (inBounds_nil _))
  · intro f hf g hg _ _ hne
    rw [List.mem_singleton.1 hf, List.mem_singleton.1 hg] at hne
    exact absurd rfl hne
  · intro b s parts parts' h h' hp hp' hpre
    have h0 := (exTwo_field h).2.2
    have h0' := (exTwo_field h').2.2
    have h1 : parts ≠ [] := by rintro rfl; simp [joinCh] at h0
    have h2 : parts' ≠ [] := by rintro rfl; simp [joinCh] at h0'
    rw [← splitCh_joinCh h1 (fun p h => (hp p h).2.2), h0, ← h0', splitCh_joinCh h2 (fun p h => (hp' p h).2.2)]
  · rw [e]; decide
  · rw [ei]; simp
  · intro s hs
    rw [e, List.mem_singleton] at hs
    subst hs
    exact ⟨[ch! "x.value"], by decide⟩
  · rintro b s k - ⟨f, hf, g, hg, -, -, d, d', h1, h2, h3⟩
    rw [List.mem_singleton.1 hf] at h1
    rw [List.mem_singleton.1 hg, h1] at h2
    obtain rfl := Except.ok.inj h2
    rcases h3 with h3 | h3 <;> exact h3 rfl

end KD
