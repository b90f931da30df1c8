/-
C63: which pulse IDs `collect_pulse_ids` accepts, without a bound on the IDs.
-/
import Verif.Props.Cxi

namespace KD

open Spec

variable {V : Type}

/-- Which rows of pulse IDs are accepted, with the ID `p`. -/
theorem row_exact {row : List Nat} (hne : row ≠ []) (p : Nat) :
    (minOf row ≠ noPulseId ∧ minOf row = (row.map (fun p => if p = noPulseId then 0 else p)).foldl max 0 ∧ p = minOf row) ↔
      p ≠ noPulseId ∧ p ∈ row ∧ (∀ x ∈ row, x = p ∨ x = noPulseId) ∧ (noPulseId < p → noPulseId ∉ row) := by
  obtain ⟨h1, h2⟩ := minOf_spec hne
  obtain ⟨-, h3, h4⟩ := cxi_foldl_max (row.map (fun p => if p = noPulseId then 0 else p)) 0
  constructor
  · rintro ⟨a, b, rfl⟩
    refine ⟨a, h1, ?_, ?_⟩
    · intro x hx
      by_cases hxn : x = noPulseId
      · exact .inr hxn
      · have := h3 x (List.mem_map.2 ⟨x, hx, by rw [if_neg hxn]⟩)
        have := h2 x hx
        omega
    · intro hlt hmem
      have := h2 _ hmem
      omega
  · rintro ⟨hp, hmem, hall, hhigh⟩
    have hmin : p = minOf row := by
      have := h2 p hmem
      rcases hall _ h1 with h | h
      · exact h.symm
      · exact absurd (h ▸ h1) (hhigh (by omega))
    refine ⟨hmin ▸ hp, ?_, hmin⟩
    rw [← hmin]
    apply le_antisymm
    · exact h3 _ (List.mem_map.2 ⟨_, hmem, by rw [if_neg hp]⟩)
    · rcases h4 with h | h
      · rw [h]; exact Nat.zero_le _
      · obtain ⟨y, hy, he⟩ := List.mem_map.1 h
        rw [← he]
        split
        · exact Nat.zero_le _
        · rename_i hyn
          rcases hall y hy with h | h
          · omega
          · exact absurd h hyn

/-- The pulse IDs of one frame are accepted, with the ID `p`: it is the ID in some module, all modules with the frame have it or
9999, and if it is above 9999, all 16 modules have it. 9999 itself is never accepted. -/
def AcceptedId (c : DC V) (d : Det V) (num : V → Nat) (t k p : Nat) : Prop :=
  p ≠ 9999 ∧
  (∃ source col v, (source, col) ∈ d.sourceToModno ∧ FrameAt c source (ch! "image.pulseId") t k v ∧ num v = p) ∧
  (∀ source col v, (source, col) ∈ d.sourceToModno → FrameAt c source (ch! "image.pulseId") t k v → num v = p ∨ num v = 9999) ∧
  (9999 < p → ∀ col < 16, ∃ source v, (source, col) ∈ d.sourceToModno ∧ FrameAt c source (ch! "image.pulseId") t k v ∧ num v = p)

/-- C63. Which pulse IDs are accepted, for all IDs: see `AcceptedId`. Otherwise an exception is raised. -/
theorem cxi_pulse_ids_exact {kind : Option Str} {c : DC V} {name : Option Str} {modules : Option (List Nat)} {minModules : Int}
    {d : Det V} (h : Det.init kind c name modules minModules = .ok d) (hc : NoConflict c.files) (hp : PlainSources d)
    (hv : ∀ x ∈ d.sourceToModno, HasImages c x.1) (hm : ModulesInRange d) (num : V → Nat)
    (hvk : ∀ x ∈ d.sourceToModno, FollowsIn c d.data.trainIds true x.1 (ch! "image.pulseId")) :
    (∀ ids, d.collectPulseIds num = .ok ids ↔
      ids.length = d.data.trainIds.length * d.framesPerTrain ∧
      ∀ r t k, RowOf d.data.trainIds d.framesPerTrain r t k → ∃ p, ids[r]? = some p ∧ AcceptedId c d num t k p) ∧
    ∀ e, d.collectPulseIds num = .error e → e = .generic := by
  have hgood := init_good h hc hp hv
  have hF := hgood.frames
  obtain ⟨-, -, -, h3, h4, h5⟩ := init_data h hp
  have hnd := (init_ok h).2.2.2.1
  obtain ⟨g, k1, k2, k3, k4, k5⟩ := mapSources_spec hgood (key := ch! "image.pulseId") (b := true)
    (conv := fun ds => .ok (ds.rows.map num)) (φ := num) d.sourceToModno ⟨d.nframes, nModules, fun _ _ => noPulseId⟩
    (fun x hx => ⟨fun f hf hh => hvk x hx f (h4 f hf) hh, init_selection h hp hx,
      init_uniform h hc hp hv hx rfl (followsIn_indexed (hvk x hx)), hm x hx, fun _ _ _ _ _ => rfl⟩) hnd
  simp only at k2 k3 k5
  have hT : ∀ {r t k}, RowOf d.data.trainIds d.framesPerTrain r t k → t ∈ d.data.trainIds := by
    rintro r t k ⟨i, hi, -⟩; exact List.mem_of_getElem? hi
  have hrows : ∀ r, r < d.nframes ↔ ∃ t k, RowOf d.data.trainIds d.framesPerTrain r t k := by
    intro r
    constructor
    · intro hr
      have : r / d.framesPerTrain < d.data.trainIds.length := (Nat.div_lt_iff_lt_mul hF).2 hr
      exact ⟨_, _, rowOf_of_div hF (List.getElem?_eq_getElem this)⟩
    · rintro ⟨t, k, hr⟩
      have := (List.getElem?_eq_some_iff.1 (rowOf_div hr).1).1
      exact (Nat.div_lt_iff_lt_mul hF).1 this
  -- the cells
  have hcell : ∀ r t k, RowOf d.data.trainIds d.framesPerTrain r t k → ∀ source col v, (source, col) ∈ d.sourceToModno →
      FrameAt c source (ch! "image.pulseId") t k v → g.cell r col = num v := by
    intro r t k hr source col v hx hf
    exact k4 _ hx r t k v hr ((frameAt_data h hp hx (hT hr)).2 hf)
  have hnone : ∀ r t k, RowOf d.data.trainIds d.framesPerTrain r t k → ∀ col,
      (¬ ∃ source v, (source, col) ∈ d.sourceToModno ∧ FrameAt c source (ch! "image.pulseId") t k v) →
      g.cell r col = noPulseId := by
    intro r t k hr col hno
    rw [k5 r col]
    rintro ⟨source, col'⟩ hx rfl t' k' v hr' hf
    have e1 := rowOf_div hr
    have e2 := rowOf_div hr'
    rw [e1.1] at e2
    obtain ⟨e3, e4⟩ := e2
    obtain rfl := Option.some.inj e3
    rw [e4, ← e1.2] at hf
    exact hno ⟨source, v, hx, (frameAt_data h hp hx (hT hr)).1 hf⟩
  have hmem : ∀ r x, x ∈ g.row r ↔ ∃ col < 16, g.cell r col = x := by
    intro r x
    unfold Grid.row
    rw [List.mem_map]
    simp only [List.mem_range, k3, nModules]
  have hrne : ∀ r, g.row r ≠ [] := by
    intro r hnil
    have : (g.row r).length = 16 := by unfold Grid.row; rw [List.length_map, List.length_range, k3]; rfl
    rw [hnil] at this
    simp at this
  have hmain : ∀ (r t k : Nat), RowOf d.data.trainIds d.framesPerTrain r t k → ∀ p,
      (minOf (g.row r) ≠ noPulseId ∧ minOf (g.row r) = ((g.row r).map (fun p => if p = noPulseId then 0 else p)).foldl max 0 ∧
        p = minOf (g.row r)) ↔ AcceptedId c d num t k p := by
    intro r t k hr p
    rw [row_exact (hrne r) p]
    unfold AcceptedId
    show (p ≠ 9999 ∧ _ ∧ (∀ x ∈ g.row r, x = p ∨ x = 9999) ∧ (9999 < p → 9999 ∉ g.row r)) ↔ _
    constructor
    · rintro ⟨hpn, hpm, hall, hhigh⟩
      refine ⟨hpn, ?_, ?_, ?_⟩
      · obtain ⟨col, hcol, he⟩ := (hmem r p).1 hpm
        by_cases hex : ∃ source v, (source, col) ∈ d.sourceToModno ∧ FrameAt c source (ch! "image.pulseId") t k v
        · obtain ⟨source, v, hx, hf⟩ := hex
          exact ⟨source, col, v, hx, hf, by rw [← hcell r t k hr source col v hx hf, he]⟩
        · exact absurd (he.symm.trans (hnone r t k hr col hex)) hpn
      · intro source col v hx hf
        exact hall _ ((hmem r _).2 ⟨col, hm _ hx, hcell r t k hr source col v hx hf⟩)
      · intro hlt col hcol
        by_cases hex : ∃ source v, (source, col) ∈ d.sourceToModno ∧ FrameAt c source (ch! "image.pulseId") t k v
        · obtain ⟨source, v, hx, hf⟩ := hex
          refine ⟨source, v, hx, hf, ?_⟩
          have hin := (hmem r (num v)).2 ⟨col, hcol, hcell r t k hr source col v hx hf⟩
          rcases hall _ hin with he | he
          · exact he
          · exact absurd (he ▸ hin) (hhigh hlt)
        · exact absurd ((hmem r 9999).2 ⟨col, hcol, hnone r t k hr col hex⟩) (hhigh hlt)
    · rintro ⟨hpn, ⟨source, col, v, hx, hf, he⟩, hall, hhigh⟩
      refine ⟨hpn, (hmem r p).2 ⟨col, hm _ hx, (hcell r t k hr source col v hx hf).trans he⟩, ?_, ?_⟩
      · intro x hxr
        obtain ⟨col', hcol', rfl⟩ := (hmem r x).1 hxr
        by_cases hex : ∃ source v, (source, col') ∈ d.sourceToModno ∧ FrameAt c source (ch! "image.pulseId") t k v
        · obtain ⟨source', v', hx', hf'⟩ := hex
          rw [hcell r t k hr source' col' v' hx' hf']
          exact hall source' col' v' hx' hf'
        · exact .inr (hnone r t k hr col' hex)
      · intro hlt hin
        obtain ⟨col', hcol', he'⟩ := (hmem r _).1 hin
        obtain ⟨source', v', hx', hf', he''⟩ := hhigh hlt col' hcol'
        rw [hcell r t k hr source' col' v' hx' hf', he''] at he'
        exact hpn he'
  unfold Det.collectPulseIds
  rw [k1]
  simp only [k2]
  constructor
  · intro ids
    constructor
    · intro hok
      split at hok
      · simp at hok
      · rename_i hany
        split at hok
        · simp at hok
        · rename_i heq
          obtain rfl := Except.ok.inj hok
          refine ⟨by simp [Det.nframes], ?_⟩
          intro r t k hr
          have hlt := (hrows r).2 ⟨t, k, hr⟩
          have hn : minOf (g.row r) ≠ noPulseId := by
            intro he
            apply hany
            rw [List.any_eq_true]
            exact ⟨minOf (g.row r), List.mem_map.2 ⟨r, List.mem_range.2 hlt, rfl⟩, by simp [he]⟩
          have he : minOf (g.row r) = ((g.row r).map (fun p => if p = noPulseId then 0 else p)).foldl max 0 := by
            have := congrArg (fun l => l[r]?) (not_not.1 heq)
            simpa [hlt] using this
          exact ⟨minOf (g.row r), by simp [hlt], (hmain r t k hr _).1 ⟨hn, he, rfl⟩⟩
    · rintro ⟨hlen, hall⟩
      have hcell : ∀ r, r < d.nframes → ∃ p, ids[r]? = some p ∧ minOf (g.row r) ≠ noPulseId ∧
          minOf (g.row r) = ((g.row r).map (fun p => if p = noPulseId then 0 else p)).foldl max 0 ∧ p = minOf (g.row r) := by
        intro r hr
        obtain ⟨t, k, hr'⟩ := (hrows r).1 hr
        obtain ⟨p, hp1, hp2⟩ := hall r t k hr'
        exact ⟨p, hp1, (hmain r t k hr' p).2 hp2⟩
      rw [if_neg, if_neg]
      · congr 1
        apply List.ext_getElem?
        intro r
        by_cases hr : r < d.nframes
        · obtain ⟨p, e1, -, -, e2⟩ := hcell r hr
          rw [e1, e2]; simp [hr]
        · rw [List.getElem?_eq_none (by simp; omega), List.getElem?_eq_none (by rw [hlen]; exact Nat.le_of_not_lt hr)]
      · rw [not_not]
        apply List.map_congr_left
        intro r hr
        obtain ⟨p, -, -, e, -⟩ := hcell r (List.mem_range.1 hr)
        exact e
      · intro hany
        rw [List.any_eq_true] at hany
        obtain ⟨x, hx, he⟩ := hany
        obtain ⟨r, hr, rfl⟩ := List.mem_map.1 hx
        obtain ⟨p, -, e, -⟩ := hcell r (List.mem_range.1 hr)
        exact e (by simpa using he)
  · intro e he
    split at he
    · exact (Except.error.inj he).symm
    · split at he
      · exact (Except.error.inj he).symm
      · simp at he

/-- The theorem applies to the example of Props/DetArray.lean: the last frame of train 12 has the ID 7, from module 0. -/
example : ∃ p, [5, 7, 5, 7, 5, 7][5]? = some p ∧ AcceptedId exDetData exDet id 12 1 p := by
  have h := ((cxi_pulse_ids_exact exDet_init exDet_hasImages.1 exDet_valid.1 exDet_hasImages.2 exDet_cxi.1 id
    fun x hx => followsIn_of_valid (exDet_cxi.2.1 x hx)).1
    [5, 7, 5, 7, 5, 7]).1 (by decide)
  exact h.2 5 12 1 ⟨2, rfl, by decide, by decide⟩

end KD
