/-
C130: the order in which files are given does not matter.
-/
import Verif.Spec.FileOrder
import Verif.Lemmas.FileOrder
import Verif.Props.Trains
import Verif.Props.Series
import Verif.Props.Iterate
import Verif.Props.SelectData
import Verif.Props.Writer

namespace KD

open KD.Spec

variable {V : Type}

/-! ### The same contents -/

theorem sameChoice_symm {a b} (h : SameChoice a b) : SameChoice b a := by
  cases h with
  | absent => exact .absent
  | allKeys => exact .allKeys
  | keys h => exact .keys (fun k => (h k).symm)

theorem sameChoice_refl (a) : SameChoice a a := by
  match a with
  | none => exact .absent
  | some none => exact .allKeys
  | some (some l) => exact .keys (fun _ => Iff.rfl)

theorem sameChoice_isSome {a b} (h : SameChoice a b) : a.isSome ↔ b.isSome := by cases h <;> simp

theorem sameSelection_keys {a b : Selection} (h : SameSelection a b) (s : Str) : s ∈ a.keys ↔ s ∈ b.keys := by
  rw [Dict.mem_keys, Dict.mem_keys]; exact sameChoice_isSome (h s)

theorem sameContents_symm {c d : DC V} (h : SameContents c d) : SameContents d c :=
  ⟨h.files.symm, h.trains.symm, fun s => sameChoice_symm (h.selection s)⟩

theorem compatible_symm {f g : FileAccess V} (h : Compatible f g) : Compatible g f :=
  fun s t hg hf ht ht' => h s t hf hg ht' ht

theorem noConflict_perm {l l' : List (FileAccess V)} (h : l.Perm l') : NoConflict l ↔ NoConflict l' :=
  h.pairwise_iff (fun {_ _} => compatible_symm)

theorem sameKeys_perm {l l' : List (FileAccess V)} (h : l.Perm l') (hs : SameKeys l) : SameKeys l' :=
  fun f hf g hg => hs f (h.mem_iff.2 hf) g (h.mem_iff.2 hg)

theorem listsKeys_perm {l l' : List (FileAccess V)} (h : l.Perm l') (hs : ListsKeys l) : ListsKeys l' :=
  fun f hf => hs f (h.mem_iff.2 hf)

theorem same_controlSources {c d : DC V} (h : SameContents c d) (s : Str) : s ∈ c.controlSources ↔ s ∈ d.controlSources := by
  rw [mem_controlSources, mem_controlSources, sameSelection_keys h.selection]
  simp only [h.files.mem_iff]

theorem same_instrumentSources {c d : DC V} (h : SameContents c d) (s : Str) :
    s ∈ c.instrumentSources ↔ s ∈ d.instrumentSources := by
  rw [mem_instrumentSources, mem_instrumentSources, sameSelection_keys h.selection]
  simp only [h.files.mem_iff]

theorem same_allSources {c d : DC V} (h : SameContents c d) (s : Str) : s ∈ c.allSources ↔ s ∈ d.allSources := by
  simp only [DC.allSources, List.mem_dedup, List.mem_append, same_controlSources h, same_instrumentSources h]

theorem same_sourceIndex {c d : DC V} (h : SameContents c d) (s : Str) : (c.sourceIndex s).Perm (d.sourceIndex s) :=
  h.files.filter _

/-- The first file with a source, in two orders. -/
theorem same_head {c d : DC V} (h : SameContents c d) {s : Str} {f : FileAccess V} (hf : (c.sourceIndex s).head? = some f) :
    f ∈ c.files ∧ Holds f s ∧ ∃ g, (d.sourceIndex s).head? = some g ∧ g ∈ c.files ∧ Holds g s := by
  have hp := same_sourceIndex h s
  have hm := mem_sourceIndex.1 (List.mem_of_mem_head? hf)
  refine ⟨hm.1, hm.2, ?_⟩
  cases hd : d.sourceIndex s with
  | nil => rw [hd] at hp; rw [hp.eq_nil] at hf; simp at hf
  | cons g l =>
    have hg : g ∈ c.sourceIndex s := hp.mem_iff.2 (by simp [hd])
    exact ⟨g, rfl, mem_sourceIndex.1 hg⟩

/-- C130. `keys_for_source` gives the same keys, in whatever order the files are. -/
theorem same_keys {c d : DC V} (h : SameContents c d) (hk : SameKeys c.files) (hl : ListsKeys c.files) {s : Str} {ks : List Str}
    (hc : c.keysForSource s = .ok ks) : ∃ ks', d.keysForSource s = .ok ks' ∧ ∀ k, k ∈ ks ↔ k ∈ ks' := by
  unfold DC.keysForSource at hc ⊢
  have hs := h.selection s
  cases hcs : c.selection.get? s with
  | none => simp [hcs] at hc
  | some v =>
    rw [hcs] at hc hs
    cases v with
    | some l =>
      obtain rfl := Except.ok.inj hc
      cases hds : d.selection.get? s with
      | none => rw [hds] at hs; cases hs
      | some w =>
        rw [hds] at hs
        cases hs with
        | keys hkk => exact ⟨_, rfl, fun k => by simp [hkk k]⟩
    | none =>
      cases hds : d.selection.get? s with
      | none => rw [hds] at hs; cases hs
      | some w =>
        rw [hds] at hs
        cases hs
        cases hh : (c.sourceIndex s).head? with
        | none => simp [hh] at hc
        | some f =>
          rw [hh] at hc
          obtain ⟨hfc, hfs, g, hg, hgc, hgs⟩ := same_head h hh
          obtain ⟨ks', hks'⟩ := hl g hgc s hgs
          refine ⟨ks', by simp only [hg]; exact hks', fun k => ?_⟩
          have := hk f hfc g hgc s hfs hgs k
          unfold FileHasKey at this
          constructor
          · intro hm
            obtain ⟨ks2, e1, e2⟩ := this.1 ⟨ks, hc, hm⟩
            rw [hks'] at e1; obtain rfl := Except.ok.inj e1; exact e2
          · intro hm
            obtain ⟨ks2, e1, e2⟩ := this.2 ⟨ks', hks', hm⟩
            have e1' : f.getKeys s = .ok ks := hc
            rw [e1'] at e1; obtain rfl := Except.ok.inj e1; exact e2

theorem available_imp {c d : DC V} (h : SameContents c d) (hk : SameKeys c.files) {s k : Str} (ha : Available c s k) :
    Available d s k := by
  obtain ⟨hs, ks, h1, h2⟩ := ha
  refine ⟨(same_allSources h s).1 hs, ?_⟩
  unfold DC.keysForSource at h1 ⊢
  have hsel := h.selection s
  cases hcs : c.selection.get? s with
  | none => simp [hcs] at h1
  | some v =>
    rw [hcs] at h1 hsel
    cases hds : d.selection.get? s with
    | none => rw [hds] at hsel; cases hsel
    | some w =>
      rw [hds] at hsel
      cases hsel with
      | keys hkk => obtain rfl := Except.ok.inj h1; exact ⟨_, rfl, by simpa [hkk k] using h2⟩
      | allKeys =>
        cases hh : (c.sourceIndex s).head? with
        | none => simp [hh] at h1
        | some f =>
          rw [hh] at h1
          obtain ⟨hfc, hfs, g, hg, hgc, hgs⟩ := same_head h hh
          obtain ⟨ks2, e1, e2⟩ := (hk f hfc g hgc s hfs hgs k).1 ⟨ks, h1, h2⟩
          exact ⟨ks2, by simp only [hg]; exact e1, e2⟩

/-- C130. The same sources, of the same kinds, and the same keys are available. -/
theorem same_available {c d : DC V} (h : SameContents c d) (hk : SameKeys c.files) :
    (∀ s, s ∈ c.controlSources ↔ s ∈ d.controlSources) ∧ (∀ s, s ∈ c.instrumentSources ↔ s ∈ d.instrumentSources) ∧
      ∀ s k, Available c s k ↔ Available d s k :=
  ⟨same_controlSources h, same_instrumentSources h, fun _ _ =>
    ⟨available_imp h hk, available_imp (sameContents_symm h) (sameKeys_perm h.files hk)⟩⟩

theorem checkField_iff {c : DC V} {s k : Str} : c.checkField s k = .ok () ↔ Available c s k := by
  unfold DC.checkField Available
  by_cases hs : s ∈ c.allSources
  · rw [if_neg (by simpa using hs)]
    cases hk : c.keysForSource s with
    | error e => simp
    | ok ks => by_cases hm : k ∈ ks <;> simp [hs, hm]
  · simp [hs]

theorem same_checkField {c d : DC V} (h : SameContents c d) (hk : SameKeys c.files) {s k : Str}
    (hc : c.checkField s k = .ok ()) : d.checkField s k = .ok () :=
  checkField_iff.2 (available_imp h hk (checkField_iff.1 hc))

/-! ### Opening -/

theorem same_defaultSelection {fs fs' : List (FileAccess V)} (hp : fs.Perm fs') :
    SameSelection (defaultSelection fs) (defaultSelection fs') := by
  intro s
  have h1 := defaultSelection_get? fs s
  have h2 := defaultSelection_get? fs' s
  by_cases hh : ∃ f ∈ fs, Holds f s
  · have hh' : ∃ f ∈ fs', Holds f s := by simpa only [hp.mem_iff] using hh
    rw [h1.1 hh, h2.1 hh']; exact .allKeys
  · have hh' : ¬ ∃ f ∈ fs', Holds f s := by simpa only [hp.mem_iff] using hh
    rw [Dict.get?_none_iff.2 (fun h => hh (h1.2.1 h)), Dict.get?_none_iff.2 (fun h => hh' (h2.2.1 h))]
    exact .absent

/-- C130. Opening the same files (some of which may fail to open) in another order fails in the same way, or gives a collection with the
same contents. -/
theorem open_order {fs fs' : List (R (FileAccess V))} (hp : fs.Perm fs') :
    (∀ e, DC.fromPaths fs = .error e ↔ DC.fromPaths fs' = .error e) ∧
      ∀ c d, DC.fromPaths fs = .ok c → DC.fromPaths fs' = .ok d → SameContents c d := by
  have hf : (fs.filterMap Except.toOption).Perm (fs'.filterMap Except.toOption) := hp.filterMap _
  unfold DC.fromPaths
  dsimp only
  generalize fs.filterMap Except.toOption = l at hf
  generalize fs'.filterMap Except.toOption = l' at hf
  have he : l.isEmpty = l'.isEmpty := by
    cases l <;> cases l' <;> simp_all
  rw [he]
  by_cases hl : l'.isEmpty = true
  · rw [if_pos hl, if_pos hl]; exact ⟨fun _ => Iff.rfl, fun c d h => by simp at h⟩
  · rw [if_neg hl, if_neg hl]
    refine ⟨fun e => by rw [make_error_iff, make_error_iff, noConflict_perm hf], fun c d h1 h2 => ?_⟩
    rw [make_ok_iff] at h1 h2
    obtain ⟨-, rfl⟩ := h1
    obtain ⟨-, rfl⟩ := h2
    refine ⟨hf, ?_, same_defaultSelection hf⟩
    refine eq_of_pairwise_lt (sortedSet_pairwise _) (sortedSet_pairwise _) (fun t => ?_)
    simp only [Option.getD_none, mem_sortedSet, List.mem_flatMap, hf.mem_iff]

/-! ### Arrays -/

theorem same_chunksOfFile {c d : DC V} (h : SameContents c d) (s k : Str) : c.chunksOfFile s k = d.chunksOfFile s k := by
  funext f
  unfold DC.chunksOfFile
  have : c.keyGroup s k = d.keyGroup s k := by
    unfold DC.keyGroup
    simp only [same_instrumentSources h]
  rw [this, h.trains]

/-- A chunk with entries is sorted by a train of its file. -/
theorem chunk_key {c : DC V} {s k : Str} {f : FileAccess V} {cs : List (Chunk V)} (h : c.chunksOfFile s k f = .ok cs)
    {ch : Chunk V} (hch : ch ∈ cs) (hn : ch.counts.sum ≠ 0) : ch.sortKey ∈ f.trainIds := by
  unfold DC.chunksOfFile at h
  cases hix : f.getIndex s (c.keyGroup s k) with
  | error e => simp [hix] at h
  | ok fc =>
    obtain ⟨firsts, counts⟩ := fc
    simp only [hix] at h
    cases hr : contiguousRegions (f.trainIds.map (fun t => decide (t ∈ c.trainIds))) with
    | error e => simp [hr] at h
    | ok rs =>
      simp only [hr] at h
      cases hm : mapE (regionChunk f s k firsts counts) rs with
      | error e => simp [hm] at h
      | ok chunks =>
        simp only [hm] at h
        by_cases he : chunks.isEmpty = true
        · rw [if_pos he] at h
          obtain rfl := Except.ok.inj h
          simp at hch; subst hch; simp at hn
        · rw [if_neg he] at h
          obtain rfl := Except.ok.inj h
          obtain ⟨⟨a, b⟩, hab, hreg⟩ := (mapE_mem hm).1 hch
          unfold regionChunk at hreg
          cases hnth : nth firsts a with
          | error e => simp [hnth] at hreg
          | ok first =>
            simp only [hnth] at hreg
            obtain rfl := Except.ok.inj hreg
            have hlt : a < b := by
              by_contra hge
              apply hn
              simp only [sl]
              have : (counts.drop a).take (b - a) = [] := by
                rw [show b - a = 0 by omega]; rfl
              simp [this]
            have hcov := (contiguousRegions_cover _ _ hr a).2 ⟨(a, b), hab, Nat.le_refl _, hlt⟩
            rw [List.getElem?_map] at hcov
            cases hta : f.trainIds[a]? with
            | none => simp [hta] at hcov
            | some t =>
              have hal : a < f.trainIds.length := (List.getElem?_eq_some_iff.1 hta).1
              have : sl f.trainIds a b = t :: (f.trainIds.drop (a + 1)).take (b - a - 1) := by
                unfold sl
                rw [List.drop_eq_getElem_cons hal, show b - a = (b - a - 1) + 1 by omega, List.take_succ_cons]
                rw [List.getElem?_eq_getElem hal] at hta
                rw [Option.some.inj hta]
                rfl
              simp only [Chunk.sortKey, this]
              exact List.mem_of_getElem? hta

/-- The chunks with entries, sorted, do not depend on the order of the files. -/
theorem same_sortedChunks {c d : DC V} (h : SameContents c d) (hc : NoConflict c.files) {s k : Str} {cs : List (Chunk V)}
    (hcs : c.findDataChunks s k = .ok cs) : ∃ cs', d.findDataChunks s k = .ok cs' ∧ cs.Perm cs' ∧
      (sortBy Chunk.sortKey cs).filter (fun ch => ch.counts.sum != 0) =
        (sortBy Chunk.sortKey cs').filter (fun ch => ch.counts.sum != 0) := by
  unfold DC.findDataChunks at hcs ⊢
  rw [← same_chunksOfFile h]
  cases hm : mapE (c.chunksOfFile s k) (c.sourceIndex s) with
  | error e => simp [hm] at hcs
  | ok l =>
    rw [hm] at hcs
    obtain rfl := Except.ok.inj hcs
    obtain ⟨l', hm', hp⟩ := mapE_perm (same_sourceIndex h s) hm
    refine ⟨l'.flatten, by rw [hm'], hp.flatten, ?_⟩
    rw [← filter_sortBy, ← filter_sortBy, List.filter_flatten, List.filter_flatten]
    refine sortBy_blocks (hp.map _) ?_
    rw [List.pairwise_map]
    have hpw : (c.sourceIndex s).Pairwise Compatible := List.Pairwise.sublist List.filter_sublist hc
    refine mapE_pairwise_of hpw hm (fun f hf g hg b b' hcomp hb hb' x hx y hy he => ?_)
    rw [List.mem_filter] at hx hy
    have h1 := chunk_key hb hx.1 (by simpa using hx.2)
    have h2 := chunk_key hb' hy.1 (by simpa using hy.2)
    rw [← he] at h2
    exact hcomp s _ (mem_sourceIndex.1 hf).2 (mem_sourceIndex.1 hg).2 h1 h2

theorem filterMap_id_fst {α β : Type _} (l : List (Option (List α × List β))) :
    ((l.filterMap id).map Prod.fst).flatten = l.flatMap (fun o => (o.map Prod.fst).getD []) := by
  induction l with
  | nil => rfl
  | cons o l ih => cases o <;> simp_all

theorem filterMap_id_snd {α β : Type _} (l : List (Option (List α × List β))) :
    ((l.filterMap id).map Prod.snd).flatten = l.flatMap (fun o => (o.map Prod.snd).getD []) := by
  induction l with
  | nil => rfl
  | cons o l ih => cases o <;> simp_all

/-- C130. `get_array` gives exactly the same labelled array, in whatever order the files are. -/
theorem same_array {c d : DC V} (h : SameContents c d) (hc : NoConflict c.files) (hk : SameKeys c.files) {W : Type} {s k : Str}
    {roi : V → W} {a : LArr W} (ha : c.getArray s k roi = .ok a) : d.getArray s k roi = .ok a := by
  unfold DC.getArray at ha ⊢
  cases hcf : c.checkField s k with
  | error e => simp [hcf] at ha
  | ok u =>
    rw [same_checkField h hk hcf]
    simp only [hcf] at ha ⊢
    cases hcs : c.findDataChunks s k with
    | error e => simp [hcs] at ha
    | ok cs =>
      obtain ⟨cs', hcs', hp, hfil⟩ := same_sortedChunks h hc hcs
      simp only [hcs] at ha
      simp only [hcs']
      have hp2 : (sortBy Chunk.sortKey cs).Perm (sortBy Chunk.sortKey cs') :=
        (sortBy_perm _ _).trans (hp.trans (sortBy_perm _ _).symm)
      generalize sortBy Chunk.sortKey cs = l at ha hfil hp2
      generalize sortBy Chunk.sortKey cs' = l' at hfil hp2
      cases hds : mapE Chunk.dataset l with
      | error e => simp [hds] at ha
      | ok dss =>
        obtain ⟨dss', hds', hdp⟩ := mapE_perm hp2 hds
        simp only [hds] at ha
        simp only [hds']
        by_cases h1 : (dss.map Dataset.rowShape).dedup.length > 1
        · rw [if_pos h1] at ha; simp at ha
        · by_cases h2 : (dss.map Dataset.dtype).dedup.length > 1
          · rw [if_neg h1, if_pos h2] at ha; simp at ha
          · have e1 := perm_short ((hdp.map Dataset.rowShape).dedup) h1
            have e2 := perm_short ((hdp.map Dataset.dtype).dedup) h2
            rw [if_neg h1, if_neg h2] at ha
            rw [← e1, ← e2, if_neg h1, if_neg h2]
            cases hsh : (dss.map Dataset.rowShape).dedup with
            | nil => simp [hsh] at ha
            | cons shape _ =>
              cases hdt : (dss.map Dataset.dtype).dedup with
              | nil => simp [hsh, hdt] at ha
              | cons dtype _ =>
                simp only [hsh, hdt] at ha
                simp only
                cases hrd : mapE (readChunk roi) l with
                | error e => simp [hrd] at ha
                | ok parts =>
                  obtain ⟨parts', hrd', -⟩ := mapE_perm hp2 hrd
                  simp only [hrd] at ha
                  simp only [hrd']
                  rw [← ha]
                  have hz : ∀ ch : Chunk V, (ch.counts.sum != 0) = false → ∀ o, readChunk roi ch = .ok o → o = none := by
                    intro ch hch o ho
                    unfold readChunk at ho
                    rw [if_pos (by simpa using hch)] at ho
                    exact (Except.ok.inj ho).symm
                  have g1 : ∀ {X : Type} (hh : Option (List W × List Nat) → List X), hh none = [] →
                      parts.flatMap hh = parts'.flatMap hh := by
                    intro X hh hnone
                    rw [mapE_flatMap_filter (p := fun ch => ch.counts.sum != 0) hrd
                        (fun ch _ hch o ho => by rw [hz ch hch o ho, hnone]),
                      mapE_flatMap_filter (p := fun ch => ch.counts.sum != 0) hrd'
                        (fun ch _ hch o ho => by rw [hz ch hch o ho, hnone]), hfil]
                  rw [filterMap_id_fst, filterMap_id_snd, filterMap_id_fst, filterMap_id_snd, g1 _ rfl, g1 _ rfl,
                    perm_sum (hp2.map (fun ch => ch.counts.sum))]

/-- C130. So does `get_dask_array`. -/
theorem same_dask_array {c d : DC V} (h : SameContents c d) (hc : NoConflict c.files) {s k : Str} {rows : List V}
    (ha : c.getDaskArray s k = .ok rows) : d.getDaskArray s k = .ok rows := by
  unfold DC.getDaskArray at ha ⊢
  cases hcs : c.findDataChunks s k with
  | error e => simp [hcs] at ha
  | ok cs =>
    obtain ⟨cs', hcs', hp, hfil⟩ := same_sortedChunks h hc hcs
    simp only [hcs] at ha
    simp only [hcs']
    have hp2 : (sortBy Chunk.sortKey cs).Perm (sortBy Chunk.sortKey cs') :=
      (sortBy_perm _ _).trans (hp.trans (sortBy_perm _ _).symm)
    generalize sortBy Chunk.sortKey cs = l at ha hfil hp2
    generalize sortBy Chunk.sortKey cs' = l' at hfil hp2
    cases hm : mapE daskPart l with
    | error e => simp [hm] at ha
    | ok parts =>
      obtain ⟨parts', hm', hpp⟩ := mapE_perm hp2 hm
      simp only [hm] at ha
      simp only [hm']
      unfold daskConcat at ha ⊢
      have he : parts.isEmpty = parts'.isEmpty := by cases parts <;> cases parts' <;> simp_all
      have hlen : ((parts.filter partFull).map Prod.snd).dedup.length = ((parts'.filter partFull).map Prod.snd).dedup.length :=
        (((hpp.filter partFull).map Prod.snd).dedup).length_eq
      rw [← he, ← hlen]
      by_cases h1 : parts.isEmpty = true
      · rw [if_pos h1] at ha; simp at ha
      · rw [if_neg h1] at ha ⊢
        by_cases h2 : ((parts.filter partFull).map Prod.snd).dedup.length > 1
        · rw [if_pos h2] at ha; simp at ha
        · rw [if_neg h2] at ha ⊢
          rw [← ha]
          have hz : ∀ ch : Chunk V, (ch.counts.sum != 0) = false → ∀ o, daskPart ch = .ok o → o.1 = [] := by
            intro ch hch o ho
            have hch : ch.counts.sum = 0 := by simpa using hch
            unfold daskPart at ho
            cases hd : ch.dataset with
            | error e => simp [hd] at ho
            | ok ds =>
              simp only [hd] at ho
              by_cases hr : ch.counts.sum = 0 ∧ ds.rows ≠ []
              · rw [if_pos hr] at ho; simp at ho
              · rw [if_neg hr] at ho
                obtain rfl := Except.ok.inj ho
                simp [hch, sl]
          rw [← List.flatMap_def, ← List.flatMap_def, mapE_flatMap_filter (p := fun ch => ch.counts.sum != 0) hm
              (fun ch _ hch o ho => hz ch hch o ho),
            mapE_flatMap_filter (p := fun ch => ch.counts.sum != 0) hm' (fun ch _ hch o ho => hz ch hch o ho), hfil]

/-! ### Counts and series -/

theorem same_sorted_parts {c d : DC V} (h : SameContents c d) (hc : NoConflict c.files) {β : Type} {s : Str}
    {part : FileAccess V → R (List β)} {key : List β → Nat}
    (hkey : ∀ f l, part f = .ok l → l ≠ [] → key l ∈ f.trainIds) {l : List (List β)} (hl : mapE part (c.sourceIndex s) = .ok l)
    (hne : l.any List.isEmpty = false) : ∃ l', mapE part (d.sourceIndex s) = .ok l' ∧ l.Perm l' ∧ sortBy key l = sortBy key l' := by
  obtain ⟨l', hl', hp⟩ := mapE_perm (same_sourceIndex h s) hl
  refine ⟨l', hl', hp, sortBy_perm_eq hp ?_⟩
  have hne' : ∀ b ∈ l, b ≠ [] := by
    intro b hb he
    have := List.any_eq_false.1 hne b hb
    rw [he] at this
    simp at this
  have hpw : (c.sourceIndex s).Pairwise Compatible := List.Pairwise.sublist List.filter_sublist hc
  refine mapE_pairwise_of hpw hl (fun f hf g hg b b' hcomp hb hb' he => ?_)
  have h1 := hkey f b hb (hne' b ((mapE_mem hl).2 ⟨f, hf, hb⟩))
  have h2 := hkey g b' hb' (hne' b' ((mapE_mem hl).2 ⟨g, hg, hb'⟩))
  rw [← he] at h2
  exact hcomp s _ (mem_sourceIndex.1 hf).2 (mem_sourceIndex.1 hg).2 h1 h2

theorem same_any {β : Type} {l l' : List (List β)} (hp : l.Perm l') (p : List β → Bool) : l.any p = l'.any p := by
  rw [Bool.eq_iff_iff, List.any_eq_true, List.any_eq_true]
  simp only [hp.mem_iff]

theorem countsOfFile_key {c : DC V} {s k : Str} (f : FileAccess V) (l : List (Nat × Nat)) (h : c.countsOfFile s k f = .ok l)
    (hne : l ≠ []) : countsKey l ∈ f.trainIds := by
  unfold DC.countsOfFile at h
  by_cases hs : s ∈ c.controlSources
  · rw [if_pos hs] at h
    unfold onesSeries at h
    by_cases ht : f.trainIds = [1]
    · rw [if_pos ht] at h; obtain rfl := Except.ok.inj h; rw [ht]; simp [countsKey]
    · rw [if_neg ht] at h; simp at h
  · rw [if_neg hs] at h
    split at h
    · simp at h
    · obtain ⟨-, rfl⟩ := zipSame_ok.1 h
      rename_i counts _
      cases ht : f.trainIds with
      | nil => simp [ht] at hne
      | cons t ts => cases counts <;> simp_all [countsKey]

/-- C130. `get_data_counts` gives exactly the same counts. -/
theorem same_counts {c d : DC V} (h : SameContents c d) (hc : NoConflict c.files) (hk : SameKeys c.files) {s k : Str}
    {l : List (Nat × Nat)} (hl : c.getDataCounts s k = .ok l) : d.getDataCounts s k = .ok l := by
  unfold DC.getDataCounts at hl ⊢
  cases hcf : c.checkField s k with
  | error e => simp [hcf] at hl
  | ok u =>
    rw [same_checkField h hk hcf]
    simp only [hcf] at hl ⊢
    have hfun : c.countsOfFile s k = d.countsOfFile s k := by
      funext f
      unfold DC.countsOfFile
      simp only [same_controlSources h]
    cases hm : mapE (c.countsOfFile s k) (c.sourceIndex s) with
    | error e => simp [hm] at hl
    | ok sers =>
      simp only [hm] at hl
      by_cases he : sers.any List.isEmpty = true
      · rw [if_pos he] at hl; simp at hl
      · obtain ⟨l', hl', hp, hs⟩ := same_sorted_parts h hc (key := countsKey) countsOfFile_key hm (Bool.eq_false_iff.2 he)
        rw [hfun] at hl'
        rw [if_neg he] at hl
        simp only [hl']
        rw [← same_any hp, if_neg he, ← hs, ← h.trains]
        exact hl

theorem seriesOfFile_key {c : DC V} {s k : Str} (f : FileAccess V) (l : List (SeriesRow V)) (h : c.seriesOfFile s k f = .ok l)
    (hne : l ≠ []) : seriesKey l ∈ f.trainIds := by
  cases l with
  | nil => exact absurd rfl hne
  | cons r l => exact seriesOfFile_lab f _ r h (by simp)

/-- C130. `get_series` gives exactly the same series. -/
theorem same_series {c d : DC V} (h : SameContents c d) (hc : NoConflict c.files) (hk : SameKeys c.files) {s k : Str}
    {l : List (SeriesRow V)} (hl : c.getSeries s k = .ok l) : d.getSeries s k = .ok l := by
  unfold DC.getSeries at hl ⊢
  cases hcf : c.checkField s k with
  | error e => simp [hcf] at hl
  | ok u =>
    rw [same_checkField h hk hcf]
    simp only [hcf] at hl ⊢
    have hfun : c.seriesOfFile s k = d.seriesOfFile s k := by
      funext f
      unfold DC.seriesOfFile
      simp only [same_controlSources h]
    cases hm : mapE (c.seriesOfFile s k) (c.sourceIndex s) with
    | error e => simp [hm] at hl
    | ok sers =>
      simp only [hm] at hl
      by_cases he : sers.any List.isEmpty = true
      · rw [if_pos he] at hl; simp at hl
      · obtain ⟨l', hl', hp, hs⟩ := same_sorted_parts h hc (key := seriesKey) seriesOfFile_key hm (Bool.eq_false_iff.2 he)
        rw [hfun] at hl'
        rw [if_neg he] at hl
        have hmix : mixedLabels sers = mixedLabels l' := by unfold mixedLabels; rw [same_any hp, same_any hp]
        simp only [hl']
        rw [← same_any hp, if_neg he, ← hmix, ← hs, ← h.trains]
        exact hl

/-! ### Trains -/

theorem same_findData {c d : DC V} (h : SameContents c d) (hc : NoConflict c.files) (s : Str) (t : Nat) :
    c.findData s t = d.findData s t := by
  have hcd : NoConflict d.files := (noConflict_perm h.files).1 hc
  cases hf : c.findData s t with
  | none =>
    rw [findData_none] at hf
    symm
    rw [findData_none]
    rintro ⟨f, h1, h2⟩
    exact hf ⟨f, h.files.mem_iff.2 h1, h2⟩
  | some fp =>
    obtain ⟨f, pos⟩ := fp
    obtain ⟨h1, h2, h3, h4⟩ := findData_some hf
    obtain ⟨pos', h5⟩ := findData_of_mem hcd (h.files.mem_iff.1 h1) h2 (List.mem_of_getElem? h3)
    rw [h5]
    have := (findData_some h5).2.2.2
    rw [h4] at this
    rw [Option.some.inj this]

theorem get?_of_mem_iff {W : Type} {l l' : Dict Str W} (hm : ∀ x, x ∈ l ↔ x ∈ l')
    (hu : ∀ k v w, (k, v) ∈ l → (k, w) ∈ l → w = v) (k : Str) : Dict.get? l k = Dict.get? l' k := by
  by_cases hk : ∃ v, (k, v) ∈ l
  · obtain ⟨v, hv⟩ := hk
    rw [get?_of_all hv (fun w hw => hu k v w hv hw),
      get?_of_all ((hm _).1 hv) (fun w hw => hu k v w hv ((hm _).2 hw))]
  · rw [get?_of_none (fun w hw => hk ⟨w, hw⟩), get?_of_none (fun w hw => hk ⟨w, (hm _).2 hw⟩)]

/-- The same metadata and the same value for each key. -/
def SameSource (a b : SourceData V) : Prop := a.mdSource = b.mdSource ∧ a.mdTid = b.mdTid ∧ ∀ k, a.data.get? k = b.data.get? k

theorem same_entries {e : Str → R (Option (Str × Entry V))} (hfst : ∀ k x, e k = .ok (some x) → x.1 = k) {ks ks' : List Str}
    (hk : ∀ k, k ∈ ks ↔ k ∈ ks') {items : List (Option (Str × Entry V))} (hi : mapE e ks = .ok items) :
    ∃ items', mapE e ks' = .ok items' ∧ ∀ k, Dict.get? (items.filterMap id) k = Dict.get? (items'.filterMap id) k := by
  obtain ⟨items', hi'⟩ := mapE_exists_ok (f := e) (l := ks') (fun k hk' => by
    obtain ⟨b, -, hb⟩ := mapE_ok_all hi ((hk k).2 hk')
    exact ⟨b, hb⟩)
  have hmem : ∀ {l : List Str} {r : List (Option (Str × Entry V))}, mapE e l = .ok r →
      ∀ x, x ∈ r.filterMap id ↔ ∃ k ∈ l, e k = .ok (some x) := by
    intro l r hr x
    simp only [List.mem_filterMap, id]
    constructor
    · rintro ⟨o, ho, rfl⟩; exact (mapE_mem hr).1 ho
    · rintro ⟨k, hk1, hk2⟩; exact ⟨_, (mapE_mem hr).2 ⟨k, hk1, hk2⟩, rfl⟩
  refine ⟨items', hi', get?_of_mem_iff (fun x => by rw [hmem hi, hmem hi']; simp only [hk]) (fun k v w hv hw => ?_)⟩
  obtain ⟨a, -, ha⟩ := (hmem hi _).1 hv
  obtain ⟨b, -, hb⟩ := (hmem hi _).1 hw
  obtain rfl := hfst a _ ha
  obtain rfl := hfst b _ hb
  simp only at ha hb
  rw [ha] at hb
  simpa using (Except.ok.inj hb).symm

theorem same_assembled {g g' k k' : Str → R (Str × SourceData V)} {A A' B B' : List Str} (hA : A.Nodup) (hA' : A'.Nodup) (hB : B.Nodup)
    (hB' : B'.Nodup) (hAA : ∀ s, s ∈ A ↔ s ∈ A') (hBB : ∀ s, s ∈ B ↔ s ∈ B')
    (hg : ∀ s ∈ A, ∀ v, g s = .ok v → v.1 = s ∧ ∃ w, g' s = .ok (s, w) ∧ SameSource v.2 w)
    (hk : ∀ s ∈ B, ∀ v, k s = .ok v → v.1 = s ∧ ∃ w, k' s = .ok (s, w) ∧ SameSource v.2 w)
    {ctrl inst : List (Str × SourceData V)} (h1 : mapE g A = .ok ctrl) (h2 : mapE k B = .ok inst) :
    ∃ ctrl' inst', mapE g' A' = .ok ctrl' ∧ mapE k' B' = .ok inst' ∧
      SameTrain (Dict.update (Dict.update [] ctrl) inst) (Dict.update (Dict.update [] ctrl') inst') := by
  have key : ∀ {g g' : Str → R (Str × SourceData V)} {A A' : List Str}, A.Nodup → A'.Nodup → (∀ s, s ∈ A ↔ s ∈ A') →
      (∀ s ∈ A, ∀ v, g s = .ok v → v.1 = s ∧ ∃ w, g' s = .ok (s, w) ∧ SameSource v.2 w) →
      ∀ {r : List (Str × SourceData V)}, mapE g A = .ok r → ∃ r', mapE g' A' = .ok r' ∧ r.map Prod.fst = A ∧
        r'.map Prod.fst = A' ∧ ∀ s ∈ A, ∃ v w, (s, v) ∈ r ∧ (s, w) ∈ r' ∧ SameSource v w := by
    intro g g' A A' hA hA' hAA hg r hr
    have hex : ∀ s ∈ A', ∃ w, g' s = .ok (s, w) := by
      intro s hs
      obtain ⟨v, -, hv⟩ := mapE_ok_all hr ((hAA s).2 hs)
      obtain ⟨-, w, hw, -⟩ := hg s ((hAA s).2 hs) v hv
      exact ⟨w, hw⟩
    obtain ⟨r', hr'⟩ := mapE_exists_ok (f := g') (l := A') (fun s hs => let ⟨w, hw⟩ := hex s hs; ⟨_, hw⟩)
    have hf : ∀ {g : Str → R (Str × SourceData V)} {l : List Str} {r : List (Str × SourceData V)},
        (∀ s ∈ l, ∀ v, g s = .ok v → v.1 = s) → mapE g l = .ok r → r.map Prod.fst = l := by
      intro g l
      induction l with
      | nil => intro r _ h; obtain rfl := Except.ok.inj h; rfl
      | cons a l ih =>
        intro r hv h
        obtain ⟨b, bs, e1, e2, rfl⟩ := mapE_cons_ok.1 h
        rw [List.map_cons, ih (fun s hs => hv s (by simp [hs])) e2, hv a (by simp) b e1]
    refine ⟨r', hr', hf (fun s hs v hv => (hg s hs v hv).1) hr, hf (fun s hs v hv => ?_) hr', fun s hs => ?_⟩
    · obtain ⟨w, hw⟩ := hex s hs
      rw [hw] at hv
      rw [← Except.ok.inj hv]
    · obtain ⟨v, hvr, hv⟩ := mapE_ok_all hr hs
      obtain ⟨e1, w, hw, hsame⟩ := hg s hs v hv
      obtain ⟨v1, v2⟩ := v
      obtain rfl := e1
      exact ⟨v2, w, hvr, (mapE_mem hr').2 ⟨_, (hAA _).1 hs, hw⟩, hsame⟩
  obtain ⟨ctrl', c1, c2, c3, c4⟩ := key hA hA' hAA hg h1
  obtain ⟨inst', i1, i2, i3, i4⟩ := key hB hB' hBB hk h2
  refine ⟨ctrl', inst', c1, i1, fun s => ?_, fun s a b ha hb => ?_⟩
  · simp only [Dict.mem_keys_update, c2, c3, i2, i3, hAA, hBB]
  · by_cases hs : s ∈ B
    · obtain ⟨v, w, hv, hw, hsame⟩ := i4 s hs
      rw [Dict.get?_update_mem (by rw [i2]; exact hB) hv] at ha
      rw [Dict.get?_update_mem (by rw [i3]; exact hB') hw] at hb
      obtain rfl := Option.some.inj ha
      obtain rfl := Option.some.inj hb
      exact hsame
    · rw [Dict.get?_update_notMem (by rw [i2]; exact hs)] at ha
      rw [Dict.get?_update_notMem (by rw [i3]; exact fun h => hs ((hBB s).2 h))] at hb
      by_cases hsA : s ∈ A
      · obtain ⟨v, w, hv, hw, hsame⟩ := c4 s hsA
        rw [Dict.get?_update_mem (by rw [c2]; exact hA) hv] at ha
        rw [Dict.get?_update_mem (by rw [c3]; exact hA') hw] at hb
        obtain rfl := Option.some.inj ha
        obtain rfl := Option.some.inj hb
        exact hsame
      · rw [Dict.get?_update_notMem (by rw [c2]; exact hsA)] at ha
        simp at ha

theorem same_trainControl {c d : DC V} (h : SameContents c d) (hc : NoConflict c.files) (hk : SameKeys c.files)
    (hl : ListsKeys c.files) {t : Nat} {s : Str} {v : Str × SourceData V} (hv : c.trainControl t s = .ok v) :
    v.1 = s ∧ ∃ w, d.trainControl t s = .ok (s, w) ∧ SameSource v.2 w := by
  unfold DC.trainControl at hv ⊢
  rw [← same_findData h hc]
  cases hf : c.findData s t with
  | none =>
    rw [hf] at hv
    obtain rfl := Except.ok.inj hv
    exact ⟨rfl, _, rfl, rfl, rfl, fun _ => rfl⟩
  | some fp =>
    obtain ⟨f, pos⟩ := fp
    simp only [hf] at hv
    cases hks : c.keysForSource s with
    | error e => simp [hks] at hv
    | ok ks =>
      simp only [hks] at hv
      obtain ⟨ks', hks', hkk⟩ := same_keys h hk hl hks
      simp only [hks']
      cases hm : mapE (controlEntry f pos s) ks with
      | error e => simp [hm] at hv
      | ok items =>
        simp only [hm] at hv
        obtain rfl := Except.ok.inj hv
        obtain ⟨items', hm'⟩ := mapE_exists_ok (f := controlEntry f pos s) (l := ks') (fun k hk' => by
          obtain ⟨b, -, hb⟩ := mapE_ok_all hm ((hkk k).2 hk')
          exact ⟨b, hb⟩)
        refine ⟨rfl, ⟨s, t, items'⟩, by rw [hm'], rfl, rfl, get?_of_mem_iff (fun x => ?_) (fun k v w hv hw => ?_)⟩
        · rw [mapE_mem hm, mapE_mem hm']; simp only [hkk]
        · have hfst : ∀ a x, controlEntry f pos s a = .ok x → x.1 = a := by
            intro a x hx
            unfold controlEntry at hx
            split at hx
            · simp at hx
            · split at hx
              · simp at hx
              · rw [← Except.ok.inj hx]
          obtain ⟨a, -, ha⟩ := (mapE_mem hm).1 hv
          obtain ⟨b, -, hb⟩ := (mapE_mem hm).1 hw
          obtain rfl := hfst a _ ha
          obtain rfl := hfst b _ hb
          simp only at ha hb
          rw [ha] at hb
          simpa using (Except.ok.inj hb).symm

theorem same_trainInstrument {c d : DC V} (h : SameContents c d) (hc : NoConflict c.files) (hk : SameKeys c.files)
    (hl : ListsKeys c.files) {t : Nat} {s : Str} {v : Str × SourceData V} (hv : c.trainInstrument t s = .ok v) :
    v.1 = s ∧ ∃ w, d.trainInstrument t s = .ok (s, w) ∧ SameSource v.2 w := by
  unfold DC.trainInstrument at hv ⊢
  rw [← same_findData h hc]
  cases hf : c.findData s t with
  | none =>
    rw [hf] at hv
    obtain rfl := Except.ok.inj hv
    exact ⟨rfl, _, rfl, rfl, rfl, fun _ => rfl⟩
  | some fp =>
    obtain ⟨f, pos⟩ := fp
    simp only [hf] at hv
    cases hks : c.keysForSource s with
    | error e => simp [hks] at hv
    | ok ks =>
      simp only [hks] at hv
      obtain ⟨ks', hks', hkk⟩ := same_keys h hk hl hks
      simp only [hks']
      cases hm : mapE (instrumentEntry f pos s) ks with
      | error e => simp [hm] at hv
      | ok items =>
        simp only [hm] at hv
        obtain rfl := Except.ok.inj hv
        have hfst : ∀ a x, instrumentEntry f pos s a = .ok (some x) → x.1 = a := by
          intro a x hx
          unfold instrumentEntry at hx
          split at hx
          · simp at hx
          · split at hx
            · split at hx
              · simp at hx
              · split at hx
                · simp at hx
                · split at hx
                  · split at hx
                    · simp at hx
                    · rw [← Option.some.inj (Except.ok.inj hx)]
                  · rw [← Option.some.inj (Except.ok.inj hx)]
            · simp at hx
            · simp at hx
        obtain ⟨items', hm', hsame⟩ := same_entries hfst hkk hm
        exact ⟨rfl, ⟨s, t, items'.filterMap id⟩, by rw [hm'], rfl, rfl, hsame⟩

/-- C130. `train_from_id` shows the same, in whatever order the files are. -/
theorem same_train {c d : DC V} (h : SameContents c d) (hc : NoConflict c.files) (hk : SameKeys c.files) (hl : ListsKeys c.files)
    {t t' : Nat} {m : Dict Str (SourceData V)} (hm : c.trainFromId t = .ok (t', m)) :
    ∃ m', d.trainFromId t = .ok (t', m') ∧ SameTrain m m' := by
  unfold DC.trainFromId at hm ⊢
  rw [← h.trains]
  by_cases ht : t ∈ c.trainIds
  · rw [if_neg (by simpa using ht)] at hm ⊢
    cases h1 : mapE (c.trainControl t) c.controlSources with
    | error e => simp [h1] at hm
    | ok ctrl =>
      cases h2 : mapE (c.trainInstrument t) c.instrumentSources with
      | error e => simp [h1, h2] at hm
      | ok inst =>
        simp only [h1, h2] at hm
        obtain ⟨rfl, rfl⟩ := Prod.mk.inj (Except.ok.inj hm)
        obtain ⟨ctrl', inst', e1, e2, e3⟩ := same_assembled (g' := d.trainControl t) (k' := d.trainInstrument t)
          (List.nodup_dedup _) (List.nodup_dedup _) (List.nodup_dedup _)
          (List.nodup_dedup _) (same_controlSources h) (same_instrumentSources h)
          (fun s _ v hv => same_trainControl h hc hk hl hv) (fun s _ v hv => same_trainInstrument h hc hk hl hv) h1 h2
        refine ⟨_, ?_, e3⟩
        rw [show mapE (d.trainControl t) d.controlSources = .ok ctrl' from e1,
          show mapE (d.trainInstrument t) d.instrumentSources = .ok inst' from e2]
  · rw [if_pos ht] at hm; simp at hm

theorem same_pureKey {c d : DC V} (h : SameContents c d) (hc : NoConflict c.files)
    (entry : FileAccess V × Nat × Dataset V → Str → R (Entry V)) (s : Str) (t : Nat) :
    pureKey c entry s t = pureKey d entry s t := by
  have : ∀ k, pureFind c s k t = pureFind d s k t := by
    intro k
    unfold pureFind iterSection
    rw [same_findData h hc]
    simp only [same_controlSources h]
  funext k
  unfold pureKey
  rw [this]

theorem same_pureSource {c d : DC V} (h : SameContents c d) (hc : NoConflict c.files) (hk : SameKeys c.files)
    (hl : ListsKeys c.files) (entry : Str → FileAccess V × Nat × Dataset V → Str → R (Entry V)) {t : Nat} {s : Str}
    {v : Str × SourceData V} (hv : pureSource c entry t s = .ok v) :
    v.1 = s ∧ ∃ w, pureSource d entry t s = .ok (s, w) ∧ SameSource v.2 w := by
  unfold pureSource at hv ⊢
  cases hks : c.keysForSource s with
  | error e => simp [hks] at hv
  | ok ks =>
    simp only [hks] at hv
    obtain ⟨ks', hks', hkk⟩ := same_keys h hk hl hks
    simp only [hks']
    cases hm : mapE (pureKey c (entry s) s t) ks with
    | error e => simp [hm] at hv
    | ok items =>
      simp only [hm] at hv
      obtain rfl := Except.ok.inj hv
      have hfst : ∀ a x, pureKey c (entry s) s t a = .ok (some x) → x.1 = a := by
        intro a x hx
        unfold pureKey at hx
        split at hx
        · simp at hx
        · simp at hx
        · split at hx
          · simp at hx
          · rw [← Option.some.inj (Except.ok.inj hx)]
      obtain ⟨items', hm', hsame⟩ := same_entries hfst hkk hm
      rw [same_pureKey h hc] at hm'
      exact ⟨rfl, ⟨s, t, items'.filterMap id⟩, by rw [hm'], rfl, rfl, hsame⟩

theorem same_pureAssemble {c d : DC V} (h : SameContents c d) (hc : NoConflict c.files) (hk : SameKeys c.files)
    (hl : ListsKeys c.files) {t : Nat} {m : Dict Str (SourceData V)} (hm : pureAssemble c t = .ok m) :
    ∃ m', pureAssemble d t = .ok m' ∧ SameTrain m m' := by
  unfold pureAssemble at hm ⊢
  cases h1 : mapE (pureSource c (fun _ => iterControlEntry) t) c.controlSources with
  | error e => simp [h1] at hm
  | ok ctrl =>
    simp only [h1] at hm
    cases h2 : mapE (pureSource c iterInstrumentEntry t) c.instrumentSources with
    | error e => simp [h2] at hm
    | ok inst =>
      simp only [h2] at hm
      obtain rfl := Except.ok.inj hm
      obtain ⟨ctrl', inst', e1, e2, e3⟩ := same_assembled (g' := pureSource d (fun _ => iterControlEntry) t)
        (k' := pureSource d iterInstrumentEntry t) (List.nodup_dedup _) (List.nodup_dedup _) (List.nodup_dedup _)
        (List.nodup_dedup _) (same_controlSources h) (same_instrumentSources h)
        (fun s _ v hv => same_pureSource h hc hk hl _ hv) (fun s _ v hv => same_pureSource h hc hk hl _ hv) h1 h2
      refine ⟨_, ?_, e3⟩
      rw [show mapE (pureSource d (fun _ => iterControlEntry) t) d.controlSources = .ok ctrl' from e1]
      simp only
      rw [show mapE (pureSource d iterInstrumentEntry t) d.instrumentSources = .ok inst' from e2]

theorem same_goodData {c d : DC V} (h : SameContents c d) (hk : SameKeys c.files) (hl : ListsKeys c.files) (hg : GoodData c) :
    GoodData d := by
  obtain ⟨-, -, hav⟩ := same_available h hk
  have hix : ∀ {b s k}, IndexedIn c b s k → IndexedIn d b s k := fun hi f hf => hi f (h.files.mem_iff.2 hf)
  refine ⟨fun s hs => ?_, fun s hs k ha => hix (hg.instr s ((same_instrumentSources h s).2 hs) k ((hav s k).2 ha)), fun s hs => ?_⟩
  · obtain ⟨ks, hks⟩ := hg.keys s ((same_allSources h s).2 hs)
    obtain ⟨ks', hks', -⟩ := same_keys h hk hl hks
    exact ⟨ks', hks'⟩
  · obtain ⟨h1, h2⟩ := hg.ctrl s ((same_controlSources h s).2 hs)
    refine ⟨fun hi => h1 ((same_instrumentSources h s).2 hi), fun k ha => ?_⟩
    obtain ⟨h3, h4⟩ := h2 k ((hav s k).2 ha)
    exact ⟨hix h3, fun f hf => h4 f (h.files.mem_iff.2 hf)⟩

theorem same_complete {c d : DC V} (h : SameContents c d) (hk : SameKeys c.files) (t : Nat) (hcm : Complete c t) : Complete d t := by
  obtain ⟨-, -, hav⟩ := same_available h hk
  refine ⟨fun s hs => ?_, fun s hs k ha f hf => hcm.2 s ((same_instrumentSources h s).2 hs) k ((hav s k).2 ha) f (h.files.mem_iff.2 hf)⟩
  obtain ⟨f, h1, h2⟩ := hcm.1 s ((same_allSources h s).2 hs)
  exact ⟨f, h.files.mem_iff.1 h1, h2⟩

/-- C130. Iterating over the trains shows the same, train by train (with `require_all`, if the data is in good order). -/
theorem same_trains {c d : DC V} (h : SameContents c d) (hc : NoConflict c.files) (hk : SameKeys c.files) (hl : ListsKeys c.files)
    {req : Bool} (hreq : req = true → GoodData c) {l : List (Nat × Dict Str (SourceData V))} (hm : c.trains none none req = .ok l) :
    ∃ l', d.trains none none req = .ok l' ∧ List.Forall₂ (fun x y => x.1 = y.1 ∧ SameTrain x.2 y.2) l l' := by
  have hcd : NoConflict d.files := (noConflict_perm h.files).1 hc
  rw [trains_pure hc] at hm
  rw [trains_pure hcd, ← h.trains]
  have hmiss : ∀ t, (if req then c.checkDataMissing t else .ok false) = (if req then d.checkDataMissing t else .ok false) := by
    intro t
    cases req with
    | false => rfl
    | true =>
      have hg := hreq rfl
      simp only [if_true]
      rw [checkDataMissing_good hc hg, checkDataMissing_good hcd (same_goodData h hk hl hg)]
      have : Complete c t ↔ Complete d t :=
        ⟨same_complete h hk t, same_complete (sameContents_symm h) (sameKeys_perm h.files hk) t⟩
      by_cases hcm : Complete c t
      · simp [hcm, this.1 hcm]
      · simp [hcm, mt this.2 hcm]
  have hstep : ∀ t o, pureStep c req t = .ok o → ∃ o', pureStep d req t = .ok o' ∧
      ((o = none ∧ o' = none) ∨ ∃ m m', o = some (t, m) ∧ o' = some (t, m') ∧ SameTrain m m') := by
    intro t o ho
    unfold pureStep at ho ⊢
    rw [← hmiss t]
    split at ho
    · simp at ho
    · obtain rfl := Except.ok.inj ho; exact ⟨none, rfl, .inl ⟨rfl, rfl⟩⟩
    · cases hpa : pureAssemble c t with
      | error e => simp [hpa] at ho
      | ok m =>
        simp only [hpa] at ho
        obtain rfl := Except.ok.inj ho
        obtain ⟨m', h1, h2⟩ := same_pureAssemble h hc hk hl hpa
        exact ⟨some (t, m'), by rw [h1], .inr ⟨m, m', rfl, rfl, h2⟩⟩
  have hall : ∀ ts items, mapE (pureStep c req) ts = .ok items → ∃ items', mapE (pureStep d req) ts = .ok items' ∧
      List.Forall₂ (fun x y => x.1 = y.1 ∧ SameTrain x.2 y.2) (items.filterMap id) (items'.filterMap id) := by
    intro ts
    induction ts with
    | nil => intro items hi; obtain rfl := Except.ok.inj hi; exact ⟨[], rfl, .nil⟩
    | cons t ts ih =>
      intro items hi
      obtain ⟨b, bs, h1, h2, rfl⟩ := mapE_cons_ok.1 hi
      obtain ⟨bs', h3, h4⟩ := ih bs h2
      obtain ⟨o', h5, h6⟩ := hstep t b h1
      refine ⟨o' :: bs', mapE_cons_ok.2 ⟨o', bs', h5, h3, rfl⟩, ?_⟩
      rcases h6 with ⟨rfl, rfl⟩ | ⟨m, m', rfl, rfl, h7⟩
      · exact h4
      · exact .cons ⟨rfl, h7⟩ h4
  cases hm2 : mapE (pureStep c req) c.trainIds with
  | error e => simp [hm2, Except.map] at hm
  | ok items =>
    simp only [hm2, Except.map] at hm
    obtain rfl := Except.ok.inj hm
    obtain ⟨items', h1, h2⟩ := hall _ _ hm2
    exact ⟨_, by rw [h1]; rfl, h2⟩

/-! ### Selecting -/

/-- The same items in two lists of pairs of sources and keys, where the lists of keys may be in different orders. -/
structure SameItems (l l' : List (Str × Option (List Str))) : Prop where
  all : ∀ s, (s, none) ∈ l ↔ (s, none) ∈ l'
  any : ∀ s, (∃ w, (s, w) ∈ l) ↔ ∃ w, (s, w) ∈ l'
  keys : ∀ s k, (∃ ks, (s, some ks) ∈ l ∧ k ∈ ks) ↔ ∃ ks, (s, some ks) ∈ l' ∧ k ∈ ks

theorem sameItems_append {a a' b b' : List (Str × Option (List Str))} (h1 : SameItems a a') (h2 : SameItems b b') :
    SameItems (a ++ b) (a' ++ b') := by
  refine ⟨fun s => ?_, fun s => ?_, fun s k => ?_⟩
  · rw [List.mem_append, List.mem_append, h1.all, h2.all]
  · simp only [List.mem_append, exists_or]; rw [h1.any, h2.any]
  · simp only [List.mem_append, or_and_right, exists_or]; rw [h1.keys, h2.keys]

theorem same_unionSelections {S S' : List Selection} (h : SameItems S.flatten S'.flatten) :
    SameSelection (unionSelections S) (unionSelections S') := by
  intro s
  by_cases hany : ∃ w, (s, w) ∈ S.flatten
  · have hany' := (h.any s).1 hany
    have e1 := (unionSelections_get? S s _).2 ⟨hany, rfl⟩
    have e2 := (unionSelections_get? S' s _).2 ⟨hany', rfl⟩
    rw [e1, e2]
    by_cases hn : (s, none) ∈ S.flatten
    · rw [if_pos hn, if_pos ((h.all s).1 hn)]; exact .allKeys
    · rw [if_neg hn, if_neg (fun hn' => hn ((h.all s).2 hn'))]
      exact .keys (fun k => by rw [mem_union_keys, mem_union_keys]; exact h.keys s k)
  · have : ∀ {S : List Selection}, (¬ ∃ w, (s, w) ∈ S.flatten) → (unionSelections S).get? s = none := by
      intro S hS
      cases hg : (unionSelections S).get? s with
      | none => rfl
      | some v => exact absurd ((unionSelections_get? S s v).1 hg).1 hS
    rw [this hany, this (fun h' => hany ((h.any s).2 h'))]
    exact .absent

theorem same_globSource {c d : DC V} (h : SameContents c d) (hk : SameKeys c.files) (hl : ListsKeys c.files) {kg s : Str}
    {o : Option (Str × Option (List Str))} (ho : c.globSource kg s = .ok o) :
    ∃ v v', o = Option.map (fun x => (s, x)) v ∧ d.globSource kg s = .ok (Option.map (fun x => (s, x)) v') ∧ SameChoice v v' := by
  unfold DC.globSource at ho ⊢
  by_cases hs : kg = ch! "*"
  · rw [if_pos hs] at ho ⊢
    obtain rfl := Except.ok.inj ho
    exact ⟨some none, some none, rfl, rfl, .allKeys⟩
  · rw [if_neg hs] at ho ⊢
    cases hks : c.keysForSource s with
    | error e => simp [hks] at ho
    | ok ks =>
      simp only [hks] at ho
      obtain ⟨ks', hks', hkk⟩ := same_keys h hk hl hks
      simp only [hks']
      have hdec : decide (s ∈ c.controlSources) = decide (s ∈ d.controlSources) := by simp only [same_controlSources h]
      rw [hdec] at ho
      generalize (if (!(endsWith kg (ch! ".value") || endsWith kg (ch! "*")) && decide (s ∈ d.controlSources)) = true
        then globMatchOptValue kg else globMatch kg) = p at ho ⊢
      have hmem : ∀ k, k ∈ ks.filter p ↔ k ∈ ks'.filter p := by
        intro k; rw [List.mem_filter, List.mem_filter, hkk]
      have hemp : (ks.filter p).isEmpty = (ks'.filter p).isEmpty := by
        rw [Bool.eq_iff_iff, List.isEmpty_iff, List.isEmpty_iff, List.eq_nil_iff_forall_not_mem, List.eq_nil_iff_forall_not_mem]
        simp only [hmem]
      rw [← hemp]
      by_cases he : (ks.filter p).isEmpty = true
      · rw [if_pos he] at ho ⊢
        obtain rfl := Except.ok.inj ho
        exact ⟨none, none, rfl, rfl, .absent⟩
      · rw [if_neg he] at ho ⊢
        obtain rfl := Except.ok.inj ho
        exact ⟨some (some _), some (some _), rfl, rfl, .keys hmem⟩

theorem same_selectGlob {c d : DC V} (h : SameContents c d) (hk : SameKeys c.files) (hl : ListsKeys c.files) {sg kg : Str}
    {S : Selection} (hS : c.selectGlob sg kg = .ok S) : ∃ S', d.selectGlob sg kg = .ok S' ∧ SameItems S S' := by
  unfold DC.selectGlob at hS ⊢
  cases hm : mapE (c.globSource kg) (c.allSources.filter (globMatch sg)) with
  | error e => simp [hm] at hS
  | ok rs =>
    simp only [hm] at hS
    have hmem : ∀ s, s ∈ c.allSources.filter (globMatch sg) ↔ s ∈ d.allSources.filter (globMatch sg) := by
      intro s; rw [List.mem_filter, List.mem_filter, same_allSources h]
    obtain ⟨rs', hm'⟩ := mapE_exists_ok (f := d.globSource kg) (l := d.allSources.filter (globMatch sg)) (fun s hs => by
      obtain ⟨o, -, ho⟩ := mapE_ok_all hm ((hmem s).2 hs)
      obtain ⟨v, v', -, e, -⟩ := same_globSource h hk hl ho
      exact ⟨_, e⟩)
    simp only [hm']
    -- the entries for one source
    have hent : ∀ s ∈ c.allSources.filter (globMatch sg), ∃ v v', c.globSource kg s = .ok (Option.map (fun x => (s, x)) v) ∧
        d.globSource kg s = .ok (Option.map (fun x => (s, x)) v') ∧ SameChoice v v' := by
      intro s hs
      obtain ⟨o, -, ho⟩ := mapE_ok_all hm hs
      obtain ⟨v, v', rfl, e, e'⟩ := same_globSource h hk hl ho
      exact ⟨v, v', ho, e, e'⟩
    have hin : ∀ s w, (s, w) ∈ rs.filterMap id ↔ s ∈ c.allSources.filter (globMatch sg) ∧
        ∃ v', c.globSource kg s = .ok (some (s, w)) ∧ d.globSource kg s = .ok (some (s, v')) ∧ SameChoice (some w) (some v') := by
      intro s w
      simp only [List.mem_filterMap, id]
      constructor
      · rintro ⟨o, ho, rfl⟩
        obtain ⟨s', hs', e⟩ := (mapE_mem hm).1 ho
        obtain ⟨v, v', e1, e2, e3⟩ := hent s' hs'
        rw [e] at e1
        cases v with
        | none => simp at e1
        | some x =>
          obtain ⟨rfl, rfl⟩ := Prod.mk.inj (Option.some.inj (Except.ok.inj e1))
          cases v' with
          | none => cases e3
          | some y => exact ⟨hs', y, e, e2, e3⟩
      · rintro ⟨hs, v', e1, -⟩
        exact ⟨_, (mapE_mem hm).2 ⟨s, hs, e1⟩, rfl⟩
    have hin' : ∀ s w, (s, w) ∈ rs'.filterMap id ↔ s ∈ c.allSources.filter (globMatch sg) ∧
        ∃ v, c.globSource kg s = .ok (some (s, v)) ∧ d.globSource kg s = .ok (some (s, w)) ∧ SameChoice (some v) (some w) := by
      intro s w
      simp only [List.mem_filterMap, id]
      constructor
      · rintro ⟨o, ho, rfl⟩
        obtain ⟨s', hs', e⟩ := (mapE_mem hm').1 ho
        obtain ⟨v, v', e1, e2, e3⟩ := hent s' ((hmem s').2 hs')
        rw [e] at e2
        cases v' with
        | none => simp at e2
        | some x =>
          obtain ⟨rfl, rfl⟩ := Prod.mk.inj (Option.some.inj (Except.ok.inj e2))
          cases v with
          | none => cases e3
          | some y => exact ⟨(hmem _).2 hs', y, e1, e, e3⟩
      · rintro ⟨hs, v', -, e1, -⟩
        exact ⟨_, (mapE_mem hm').2 ⟨s, (hmem s).1 hs, e1⟩, rfl⟩
    have hsame : SameItems (rs.filterMap id) (rs'.filterMap id) := by
      refine ⟨fun s => ?_, fun s => ?_, fun s k => ?_⟩
      · rw [hin, hin']
        constructor
        · rintro ⟨hs, v', e1, e2, e3⟩; cases e3; exact ⟨hs, none, e1, e2, .allKeys⟩
        · rintro ⟨hs, v', e1, e2, e3⟩; cases e3; exact ⟨hs, none, e1, e2, .allKeys⟩
      · constructor
        · rintro ⟨w, hw⟩
          obtain ⟨hs, v', e1, e2, e3⟩ := (hin s w).1 hw
          exact ⟨v', (hin' s v').2 ⟨hs, w, e1, e2, e3⟩⟩
        · rintro ⟨w, hw⟩
          obtain ⟨hs, v', e1, e2, e3⟩ := (hin' s w).1 hw
          exact ⟨v', (hin s v').2 ⟨hs, w, e1, e2, e3⟩⟩
      · constructor
        · rintro ⟨ks, hw, hk⟩
          obtain ⟨hs, v', e1, e2, e3⟩ := (hin s _).1 hw
          cases e3 with
          | keys hkk => exact ⟨_, (hin' s _).2 ⟨hs, _, e1, e2, .keys hkk⟩, (hkk k).1 hk⟩
        · rintro ⟨ks, hw, hk⟩
          obtain ⟨hs, v', e1, e2, e3⟩ := (hin' s _).1 hw
          cases e3 with
          | keys hkk => exact ⟨_, (hin s _).2 ⟨hs, _, e1, e2, .keys hkk⟩, (hkk k).2 hk⟩
    have hemp : (rs.filterMap id).isEmpty = (rs'.filterMap id).isEmpty := by
      rw [Bool.eq_iff_iff, List.isEmpty_iff, List.isEmpty_iff, List.eq_nil_iff_forall_not_mem, List.eq_nil_iff_forall_not_mem]
      constructor
      · rintro he ⟨s, w⟩ hx
        obtain ⟨w', hw'⟩ := (hsame.any s).2 ⟨w, hx⟩
        exact he _ hw'
      · rintro he ⟨s, w⟩ hx
        obtain ⟨w', hw'⟩ := (hsame.any s).1 ⟨w, hx⟩
        exact he _ hw'
    rw [← hemp]
    by_cases he : (rs.filterMap id).isEmpty = true
    · rw [if_pos he] at hS; simp at hS
    · rw [if_neg he] at hS ⊢
      obtain rfl := Except.ok.inj hS
      exact ⟨_, rfl, hsame⟩

theorem same_expandSelection {c d : DC V} (h : SameContents c d) (hk : SameKeys c.files) (hl : ListsKeys c.files) {sel : SelArg}
    {S : Selection} (hS : c.expandSelection sel = .ok S) : ∃ S', d.expandSelection sel = .ok S' ∧ SameSelection S S' := by
  cases sel with
  | other => obtain rfl := Except.ok.inj hS; exact ⟨[], rfl, fun _ => .absent⟩
  | dict l =>
    have : c.expandDictItem = d.expandDictItem := by
      funext res kv
      unfold DC.expandDictItem
      simp only [same_allSources h]
    unfold DC.expandSelection at hS ⊢
    simp only at hS ⊢
    rw [← this]
    exact ⟨S, hS, fun _ => sameChoice_refl _⟩
  | globs l =>
    unfold DC.expandSelection at hS ⊢
    simp only at hS ⊢
    cases hm : mapE (fun sk => c.selectGlob sk.1 sk.2) l with
    | error e => simp [hm] at hS
    | ok sels =>
      simp only [hm] at hS
      obtain rfl := Except.ok.inj hS
      have : ∀ (l : List (Str × Str)) sels, mapE (fun sk => c.selectGlob sk.1 sk.2) l = .ok sels →
          ∃ sels', mapE (fun sk => d.selectGlob sk.1 sk.2) l = .ok sels' ∧ SameItems sels.flatten sels'.flatten := by
        intro l
        induction l with
        | nil => intro sels h; obtain rfl := Except.ok.inj h; exact ⟨[], rfl, ⟨fun _ => Iff.rfl, fun _ => Iff.rfl, fun _ _ => Iff.rfl⟩⟩
        | cons a l ih =>
          intro sels hs
          obtain ⟨b, bs, h1, h2, rfl⟩ := mapE_cons_ok.1 hs
          obtain ⟨bs', h3, h4⟩ := ih bs h2
          obtain ⟨b', h5, h6⟩ := same_selectGlob h hk hl h1
          exact ⟨b' :: bs', mapE_cons_ok.2 ⟨b', bs', h5, h3, rfl⟩, by
            rw [List.flatten_cons, List.flatten_cons]; exact sameItems_append h6 h4⟩
      obtain ⟨sels', h1, h2⟩ := this l sels hm
      exact ⟨_, by rw [h1], same_unionSelections h2⟩

theorem same_filesFor {c d : DC V} (h : SameContents c d) {S S' : Selection} (hS : SameSelection S S') :
    (c.filesFor S).Perm (d.filesFor S') := by
  unfold DC.filesFor
  have : (fun f : FileAccess V => f.allSources.any (fun s => s ∈ S.keys)) = fun f => f.allSources.any (fun s => s ∈ S'.keys) := by
    funext f
    simp only [sameSelection_keys hS]
  rw [this]
  exact h.files.filter _

/-- C130. Selecting gives the same contents again. -/
theorem same_select {c d c' : DC V} (h : SameContents c d) (hk : SameKeys c.files) (hl : ListsKeys c.files) {sel : SelArg}
    (hc : c.select sel = .ok c') : ∃ d', d.select sel = .ok d' ∧ SameContents c' d' := by
  obtain ⟨S, h1, h2, rfl⟩ := select_ok_iff.1 hc
  obtain ⟨S', h3, h4⟩ := same_expandSelection h hk hl h1
  exact ⟨_, select_ok_iff.2 ⟨S', h3, (noConflict_perm (same_filesFor h h4)).1 h2, rfl⟩, same_filesFor h h4, h.trains, h4⟩

theorem deselect_removed {c : DC V} {desel : Selection} {s : Str} (hs : desel.get? s = some none) :
    ∀ {sel : Selection} {items : List (Option (Str × Option (List Str)))}, mapE (c.deselectItem desel) sel = .ok items →
    Dict.get? (items.filterMap id) s = none := by
  intro sel items hi
  apply get?_of_none
  intro w hw
  obtain ⟨o, ho, rfl⟩ := List.mem_filterMap.1 hw
  obtain ⟨kv, -, hkv⟩ := (mapE_mem hi).1 ho
  unfold DC.deselectItem at hkv
  split at hkv
  · next hn =>
    obtain rfl := Option.some.inj (Except.ok.inj hkv)
    simp [hs] at hn
  · simp at hkv
  · next dk hn =>
    split at hkv
    · simp at hkv
    · obtain ⟨e, -⟩ := Prod.mk.inj (Option.some.inj (Except.ok.inj hkv))
      rw [← e, hn] at hs
      simp at hs

theorem deselectItem_fst {c : DC V} {desel : Selection} {kv x : Str × Option (List Str)}
    (h : c.deselectItem desel kv = .ok (some x)) : x.1 = kv.1 := by
  unfold DC.deselectItem at h
  split at h
  · rw [Option.some.inj (Except.ok.inj h)]
  · simp at h
  · split at h
    · simp at h
    · rw [← Option.some.inj (Except.ok.inj h)]

theorem deselectItem_none {c : DC V} {desel : Selection} {kv : Str × Option (List Str)}
    (h : c.deselectItem desel kv = .ok none) : desel.get? kv.1 = some none := by
  unfold DC.deselectItem at h
  split at h
  · simp at h
  · assumption
  · split at h <;> simp at h

theorem deselected_get? {c : DC V} {desel : Selection} : ∀ {sel : Selection} {items : List (Option (Str × Option (List Str)))},
    mapE (c.deselectItem desel) sel = .ok items → ∀ s,
    (sel.get? s = none → Dict.get? (items.filterMap id) s = none) ∧
    ∀ v, sel.get? s = some v → ∃ o, c.deselectItem desel (s, v) = .ok o ∧ Dict.get? (items.filterMap id) s = o.map Prod.snd := by
  intro sel
  induction sel with
  | nil => intro items hi s; obtain rfl := Except.ok.inj hi; exact ⟨fun _ => rfl, fun v hv => by simp at hv⟩
  | cons kv sel ih =>
    intro items hi s
    obtain ⟨b, bs, h1, h2, rfl⟩ := mapE_cons_ok.1 hi
    obtain ⟨k', v'⟩ := kv
    have hrest := ih h2 s
    rw [Dict.get?_cons]
    by_cases hk : k' = s
    · subst hk
      rw [if_pos rfl]
      refine ⟨fun h => by simp at h, fun v hv => ?_⟩
      obtain rfl := Option.some.inj hv
      refine ⟨b, h1, ?_⟩
      cases b with
      | none => exact deselect_removed (deselectItem_none h1) hi
      | some x =>
        obtain ⟨x1, x2⟩ := x
        have hx : x1 = k' := deselectItem_fst h1
        subst hx
        show Dict.get? ((x1, x2) :: bs.filterMap id) x1 = _
        rw [Dict.get?_cons, if_pos rfl]
        rfl
    · rw [if_neg hk]
      have : Dict.get? ((b :: bs).filterMap id) s = Dict.get? (bs.filterMap id) s := by
        cases b with
        | none => rfl
        | some x =>
          obtain ⟨x1, x2⟩ := x
          have hx : x1 = k' := deselectItem_fst h1
          subst hx
          show Dict.get? ((x1, x2) :: bs.filterMap id) s = _
          rw [Dict.get?_cons, if_neg hk]
      rw [this]
      exact hrest

/-- C130. So does deselecting. -/
theorem same_deselect {c d c' : DC V} (h : SameContents c d) (hk : SameKeys c.files) (hl : ListsKeys c.files) {sel : SelArg}
    (hc : c.deselect sel = .ok c') : ∃ d', d.deselect sel = .ok d' ∧ SameContents c' d' := by
  obtain ⟨D, items, h1, h2, h3, rfl⟩ := deselect_ok_iff.1 hc
  obtain ⟨D', h4, h5⟩ := same_expandSelection h hk hl h1
  -- one item
  have hitem : ∀ s v v' o, SameChoice (some v) (some v') → c.selection.get? s = some v → c.deselectItem D (s, v) = .ok o →
      ∃ o', d.deselectItem D' (s, v') = .ok o' ∧ SameChoice (o.map Prod.snd) (o'.map Prod.snd) := by
    intro s v v' o hvv hsv ho
    have hDs := h5 s
    unfold DC.deselectItem at ho ⊢
    simp only at ho ⊢
    cases hD : D.get? s with
    | none =>
      rw [hD] at hDs ho
      cases hD' : D'.get? s with
      | none => obtain rfl := Except.ok.inj ho; exact ⟨_, rfl, hvv⟩
      | some w => rw [hD'] at hDs; cases hDs
    | some w =>
      rw [hD] at hDs ho
      cases hD' : D'.get? s with
      | none => rw [hD'] at hDs; cases hDs
      | some w' =>
        rw [hD'] at hDs
        cases hDs with
        | allKeys => obtain rfl := Except.ok.inj ho; exact ⟨_, rfl, .absent⟩
        | @keys a b hab =>
          cases hvv with
          | @keys x y hxy =>
            obtain rfl := Except.ok.inj ho
            exact ⟨_, rfl, .keys (fun k => by simp only [List.mem_filter, hxy, hab])⟩
          | allKeys =>
            simp only at ho ⊢
            cases hks : c.keysForSource s with
            | error e => simp [hks] at ho
            | ok ks =>
              obtain ⟨ks', hks', hkk⟩ := same_keys h hk hl hks
              simp only [hks] at ho
              obtain rfl := Except.ok.inj ho
              exact ⟨some (s, some (ks'.filter (fun k => k ∉ b))), by rw [hks'],
                .keys (fun k => by simp only [List.mem_filter, hkk, hab])⟩
  obtain ⟨items', h6⟩ := mapE_exists_ok (f := d.deselectItem D') (l := d.selection) (fun kv hkv => by
    obtain ⟨s, w⟩ := kv
    obtain ⟨v', hv'⟩ := Dict.mem_keys_iff.1 (mem_keys_of_mem hkv)
    have hsel := h.selection s
    rw [hv'] at hsel
    cases hv : c.selection.get? s with
    | none => rw [hv] at hsel; cases hsel
    | some v =>
      rw [hv] at hsel
      obtain ⟨o, ho, -⟩ := ((deselected_get? h2) s).2 v hv
      obtain ⟨o', ho', -⟩ := hitem s v v' o hsel hv ho
      -- the first entry for the source can be processed: so can this one
      unfold DC.deselectItem at ho' ⊢
      simp only at ho' ⊢
      cases hD' : D'.get? s with
      | none => exact ⟨_, rfl⟩
      | some x =>
        cases x with
        | none => exact ⟨_, rfl⟩
        | some dk =>
          cases w with
          | some ks => exact ⟨_, rfl⟩
          | none =>
            simp only [hD'] at ho' ⊢
            cases v' with
            | none =>
              simp only at ho'
              cases hks : d.keysForSource s with
              | error e => simp [hks] at ho'
              | ok ks => exact ⟨_, rfl⟩
            | some ks =>
              have : d.keysForSource s = .ok ks.dedup := by unfold DC.keysForSource; rw [hv']
              rw [this]
              exact ⟨_, rfl⟩)
  have hsame : SameSelection (items.filterMap id) (items'.filterMap id) := by
    intro s
    have hsel := h.selection s
    cases hv : c.selection.get? s with
    | none =>
      rw [hv] at hsel
      cases hv' : d.selection.get? s with
      | none => rw [((deselected_get? h2) s).1 hv, ((deselected_get? h6) s).1 hv']; exact .absent
      | some w => rw [hv'] at hsel; cases hsel
    | some v =>
      rw [hv] at hsel
      cases hv' : d.selection.get? s with
      | none => rw [hv'] at hsel; cases hsel
      | some w =>
        rw [hv'] at hsel
        obtain ⟨o, ho, e⟩ := ((deselected_get? h2) s).2 v hv
        obtain ⟨o', ho', e'⟩ := ((deselected_get? h6) s).2 w hv'
        obtain ⟨o2, ho2, hs2⟩ := hitem s v w o hsel hv ho
        rw [ho'] at ho2
        obtain rfl := Except.ok.inj ho2
        rw [e, e']
        exact hs2
  exact ⟨_, deselect_ok_iff.2 ⟨D', items', h4, h6, (noConflict_perm (same_filesFor h hsame)).1 h3, rfl⟩,
    same_filesFor h hsame, h.trains, hsame⟩

/-- C130. And selecting trains. -/
theorem same_selectTrains {c d c' : DC V} (h : SameContents c d) {tr : TrainRange} (hc : c.selectTrains tr = .ok c') :
    ∃ d', d.selectTrains tr = .ok d' ∧ SameContents c' d' := by
  unfold DC.selectTrains at hc ⊢
  rw [← h.trains]
  cases hs : selectTrainIds c.trainIds tr with
  | error e => simp [hs] at hc
  | ok new =>
    simp only [hs] at hc ⊢
    rw [make_ok_iff] at hc
    obtain ⟨h1, rfl⟩ := hc
    have hp := h.files.filter (fun f => f.trainIds.any (fun t => t ∈ new))
    exact ⟨_, make_ok_iff.2 ⟨(noConflict_perm hp).1 h1, rfl⟩, hp, rfl, h.selection⟩

theorem narrow_files {c c' : DC V} {call : NarrowCall} (h : call.run c = .ok c') : c'.files.Sublist c.files := by
  cases call with
  | select sel => obtain ⟨S, -, -, rfl⟩ := select_ok_iff.1 h; exact List.filter_sublist
  | deselect sel => obtain ⟨S, items, -, -, -, rfl⟩ := deselect_ok_iff.1 h; exact List.filter_sublist
  | selectTrains tr =>
    have h : c.selectTrains tr = .ok c' := h
    unfold DC.selectTrains at h
    cases hs : selectTrainIds c.trainIds tr with
    | error e => simp [hs] at h
    | ok new =>
      simp only [hs] at h
      obtain ⟨-, rfl⟩ := make_ok_iff.1 h
      exact List.filter_sublist

/-- C130. Whatever calls of `select`, `deselect` and `select_trains` are made: they go through for one order of the files if they do for
another, and the contents stay the same. -/
theorem same_history {c d : DC V} (h : SameContents c d) (hc : NoConflict c.files) (hk : SameKeys c.files) (hl : ListsKeys c.files)
    (calls : List NarrowCall) :
    (∀ c', runCalls c calls = .ok c' → NoConflict c'.files ∧ SameKeys c'.files ∧ ListsKeys c'.files ∧
      ∃ d', runCalls d calls = .ok d' ∧ SameContents c' d') ∧
    ((∃ e, runCalls c calls = .error e) ↔ ∃ e, runCalls d calls = .error e) := by
  have key : ∀ (calls : List NarrowCall) {c d : DC V}, SameContents c d → NoConflict c.files → SameKeys c.files → ListsKeys c.files →
      ∀ c', runCalls c calls = .ok c' → NoConflict c'.files ∧ SameKeys c'.files ∧ ListsKeys c'.files ∧
        ∃ d', runCalls d calls = .ok d' ∧ SameContents c' d' := by
    intro calls
    induction calls with
    | nil => intro c d h hc hk hl c' hr; obtain rfl := Except.ok.inj hr; exact ⟨hc, hk, hl, d, rfl, h⟩
    | cons call calls ih =>
      intro c d h hc hk hl c' hr
      unfold runCalls at hr
      cases hrun : call.run c with
      | error e => simp [hrun] at hr
      | ok c1 =>
        simp only [hrun] at hr
        have hsub := narrow_files hrun
        have hex : ∃ d1, call.run d = .ok d1 ∧ SameContents c1 d1 := by
          cases call with
          | select sel => exact same_select h hk hl hrun
          | deselect sel => exact same_deselect h hk hl hrun
          | selectTrains tr => exact same_selectTrains h hrun
        obtain ⟨d1, h1, h2⟩ := hex
        unfold runCalls
        simp only [h1]
        exact ih h2 (hc.sublist hsub) (fun f hf g hg => hk f (hsub.mem hf) g (hsub.mem hg)) (fun f hf => hl f (hsub.mem hf)) c' hr
  refine ⟨key calls h hc hk hl, ?_⟩
  have hback := key calls (sameContents_symm h) ((noConflict_perm h.files).1 hc) (sameKeys_perm h.files hk) (listsKeys_perm h.files hl)
  constructor
  · rintro ⟨e, he⟩
    cases hd : runCalls d calls with
    | error e' => exact ⟨e', rfl⟩
    | ok d' =>
      obtain ⟨-, -, -, c', hc', -⟩ := hback d' hd
      rw [he] at hc'
      simp at hc'
  · rintro ⟨e, he⟩
    cases hcc : runCalls c calls with
    | error e' => exact ⟨e', rfl⟩
    | ok c' =>
      obtain ⟨-, -, -, d', hd', -⟩ := key calls h hc hk hl c' hcc
      rw [he] at hd'
      simp at hd'

theorem sameItems_of_selection {a b : Selection} (ha : a.keys.Nodup) (hb : b.keys.Nodup) (h : SameSelection a b) : SameItems a b := by
  have e : ∀ {x : Selection}, x.keys.Nodup → ∀ s w, (s, w) ∈ x ↔ x.get? s = some w := fun hx s w =>
    (Dict.get?_eq_some_iff hx).symm
  have one : ∀ {a b : Selection}, SameSelection a b → ∀ s w, a.get? s = some w → ∃ w', b.get? s = some w' ∧ SameChoice (some w) (some w') := by
    intro a b h s w hw
    have hs := h s
    rw [hw] at hs
    cases hb : b.get? s with
    | none => rw [hb] at hs; cases hs
    | some w' => rw [hb] at hs; exact ⟨w', rfl, hs⟩
  have back : SameSelection b a := fun s => sameChoice_symm (h s)
  refine ⟨fun s => ?_, fun s => ?_, fun s k => ?_⟩
  · rw [e ha, e hb]
    constructor
    · intro hw; obtain ⟨w', h1, h2⟩ := one h s none hw; cases h2; exact h1
    · intro hw; obtain ⟨w', h1, h2⟩ := one back s none hw; cases h2; exact h1
  · simp only [e ha, e hb]
    exact ⟨fun ⟨w, hw⟩ => let ⟨w', h1, _⟩ := one h s w hw; ⟨w', h1⟩, fun ⟨w, hw⟩ => let ⟨w', h1, _⟩ := one back s w hw; ⟨w', h1⟩⟩
  · simp only [e ha, e hb]
    constructor
    · rintro ⟨ks, hw, hk⟩
      obtain ⟨w', h1, h2⟩ := one h s _ hw
      cases h2 with
      | keys hkk => exact ⟨_, h1, (hkk k).1 hk⟩
    · rintro ⟨ks, hw, hk⟩
      obtain ⟨w', h1, h2⟩ := one back s _ hw
      cases h2 with
      | keys hkk => exact ⟨_, h1, (hkk k).1 hk⟩

/-- C130. The union of collections which have the same contents, in any orders, has the same contents. -/
theorem same_union {o o' : List (FileAccess V) → List (FileAccess V)} (ho : IsOrder o) (ho' : IsOrder o')
    {c c' u : DC V} {others others' : List (DC V)} (hs : List.Forall₂ SameContents (c :: others) (c' :: others'))
    (hn : NamesAgree (c :: others)) (hnd : ∀ x ∈ c :: others, x.selection.keys.Nodup) (hnd' : ∀ x ∈ c' :: others', x.selection.keys.Nodup)
    (hu : c.union o others = .ok u) : ∃ u', c'.union o' others' = .ok u' ∧ SameContents u u' := by
  have corr : ∀ {l l' : List (DC V)}, List.Forall₂ SameContents l l' → ∀ x' ∈ l', ∃ x ∈ l, SameContents x x' := by
    intro l l' hl
    induction hl with
    | nil => simp
    | cons h _ ih =>
      intro x' hx'
      rcases List.mem_cons.1 hx' with rfl | hx'
      · exact ⟨_, by simp, h⟩
      · obtain ⟨x, h1, h2⟩ := ih x' hx'; exact ⟨x, by simp [h1], h2⟩
  have corr' : ∀ {l l' : List (DC V)}, List.Forall₂ SameContents l l' → ∀ x ∈ l, ∃ x' ∈ l', SameContents x x' := by
    intro l l' hl
    induction hl with
    | nil => simp
    | cons h _ ih =>
      intro x' hx'
      rcases List.mem_cons.1 hx' with rfl | hx'
      · exact ⟨_, by simp, h⟩
      · obtain ⟨x, h1, h2⟩ := ih x' hx'; exact ⟨x, by simp [h1], h2⟩
  have hn' : NamesAgree (c' :: others') := by
    intro a ha b hb f hf g hg
    obtain ⟨a0, ha0, hsa⟩ := corr hs a ha
    obtain ⟨b0, hb0, hsb⟩ := corr hs b hb
    exact hn a0 ha0 b0 hb0 f (hsa.files.mem_iff.2 hf) g (hsb.files.mem_iff.2 hg)
  have hmem : ∀ f, (∃ x ∈ c :: others, f ∈ x.files) ↔ ∃ x ∈ c' :: others', f ∈ x.files := by
    intro f
    constructor
    · rintro ⟨x, hx, hf⟩; obtain ⟨x', hx', hsx⟩ := corr' hs x hx; exact ⟨x', hx', hsx.files.mem_iff.1 hf⟩
    · rintro ⟨x, hx, hf⟩; obtain ⟨x', hx', hsx⟩ := corr hs x hx; exact ⟨x', hx', hsx.files.mem_iff.2 hf⟩
  have hp : (o (dedupFiles ((c :: others).flatMap DC.files))).Perm (o' (dedupFiles ((c' :: others').flatMap DC.files))) := by
    rw [List.perm_ext_iff_of_nodup ((union_names_nodup ho _).of_map _) ((union_names_nodup ho' _).of_map _)]
    intro f
    rw [mem_union_files ho hn, mem_union_files ho' hn', hmem]
  unfold DC.union at hu ⊢
  dsimp only at hu ⊢
  rw [make_ok_iff] at hu
  obtain ⟨h1, rfl⟩ := hu
  refine ⟨_, make_ok_iff.2 ⟨(noConflict_perm hp).1 h1, rfl⟩, hp, ?_, ?_⟩
  · refine eq_of_pairwise_lt (sortedSet_pairwise _) (sortedSet_pairwise _) (fun t => ?_)
    show t ∈ sortedSet ((c :: others).flatMap DC.trainIds) ↔ t ∈ sortedSet ((c' :: others').flatMap DC.trainIds)
    rw [mem_sortedSet, mem_sortedSet, List.mem_flatMap, List.mem_flatMap]
    constructor
    · rintro ⟨x, hx, hf⟩; obtain ⟨x', hx', hsx⟩ := corr' hs x hx; exact ⟨x', hx', hsx.trains ▸ hf⟩
    · rintro ⟨x, hx, hf⟩; obtain ⟨x', hx', hsx⟩ := corr hs x hx; exact ⟨x', hx', hsx.trains ▸ hf⟩
  · apply same_unionSelections
    have : ∀ {l l' : List (DC V)}, List.Forall₂ SameContents l l' → (∀ x ∈ l, x.selection.keys.Nodup) →
        (∀ x ∈ l', x.selection.keys.Nodup) → SameItems (l.map DC.selection).flatten (l'.map DC.selection).flatten := by
      intro l l' hl
      induction hl with
      | nil => intro _ _; exact ⟨fun _ => Iff.rfl, fun _ => Iff.rfl, fun _ _ => Iff.rfl⟩
      | cons h _ ih =>
        intro h1 h2
        rw [List.map_cons, List.map_cons, List.flatten_cons, List.flatten_cons]
        exact sameItems_append (sameItems_of_selection (h1 _ (by simp)) (h2 _ (by simp)) h.selection)
          (ih (fun x hx => h1 x (by simp [hx])) (fun x hx => h2 x (by simp [hx])))
    exact this hs hnd hnd'

/-! ### Examples -/

/-- The files of the example in another order. -/
def exWriteRev : DC Nat := { exWrite with files := exWrite.files.reverse, selection := exWrite.selection.reverse }

theorem exWriteRev_same : SameContents exWrite exWriteRev := by
  refine ⟨(List.reverse_perm _).symm, rfl, fun s => ?_⟩
  have e1 : exWrite.selection.get? s = if ch! "D:o" = s then some none else if ch! "C" = s then some none else none := by
    show Dict.get? [(ch! "D:o", none), (ch! "C", none)] s = _
    rw [Dict.get?_cons, Dict.get?_cons, Dict.get?_nil]
  have e2 : exWriteRev.selection.get? s = if ch! "C" = s then some none else if ch! "D:o" = s then some none else none := by
    show Dict.get? [(ch! "C", none), (ch! "D:o", none)] s = _
    rw [Dict.get?_cons, Dict.get?_cons, Dict.get?_nil]
  rw [e1, e2]
  by_cases h1 : ch! "D:o" = s
  · subst h1; exact .allKeys
  · by_cases h2 : ch! "C" = s
    · subst h2; exact .allKeys
    · rw [if_neg h1, if_neg h2, if_neg h2, if_neg h1]; exact .absent

theorem exWrite_files : NoConflict exWrite.files ∧ SameKeys exWrite.files ∧ ListsKeys exWrite.files := by
  have hinst : ∀ n ts f k r s, Holds (exInst n ts f k r) s → s = ch! "D:o" := by
    intro n ts f k r s h
    rcases h with h | h
    · exact absurd h (List.not_mem_nil)
    · exact List.mem_singleton.1 h
  have hctrl : ∀ n ts f k r s, Holds (exCtrl n ts f k r) s → s = ch! "C" := by
    intro n ts f k r s h
    rcases h with h | h
    · exact List.mem_singleton.1 h
    · exact absurd h (List.not_mem_nil)
  have hk : ∀ f ∈ exWrite.files, ∀ s, Holds f s → (s = ch! "D:o" ∧ f.getKeys s = .ok [ch! "data.y"]) ∨
      (s = ch! "C" ∧ f.getKeys s = .ok [ch! "x.value"]) := by
    intro f hf s hh
    rcases List.mem_cons.1 hf with rfl | hf
    · obtain rfl := hinst _ _ _ _ _ _ hh; exact .inl ⟨rfl, by decide⟩
    rcases List.mem_cons.1 hf with rfl | hf
    · obtain rfl := hinst _ _ _ _ _ _ hh; exact .inl ⟨rfl, by decide⟩
    · obtain rfl := List.mem_singleton.1 hf
      obtain rfl := hctrl _ _ _ _ _ _ hh; exact .inr ⟨rfl, by decide⟩
  refine ⟨hasConflicts_false.1 (by decide), fun f hf g hg s hfs hgs k => ?_, fun f hf s hs => ?_⟩
  · unfold FileHasKey
    rcases hk f hf s hfs with ⟨rfl, e1⟩ | ⟨rfl, e1⟩ <;> rcases hk g hg _ hgs with ⟨e, e2⟩ | ⟨e, e2⟩
    · rw [e1, e2]
    · exact absurd e (by decide)
    · exact absurd e (by decide)
    · rw [e1, e2]
  · rcases hk f hf s hs with ⟨-, e⟩ | ⟨-, e⟩ <;> exact ⟨_, e⟩

/-- The example meets the hypotheses of all the theorems above, also after selecting trains and deselecting. -/
example : exWriteRev.getArray (ch! "D:o") (ch! "data.y") id = .ok ⟨[10, 11, 12, 20], some [1, 1, 2, 3], [], 0⟩ ∧
    exWriteRev.getDataCounts (ch! "D:o") (ch! "data.y") = .ok [(1, 2), (2, 1), (3, 1)] ∧
    exWriteRev.getSeries (ch! "C") (ch! "x.value") = .ok [⟨1, none, 31⟩, ⟨2, none, 32⟩, ⟨3, none, 33⟩] ∧
    (∃ m', exWriteRev.trainFromId 1 = .ok (1, m') ∧ ∃ m, exWrite.trainFromId 1 = .ok (1, m) ∧ SameTrain m m') ∧
    ∃ d', runCalls exWriteRev [.selectTrains (.idList [2, 3]), .deselect (.globs [(ch! "C", ch! "*")])] = .ok d' ∧
      d'.getArray (ch! "D:o") (ch! "data.y") id = .ok ⟨[12, 20], some [2, 3], [], 0⟩ := by
  obtain ⟨hc, hk, hl⟩ := exWrite_files
  refine ⟨same_array exWriteRev_same hc hk (by decide), same_counts exWriteRev_same hc hk (by decide),
    same_series exWriteRev_same hc hk (by decide), ?_, ?_⟩
  · have : ∃ m, exWrite.trainFromId 1 = .ok (1, m) := ⟨[(ch! "C", ⟨ch! "C", 1, [(ch! "x.value", .one 31)]⟩),
      (ch! "D:o", ⟨ch! "D:o", 1, [(ch! "data.y", .many [10, 11])]⟩)], by decide⟩
    obtain ⟨m, hm⟩ := this
    obtain ⟨m', h1, h2⟩ := same_train exWriteRev_same hc hk hl hm
    exact ⟨m', h1, m, hm, h2⟩
  · obtain ⟨c', hc'⟩ : ∃ c', runCalls exWrite [.selectTrains (.idList [2, 3]), .deselect (.globs [(ch! "C", ch! "*")])] = .ok c' ∧
        c'.getArray (ch! "D:o") (ch! "data.y") id = .ok ⟨[12, 20], some [2, 3], [], 0⟩ :=
      ⟨⟨[exInst (ch! "a") [1, 2] [0, 2] [2, 1] [10, 11, 12], exInst (ch! "b") [3, 4] [0, 1] [1, 0] [20]],
        [(ch! "D:o", none)], [2, 3], false⟩, by decide, by decide⟩
    obtain ⟨h1, h2, h3, d', h4, h5⟩ := (same_history exWriteRev_same hc hk hl _).1 c' hc'.1
    exact ⟨d', h4, same_array h5 h1 h2 hc'.2⟩

/-- A file like `exInst`, with another key. -/
def exOtherKey (name : Str) (tids firsts counts rows : List Nat) : FileAccess Nat :=
  ⟨name, tids, [], [ch! "D:o"],
    { trainId := some tids, version := some (ch! "1.0"), sources05 := none,
      sources10 := some [ch! "INSTRUMENT/D:o/data"],
      index := [([ch! "INDEX", ch! "D:o", ch! "data"],
        ⟨some (firsts.map (BitVec.ofNat 64)), some (counts.map (BitVec.ofNat 64)), none, none⟩)],
      groups := [], datasets := [([ch! "INSTRUMENT", ch! "D:o", ch! "data", ch! "z"], ⟨rows, [], 0⟩)] }⟩

/-- C130. Where the files have different keys for a source, the order matters: the first file decides which keys are known. -/
theorem order_matters_wrong :
    let a := exInst (ch! "a") [1] [0] [1] [10]
    let b := exOtherKey (ch! "b") [2] [0] [1] [20]
    (DC.fromPaths [.ok a, .ok b]).map (fun c => c.keysForSource (ch! "D:o")) = .ok (.ok [ch! "data.y"]) ∧
    (DC.fromPaths [.ok b, .ok a]).map (fun c => c.keysForSource (ch! "D:o")) = .ok (.ok [ch! "data.z"]) := by
  decide

/-- Opening in two orders, where one file cannot be opened. -/
example : ∃ c d : DC Nat, DC.fromPaths [.ok (exInst (ch! "a") [1] [0] [1] [10]), .error .os, .ok (exInst (ch! "b") [2] [0] [1] [20])] = .ok c ∧
    DC.fromPaths [.ok (exInst (ch! "b") [2] [0] [1] [20]), .ok (exInst (ch! "a") [1] [0] [1] [10]), .error .os] = .ok d ∧
    SameContents c d := by
  have hp : List.Perm [(.ok (exInst (ch! "a") [1] [0] [1] [10]) : R (FileAccess Nat)), .error .os, .ok (exInst (ch! "b") [2] [0] [1] [20])]
      [.ok (exInst (ch! "b") [2] [0] [1] [20]), .ok (exInst (ch! "a") [1] [0] [1] [10]), .error .os] := by decide
  exact ⟨_, _, rfl, rfl, (open_order hp).2 _ _ rfl rfl⟩

end KD
