/-
C108: a run directory is the union of its files.
-/
import Verif.Props.SelectData
import Verif.Props.Construct

namespace KD

open Spec

variable {V : Type}

/-- The collection `H5File(path)` makes. -/
theorem fromPath_eq {f : FileAccess V} {d : DC V} : DC.fromPath (.ok f) = .ok d ↔
    d = ⟨[f], defaultSelection [f], sortedSet ([f].flatMap (fun f => f.trainIds)), true⟩ := by
  simp only [DC.fromPath, make_ok_iff]
  exact ⟨fun h => h.2, fun h => ⟨List.pairwise_singleton _ _, h⟩⟩

theorem defaultSelection_none {files : List (FileAccess V)} {s : Str} {v : Option (List Str)} :
    (defaultSelection files).get? s = some v ↔ v = none ∧ ∃ f ∈ files, Holds f s := by
  obtain ⟨h1, h2⟩ := defaultSelection_get? files s
  constructor
  · intro h
    have hh := h2.1 (Dict.mem_keys_iff.2 ⟨v, h⟩)
    rw [h1 hh] at h
    exact ⟨(Option.some.inj h).symm, hh⟩
  · rintro ⟨rfl, hh⟩; exact h1 hh

/-- C108. Opening a run directory gives the same as opening each of its readable files by itself and joining them: it succeeds
exactly when the union does, and then a user cannot tell the results apart. -/
theorem run_is_union_of_files {opened : List (R (FileAccess V))} {f : FileAccess V} {fs : List (FileAccess V)} {d : DC V}
    {ds : List (DC V)} {order : List (FileAccess V) → List (FileAccess V)} (ho : IsOrder order)
    (hopen : opened.filterMap Except.toOption = f :: fs) (hnames : ((f :: fs).map FileAccess.filename).Nodup)
    (hsingle : List.Forall₂ (fun f d => DC.fromPath (.ok f) = .ok d) (f :: fs) (d :: ds)) :
    (∀ e, DC.fromPaths opened = .error e ↔ d.union order ds = .error e) ∧
    (SameKeys (f :: fs) → ∀ c, DC.fromPaths opened = .ok c → ∃ u, d.union order ds = .ok u ∧ SameView c u) := by
  generalize hall : f :: fs = files at *
  generalize hdall : d :: ds = singles at *
  -- what the single collections hold
  have hmem : ∀ x ∈ singles, ∃ g ∈ files, x = ⟨[g], defaultSelection [g], sortedSet ([g].flatMap (fun f => f.trainIds)), true⟩ := by
    intro x hx
    obtain ⟨i, hi, rfl⟩ := List.getElem_of_mem hx
    have hl := hsingle.length_eq
    refine ⟨files[i], List.getElem_mem _, ?_⟩
    exact fromPath_eq.1 (List.forall₂_iff_get.1 hsingle |>.2 i (by omega) hi)
  have hmem' : ∀ g ∈ files, (⟨[g], defaultSelection [g], sortedSet ([g].flatMap (fun f => f.trainIds)), true⟩ : DC V) ∈ singles := by
    intro g hg
    obtain ⟨i, hi, rfl⟩ := List.getElem_of_mem hg
    have hl := hsingle.length_eq
    have e : singles[i] = _ := fromPath_eq.1 (List.forall₂_iff_get.1 hsingle |>.2 i hi (by omega))
    exact e ▸ List.getElem_mem (l := singles) (by omega)
  have hna : NamesAgree (d :: ds) := by
    rw [hdall]
    intro x hx y hy g hg g' hg' he
    obtain ⟨a, ha, rfl⟩ := hmem x hx
    obtain ⟨b, hb, rfl⟩ := hmem y hy
    obtain rfl := List.mem_singleton.1 hg
    obtain rfl := List.mem_singleton.1 hg'
    exact List.inj_on_of_nodup_map hnames ha hb he
  have hfm : ∀ g, (∃ x ∈ d :: ds, g ∈ x.files) ↔ g ∈ files := by
    rw [hdall]
    intro g
    constructor
    · rintro ⟨x, hx, hg⟩
      obtain ⟨a, ha, rfl⟩ := hmem x hx
      obtain rfl := List.mem_singleton.1 hg
      exact ha
    · intro hg; exact ⟨_, hmem' g hg, List.mem_singleton.2 rfl⟩
  have hconf : NoConflict files ↔ NoConflict (order (dedupFiles ((d :: ds).flatMap DC.files))) := by
    rw [union_noConflict_iff ho hna]
    constructor
    · intro h x hx y hy a ha b hb hne
      have ha' := (hfm a).1 ⟨x, hx, ha⟩
      have hb' := (hfm b).1 ⟨y, hy, hb⟩
      obtain ⟨i, hi, rfl⟩ := List.getElem_of_mem ha'
      obtain ⟨j, hj, rfl⟩ := List.getElem_of_mem hb'
      rcases Nat.lt_trichotomy i j with hlt | heq | hgt
      · exact List.pairwise_iff_getElem.1 h i j hi hj hlt
      · subst heq; exact absurd rfl hne
      · have := List.pairwise_iff_getElem.1 h j i hj hi hgt
        exact fun s t h1 h2 h3 h4 => this s t h2 h1 h4 h3
    · intro h
      refine List.pairwise_iff_getElem.2 (fun i j hi hj hlt => ?_)
      obtain ⟨x, hx, hxi⟩ := (hfm files[i]).2 (List.getElem_mem _)
      obtain ⟨y, hy, hyj⟩ := (hfm files[j]).2 (List.getElem_mem _)
      refine h x hx y hy _ hxi _ hyj (fun he => ?_)
      have := (List.nodup_iff_injective_get.1 hnames) (a₁ := ⟨i, by simpa using hi⟩) (a₂ := ⟨j, by simpa using hj⟩) (by simpa using he)
      simp at this
      omega
  have hne : files.isEmpty = false := by rw [← hall]; rfl
  have hfp : DC.fromPaths opened = DC.make files none none true := by
    unfold DC.fromPaths
    dsimp only
    rw [hopen, hne]
    rfl
  constructor
  · intro e
    rw [hfp, make_error_iff]
    unfold DC.union
    dsimp only
    rw [make_error_iff, hconf]
  · intro hk c h
    rw [hfp] at h
    obtain ⟨hnc, rfl⟩ := make_ok_iff.1 h
    have hu := union_ok_iff.2 ⟨hconf.1 hnc, rfl⟩
    refine ⟨_, hu, ?_⟩
    obtain ⟨t1, t2, -, f1⟩ := union_trains_files ho hna hu
    simp only [Option.getD_none]
    have hts : ∀ t, t ∈ sortedSet (files.flatMap (fun f => f.trainIds)) ↔ t ∈ sortedSet ((d :: ds).flatMap DC.trainIds) := by
      intro t
      rw [mem_sortedSet, mem_sortedSet, List.mem_flatMap, List.mem_flatMap]
      constructor
      · rintro ⟨g, hg, ht⟩
        exact ⟨_, hdall ▸ hmem' g hg, by simpa [mem_sortedSet] using ht⟩
      · rintro ⟨x, hx, ht⟩
        obtain ⟨g, hg, rfl⟩ := hmem x (hdall ▸ hx)
        exact ⟨g, hg, by simpa [mem_sortedSet] using ht⟩
    have hff : ∀ g, g ∈ files ↔ g ∈ order (dedupFiles ((d :: ds).flatMap DC.files)) := fun g => by
      rw [← hfm g]; exact (f1 g).symm
    have hsel : ∀ s v, (unionSelections ((d :: ds).map DC.selection)).get? s = some v ↔ v = none ∧ ∃ g ∈ files, Holds g s := by
      intro s v
      have hfl : ∀ v, (s, v) ∈ ((d :: ds).map DC.selection).flatten → ∃ g ∈ files, Holds g s := by
        intro v hv
        obtain ⟨sel, hsel, hm⟩ := List.mem_flatten.1 hv
        obtain ⟨x, hx, rfl⟩ := List.mem_map.1 hsel
        obtain ⟨g, hg, rfl⟩ := hmem x (hdall ▸ hx)
        obtain ⟨g', hg', hh⟩ := (defaultSelection_get? [g] s).2.1 (List.mem_map.2 ⟨_, hm, rfl⟩)
        obtain rfl := List.mem_singleton.1 hg'
        exact ⟨g', hg, hh⟩
      have hnone : (∃ g ∈ files, Holds g s) → (s, none) ∈ ((d :: ds).map DC.selection).flatten := by
        rintro ⟨g, hg, hh⟩
        refine List.mem_flatten.2 ⟨_, List.mem_map.2 ⟨_, hdall ▸ hmem' g hg, rfl⟩, ?_⟩
        exact Dict.mem_of_get? ((defaultSelection_get? [g] s).1 ⟨g, by simp, hh⟩)
      rw [unionSelections_get?]
      constructor
      · rintro ⟨⟨w, hw⟩, hv⟩
        have hh := hfl w hw
        rw [if_pos (hnone hh)] at hv
        exact ⟨hv, hh⟩
      · rintro ⟨rfl, hh⟩
        exact ⟨⟨none, hnone hh⟩, by rw [if_pos (hnone hh)]⟩
    have hav : ∀ s k, Available (⟨files, defaultSelection files, sortedSet (files.flatMap (fun f => f.trainIds)), true⟩ : DC V) s k ↔
        Available (⟨order (dedupFiles ((d :: ds).flatMap DC.files)), unionSelections ((d :: ds).map DC.selection),
          sortedSet ((d :: ds).flatMap DC.trainIds), false⟩ : DC V) s k := by
      intro s k
      constructor
      · refine available_of_equiv hk hff (fun s hs => ?_) (fun s ks hs => ?_)
        · exact (hsel s none).2 (defaultSelection_none.1 hs)
        · exact absurd (defaultSelection_none.1 hs).1 (by simp)
      · refine available_of_equiv (fun a ha b hb => hk a ((hff a).2 ha) b ((hff b).2 hb)) (fun g => (hff g).symm)
          (fun s hs => ?_) (fun s ks hs => ?_)
        · exact defaultSelection_none.2 ((hsel s none).1 hs)
        · exact absurd ((hsel s _).1 hs).1 (by simp)
    refine ⟨eq_of_pairwise_lt (sortedSet_pairwise _) t1 hts, hff, hav, fun instr s k a hv ha => ?_⟩
    refine same_files_same_data hnc (hconf.1 hnc) hv hff hts ?_ ha
    exact (hav s k).1 (checkField_ok.1 (getArray_ok ha).1)

/-- Two files of a run: the run directory and the union of the files. A third, unreadable file is skipped. -/
example : ∃ a b c u, DC.fromPath (.ok (exInst (ch! "a") [1, 3] [0, 2] [2, 1] [10, 11, 12])) = .ok a ∧
    DC.fromPath (.ok (exInst (ch! "b") [2, 4] [0, 1] [1, 0] [20])) = .ok b ∧
    DC.fromPaths [.ok (exInst (ch! "a") [1, 3] [0, 2] [2, 1] [10, 11, 12]), .error .os,
      .ok (exInst (ch! "b") [2, 4] [0, 1] [1, 0] [20])] = .ok c ∧
    a.union List.reverse [b] = .ok u ∧ u.trainIds = c.trainIds ∧
    SameKeys [exInst (ch! "a") [1, 3] [0, 2] [2, 1] [10, 11, 12], exInst (ch! "b") [2, 4] [0, 1] [1, 0] [20]] ∧
    c.getArray (ch! "D:o") (ch! "data.y") id = u.getArray (ch! "D:o") (ch! "data.y") id := by
  refine ⟨_, _, _, _, rfl, rfl, rfl, rfl, by decide, ?_, by decide⟩
  intro f hf g hg s h1 h2 key
  simp only [List.mem_cons, List.not_mem_nil, or_false] at hf hg
  rcases hf with rfl | rfl <;> rcases hg with rfl | rfl <;> exact Iff.rfl

end KD
