/-
Lemmas about writing a CXI file on disk: collecting mappings first and taking them when the dataset is made gives the same
as Model/Cxi.lean.
-/
import Verif.Model.CxiDisk
import Verif.Props.Cxi

namespace KD

variable {V W : Type}

theorem foldE_app {α σ : Type _} {f : σ → α → R σ} : ∀ {l m : List α} {s s' : σ}, foldE f s (l ++ m) = .ok s' ↔
    ∃ s1, foldE f s l = .ok s1 ∧ foldE f s1 m = .ok s'
  | [], m, s, s' => by simp [foldE]
  | a :: l, m, s, s' => by
    rw [List.cons_append, foldE, foldE]
    cases f s a with
    | error e => simp
    | ok s1 => exact foldE_app

theorem assign_cols {g g' : Grid W} {b : Bool} {start n col : Nat} {vals : List W} (h : g.assign b start n col vals = .ok g') :
    g'.cols = g.cols := by
  unfold Grid.assign at h
  repeat' split at h
  all_goals first
    | simp at h; done
    | (obtain rfl := Except.ok.inj h; rfl)

theorem apply_cols {g g' : Grid (Option V)} {m : VMap V} (h : m.apply g = .ok g') : g'.cols = g.cols := by
  unfold VMap.apply at h
  split at h
  · exact assign_cols h
  · simp at h

theorem applyAll_cols : ∀ {ms : List (VMap V)} {g g' : Grid (Option V)}, foldE VMap.apply g ms = .ok g' → g'.cols = g.cols
  | [], g, g', h => by obtain rfl := Except.ok.inj h; rfl
  | m :: ms, g, g', h => by
    rw [foldE] at h
    cases hm : VMap.apply g m with
    | error e => rw [hm] at h; simp at h
    | ok g1 => rw [hm] at h; rw [applyAll_cols h, apply_cols hm]

/-- The loop which fills the layout, and the one which collects mappings. -/
theorem planLoop_iff {ix : Dict Nat Nat} {perFrame : List Nat} {data : List V} {col : Nat} :
    ∀ {fuel start : Nat} {ts : List Nat} {g g' : Grid (Option V)}, g.cols = nModules →
      (mapLoop ix perFrame false (data.map some) col fuel start ts g = .ok g' ↔
        ∃ ms, planLoop ix perFrame data true col fuel start ts = .ok ms ∧ foldE VMap.apply g ms = .ok g') := by
  intro fuel
  induction fuel with
  | zero =>
    intro start ts g g' hg
    cases ts with
    | nil => simp [mapLoop, planLoop, foldE]
    | cons t ts => simp [mapLoop, planLoop]
  | succ fuel ih =>
    intro start ts g g' hg
    cases ts with
    | nil => simp [mapLoop, planLoop, foldE]
    | cons t ts =>
      rw [mapLoop, planLoop]
      cases ix.get? t with
      | none => simp
      | some tgt =>
        simp only
        by_cases h1 : (sl perFrame tgt (tgt + (t :: ts).length)).length ≠ (t :: ts).length
        · rw [if_pos h1, if_pos h1]; simp
        · rw [if_neg h1, if_neg h1]
          by_cases h2 : (sl perFrame tgt (tgt + (t :: ts).length)).head? ≠ some t
          · rw [if_pos h2, if_pos h2]; simp
          · rw [if_neg h2, if_neg h2]
            by_cases h3 : nModules ≤ col
            · rw [if_pos h3]
              have : ∀ n vals, g.assign false tgt n col vals = .error .index := by
                intro n vals
                unfold Grid.assign
                rw [if_pos (by omega)]
              rw [this]
              simp
            · rw [if_neg h3]
              rw [sl_map]
              generalize hn : nMatch (t :: ts) (sl perFrame tgt (tgt + (t :: ts).length)) = n
              have hap : ∀ g, VMap.apply g ⟨tgt, n, col, sl data start (start + n), true⟩ =
                  g.assign false tgt n col ((sl data start (start + n)).map some) := by
                intro g; unfold VMap.apply; rw [if_pos rfl]
              cases ha : g.assign false tgt n col ((sl data start (start + n)).map some) with
              | error e =>
                constructor
                · intro h; simp at h
                · rintro ⟨ms, hms, hf⟩
                  split at hms
                  · simp at hms
                  · obtain rfl := Except.ok.inj hms
                    rw [foldE, hap, ha] at hf
                    simp at hf
              | ok g1 =>
                simp only
                rw [ih (by rw [assign_cols ha, hg])]
                constructor
                · rintro ⟨ms, hms, hf⟩
                  refine ⟨_, by rw [hms], ?_⟩
                  rw [foldE, hap, ha]
                  exact hf
                · rintro ⟨ms, hms, hf⟩
                  split at hms
                  · simp at hms
                  · rename_i ms' hms'
                    obtain rfl := Except.ok.inj hms
                    rw [foldE, hap, ha] at hf
                    exact ⟨ms', hms', hf⟩

/-- Mappings of the wrong size cannot be taken. -/
theorem planLoop_misfit {ix : Dict Nat Nat} {perFrame : List Nat} {data : List V} {col fuel start t : Nat} {ts : List Nat}
    {ms : List (VMap V)} (h : planLoop ix perFrame data false col fuel start (t :: ts) = .ok ms) (g : Grid (Option V)) :
    foldE VMap.apply g ms = .error .value := by
  cases fuel with
  | zero => simp [planLoop] at h
  | succ fuel =>
    rw [planLoop] at h
    cases hx : ix.get? t with
    | none => rw [hx] at h; simp at h
    | some tgt =>
      rw [hx] at h
      simp only at h
      repeat' split at h
      all_goals first
        | simp at h; done
        | (obtain rfl := Except.ok.inj h
           rw [foldE]
           unfold VMap.apply
           simp)

/-- Collecting what to fold, then folding it. -/
theorem foldE_plan {α β σ : Type _} {F : σ → α → R σ} {P : α → R (List β)} {A : σ → β → R σ} {I : σ → Prop}
    (hA : ∀ s l s', I s → foldE A s l = .ok s' → I s')
    (h : ∀ s a s', I s → (F s a = .ok s' ↔ ∃ ms, P a = .ok ms ∧ foldE A s ms = .ok s')) :
    ∀ {l : List α} {s s' : σ}, I s → (foldE F s l = .ok s' ↔ ∃ ms, mapE P l = .ok ms ∧ foldE A s ms.flatten = .ok s') := by
  intro l
  induction l with
  | nil => intro s s' _; simp [foldE, mapE]
  | cons a l ih =>
    intro s s' hs
    rw [foldE]
    constructor
    · intro hf
      cases hfa : F s a with
      | error e => rw [hfa] at hf; simp at hf
      | ok s1 =>
        rw [hfa] at hf
        obtain ⟨m1, h1, h2⟩ := (h s a s1 hs).1 hfa
        obtain ⟨m2, h3, h4⟩ := (ih (hA _ _ _ hs h2)).1 hf
        refine ⟨m1 :: m2, by simp only [mapE, h1, h3], ?_⟩
        rw [List.flatten_cons, foldE_app]
        exact ⟨s1, h2, h4⟩
    · rintro ⟨ms, hm, hf⟩
      rw [mapE] at hm
      cases hp : P a with
      | error e => rw [hp] at hm; simp at hm
      | ok m1 =>
        rw [hp] at hm
        simp only at hm
        cases hq : mapE P l with
        | error e => rw [hq] at hm; simp at hm
        | ok m2 =>
          rw [hq] at hm
          obtain rfl := Except.ok.inj hm
          rw [List.flatten_cons, foldE_app] at hf
          obtain ⟨s1, h2, h4⟩ := hf
          have := (h s a s1 hs).2 ⟨m1, hp, h2⟩
          rw [this]
          exact (ih (hA _ _ _ hs h2)).2 ⟨m2, hq, h4⟩

theorem planSource_iff {d : Det V} {key : Str} {rowShape : List Nat} {x : Str × Nat} {g g' : Grid (Option V)}
    (hg : g.cols = nModules) :
    mapSource d false key (fun ds => if ds.rowShape.prod = rowShape.prod then .ok (ds.rows.map some) else .error .value) g x =
        .ok g' ↔
      ∃ ms, planSource d key rowShape x = .ok ms ∧ foldE VMap.apply g ms = .ok g' := by
  unfold mapSource planSource
  cases d.data.findDataChunks x.1 key with
  | error e => simp
  | ok chunks =>
    simp only
    rw [foldE_plan (P := planChunk d rowShape x.2) (A := VMap.apply) (I := fun g => g.cols = nModules)
      (fun s l s' hs h => by rw [applyAll_cols h, hs]) ?_ hg]
    · constructor
      · rintro ⟨ms, h1, h2⟩
        exact ⟨ms.flatten, by rw [h1], h2⟩
      · rintro ⟨ms, h1, h2⟩
        split at h1
        · simp at h1
        · rename_i l hl
          obtain rfl := Except.ok.inj h1
          exact ⟨l, hl, h2⟩
    · intro s ch s' hs
      unfold planChunk
      cases ch.dataset with
      | error e => simp
      | ok ds =>
        simp only
        by_cases hp : ds.rowShape.prod = rowShape.prod
        · rw [if_pos hp]
          simp only
          unfold mapChunk
          cases npRepeatE ch.trainIds ch.counts with
          | error e => simp
          | ok tids =>
            simp only [hp, decide_true]
            exact planLoop_iff hs
        · rw [if_neg hp]
          simp only
          cases npRepeatE ch.trainIds ch.counts with
          | error e => simp
          | ok tids =>
            simp only [hp, decide_false]
            cases tids with
            | nil => simp [planLoop, foldE]
            | cons t ts =>
              simp only [reduceCtorEq, false_iff]
              rintro ⟨ms, h1, h2⟩
              rw [planLoop_misfit h1] at h2
              simp at h2

theorem plan_iff {d : Det V} {x : Str × List Nat} {l : Layout V} :
    d.layout x = .ok l ↔ ∃ p, d.plan x = .ok p ∧ d.realise p = .ok l := by
  have hk : ∀ g', d.collectLayout x.1 x.2 = .ok g' ↔ ∃ ms, mapE (planSource d (ch! "image." ++ x.1) x.2) d.sourceToModno = .ok ms ∧
      foldE VMap.apply ⟨d.nframes, nModules, fun _ _ => none⟩ ms.flatten = .ok g' := by
    intro g'
    unfold Det.collectLayout
    exact foldE_plan (I := fun g => g.cols = nModules) (fun s l s' hs h => by rw [applyAll_cols h, hs])
      (fun s a s' hs => planSource_iff hs) rfl
  unfold Det.layout Det.plan Det.realise
  constructor
  · intro h
    cases hc : d.collectLayout x.1 x.2 with
    | error e => rw [hc] at h; simp at h
    | ok g =>
      rw [hc] at h
      obtain rfl := Except.ok.inj h
      obtain ⟨ms, h1, h2⟩ := (hk g).1 hc
      exact ⟨⟨x.1, x.2, ms.flatten⟩, by rw [h1], by simp only [h2]⟩
  · rintro ⟨p, h1, h2⟩
    split at h1
    · simp at h1
    · rename_i ms hms
      obtain rfl := Except.ok.inj h1
      simp only at h2
      split at h2
      · simp at h2
      · rename_i g hg
        obtain rfl := Except.ok.inj h2
        rw [(hk g).2 ⟨ms, hms, hg⟩]

theorem mapE_comp {α β γ : Type} {f : α → R γ} {p : α → R β} {q : β → R γ} (h : ∀ a c, f a = .ok c ↔ ∃ b, p a = .ok b ∧ q b = .ok c) :
    ∀ {l : List α} {cs : List γ}, mapE f l = .ok cs ↔ ∃ bs, mapE p l = .ok bs ∧ mapE q bs = .ok cs
  | [], cs => by simp [mapE]
  | a :: l, cs => by
    have ih := @mapE_comp α β γ f p q h l
    constructor
    · intro hm
      obtain ⟨c, cs', h1, h2, rfl⟩ := mapE_cons_ok.1 hm
      obtain ⟨b, h3, h4⟩ := (h a c).1 h1
      obtain ⟨bs, h5, h6⟩ := ih.1 h2
      exact ⟨b :: bs, mapE_cons_ok.2 ⟨b, bs, h3, h5, rfl⟩, mapE_cons_ok.2 ⟨c, cs', h4, h6, rfl⟩⟩
    · rintro ⟨bs, h1, h2⟩
      obtain ⟨b, bs', h3, h5, rfl⟩ := mapE_cons_ok.1 h1
      obtain ⟨c, cs', h4, h6, rfl⟩ := mapE_cons_ok.1 h2
      exact mapE_cons_ok.2 ⟨c, cs', (h a c).2 ⟨b, h3, h4⟩, ih.2 ⟨bs', h5, h6⟩, rfl⟩

/-- The layouts of Model/Cxi.lean are the mappings collected first and taken when the datasets are made. -/
theorem planData_iff {d : Det V} {moduleShape : List Nat} {ls : List (Layout V)} :
    d.collectData moduleShape = .ok ls ↔ ∃ ps, d.planData moduleShape = .ok ps ∧ mapE d.realise ps = .ok ls := by
  unfold Det.collectData Det.planData
  cases d.sourceToModno with
  | nil => simp
  | cons x rest =>
    simp only
    cases d.data.sourceIndex x.1 with
    | nil => simp
    | cons f fs =>
      simp only
      cases layoutShapes f x.1 moduleShape with
      | error e => simp
      | ok shapes => exact mapE_comp (fun a c => plan_iff)

end KD
