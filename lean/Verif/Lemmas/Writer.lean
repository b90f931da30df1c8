/- Helper lemmas about writing files. -/
import Verif.Props.WriteIndex
import Verif.Props.Open

set_option linter.unusedSimpArgs false

namespace KD
open Spec

variable {V : Type}

/-! ### Loops -/

theorem foldE_cons_ok {α σ : Type _} {f : σ → α → R σ} {s r : σ} {a : α} {l : List α} :
    foldE f s (a :: l) = .ok r ↔ ∃ s', f s a = .ok s' ∧ foldE f s' l = .ok r := by
  simp only [foldE]
  cases f s a with
  | error e => simp
  | ok s' => simp

theorem foldE_append {α σ : Type _} {f : σ → α → R σ} {s r : σ} {l l' : List α} :
    foldE f s (l ++ l') = .ok r ↔ ∃ s', foldE f s l = .ok s' ∧ foldE f s' l' = .ok r := by
  induction l generalizing s with
  | nil => simp [foldE]
  | cons a l ih =>
    rw [List.cons_append, foldE_cons_ok]
    simp only [ih, foldE_cons_ok]
    constructor
    · rintro ⟨s1, h1, s2, h2, h3⟩; exact ⟨s2, ⟨s1, h1, h2⟩, h3⟩
    · rintro ⟨s2, ⟨s1, h1, h2⟩, h3⟩; exact ⟨s1, h1, s2, h2, h3⟩

theorem foldE_map {α β σ : Type _} (f : σ → β → R σ) (g : α → β) (s : σ) (l : List α) :
    foldE f s (l.map g) = foldE (fun s a => f s (g a)) s l := by
  induction l generalizing s with
  | nil => rfl
  | cons a l ih => simp only [List.map_cons, foldE]; cases f s (g a) <;> simp [ih]

theorem foldE_mono {α σ : Type _} {f g : σ → α → R σ} {l : List α} : ∀ {s r : σ},
    (∀ s a r, a ∈ l → f s a = .ok r → g s a = .ok r) → foldE f s l = .ok r → foldE g s l = .ok r := by
  induction l with
  | nil => intro s r _ h; simpa [foldE] using h
  | cons a l ih =>
    intro s r hfg h
    obtain ⟨s', h1, h2⟩ := foldE_cons_ok.1 h
    exact foldE_cons_ok.2 ⟨s', hfg s a s' (by simp) h1, ih (fun s b r hb => hfg s b r (by simp [hb])) h2⟩

theorem foldE_inv {α σ : Type _} {f : σ → α → R σ} (P : List α → σ → Prop) {l : List α} : ∀ {done : List α} {s r : σ},
    P done s → (∀ done s a s', a ∈ l → P done s → f s a = .ok s' → P (done ++ [a]) s') →
    foldE f s l = .ok r → P (done ++ l) r := by
  induction l with
  | nil => intro done s r h0 _ h; simp [foldE] at h; subst h; simpa using h0
  | cons a l ih =>
    intro done s r h0 hs h
    obtain ⟨s', h1, h2⟩ := foldE_cons_ok.1 h
    have := ih (hs done s a s' (by simp) h0 h1) (fun d s b s' hb => hs d s b s' (by simp [hb])) h2
    simpa using this

/-! ### Fields -/

/-- A data field: instrument or control, source, key. -/
abbrev Fld := Bool × Str × Str

/-- The path of the dataset of a field. -/
def fldPath (F : Fld) : Path := sectionName F.1 :: (comps F.2.1 ++ comps (replaceCh '.' '/' F.2.2))

/-- The name of the index of a field. -/
def ixName (F : Fld) : Str := if F.1 then F.2.1 ++ ch! "/" ++ (partition '.' F.2.2).1 else F.2.1

/-- The data source ID of a field. -/
def srcId (F : Fld) : Str := if F.1 then ch! "INSTRUMENT/" ++ ixName F else ch! "CONTROL/" ++ ixName F

/-- Making the index of a field. -/
def makeIx (T : List Nat) (w : WState V) (F : Fld) (tids : List Nat) : R (WState V) :=
  if F.1 then makeInstrumentIndex T w F.2.1 F.2.2 tids else makeControlIndex T w F.2.1 tids

/-- Adding a field, if there is data for it. -/
def addFld (T : List Nat) (D : Fld → Option (Dataset V × List Nat)) (w : WState V) (F : Fld) : R (WState V) :=
  match D F with
  | none => .ok w
  | some (ds, tids) =>
    match w.create (dataPath (sectionName F.1) F.2.1 F.2.2) ds with
    | .error e => .error e
    | .ok w => makeIx T w F tids

/-- The index made from the labels. -/
def IxOk (T : List Nat) (instr : Bool) (tids : List Nat) (ix : List Nat × List Nat) : Prop :=
  if instr then ix = (exclSums 0 (T.map (fun t => tids.count t)), T.map (fun t => tids.count t))
  else tids.Nodup ∧ ix = (exclSums 0 (T.map (fun t => if t ∈ tids then 1 else 0)), T.map (fun t => if t ∈ tids then 1 else 0))

theorem ixOk_counts {T : List Nat} {instr : Bool} {tids : List Nat} {ix : List Nat × List Nat} (h : IxOk T instr tids ix) :
    ix = (exclSums 0 (T.map (fun t => tids.count t)), T.map (fun t => tids.count t)) := by
  unfold IxOk at h
  cases instr with
  | true => simpa using h
  | false =>
    simp only [Bool.false_eq_true, if_false] at h
    have : T.map (fun t => if t ∈ tids then 1 else 0) = T.map (fun t => tids.count t) := by
      apply List.map_congr_left
      intro t _
      rw [List.Nodup.count h.1]
    rw [← this]
    exact h.2

theorem plain_section (b : Bool) : PlainComponent (sectionName b) := by
  cases b <;> exact ⟨by decide, by decide⟩

theorem h5path_dataPath (b : Bool) (source key : Str) :
    h5path (dataPath (sectionName b) source key) = fldPath (b, source, key) := by
  unfold dataPath fldPath comps
  have e : sectionName b ++ ch! "/" ++ source ++ ch! "/" ++ replaceCh '.' '/' key
      = sectionName b ++ '/' :: (source ++ '/' :: replaceCh '.' '/' key) := by simp
  rw [e, h5path_append, h5path_append, h5path_single (plain_section b).2 (plain_section b).1]
  rfl

theorem makeIx_eq (T : List Nat) (w : WState V) (F : Fld) (tids : List Nat) (w' : WState V) (h : makeIx T w F tids = .ok w') :
    w'.datasets = w.datasets ∧
    ((∃ ix, w.indexes.get? (ixName F) = some ix ∧ w' = w) ∨
     (w.indexes.get? (ixName F) = none ∧ ∃ ix, IxOk T F.1 tids ix ∧ w'.indexes = w.indexes.set (ixName F) ix ∧
      w'.sources = setAdd w.sources (srcId F))) := by
  obtain ⟨b, s, k⟩ := F
  unfold makeIx at h
  cases b with
  | true =>
    simp only [if_true] at h
    unfold makeInstrumentIndex at h
    dsimp only at h
    simp only [ixName, srcId, if_true]
    split at h
    · next ix hix => simp at h; subst h; exact ⟨rfl, Or.inl ⟨ix, hix, rfl⟩⟩
    · next hix =>
      split at h
      · simp at h
      · next ix hg =>
        obtain rfl := Except.ok.inj h
        refine ⟨rfl, Or.inr ⟨hix, ix, ?_, rfl, rfl⟩⟩
        unfold generateIndex at hg
        split at hg
        · exact (Except.ok.inj hg).symm
        · simp at hg
  | false =>
    simp only [Bool.false_eq_true, if_false] at h
    unfold makeControlIndex at h
    simp only [ixName, srcId, Bool.false_eq_true, if_false]
    split at h
    · next ix hix => simp at h; subst h; exact ⟨rfl, Or.inl ⟨ix, hix, rfl⟩⟩
    · next hix =>
      split at h
      · simp at h
      · next hd =>
        obtain rfl := Except.ok.inj h
        refine ⟨rfl, Or.inr ⟨hix, _, ?_, rfl, rfl⟩⟩
        simp only [not_not] at hd
        exact ⟨List.dedup_eq_self.1 ((List.dedup_sublist tids).eq_of_length hd), rfl⟩

/-- What is in the writer after adding some fields. -/
structure WInv (T : List Nat) (D : Fld → Option (Dataset V × List Nat)) (Fs : List Fld) (w : WState V) : Prop where
  data : w.datasets = Fs.filterMap (fun F => (D F).map (fun x => (fldPath F, x.1)))
  noClash : w.datasets.Pairwise (fun a b => pathClash a.1 b.1 = false)
  ixFrom : ∀ name ix, w.indexes.get? name = some ix →
    ∃ F ∈ Fs, ∃ x, D F = some x ∧ ixName F = name ∧ IxOk T F.1 x.2 ix
  ixAll : ∀ F ∈ Fs, ∀ x, D F = some x → ∃ ix, w.indexes.get? (ixName F) = some ix
  srcs : ∀ id, id ∈ w.sources ↔ ∃ F ∈ Fs, (∃ x, D F = some x) ∧ srcId F = id

theorem mem_setAdd {l : List Str} {s x : Str} : x ∈ setAdd l s ↔ x ∈ l ∨ x = s := by
  unfold setAdd
  split
  · constructor
    · exact Or.inl
    · rintro (h | rfl)
      · exact h
      · assumption
  · simp

theorem winv_step {T : List Nat} {D : Fld → Option (Dataset V × List Nat)} {Fs : List Fld} {w w' : WState V} {F : Fld}
    (hcol : ∀ F' ∈ Fs, ixName F' = ixName F → F'.1 = F.1) (hi : WInv T D Fs w) (h : addFld T D w F = .ok w') :
    WInv T D (Fs ++ [F]) w' := by
  unfold addFld at h
  cases hD : D F with
  | none =>
    rw [hD] at h
    simp at h; subst h
    refine ⟨?_, hi.noClash, ?_, ?_, ?_⟩
    · rw [List.filterMap_append, ← hi.data]; simp [hD]
    · intro name ix hix
      obtain ⟨F', h1, h2⟩ := hi.ixFrom name ix hix
      exact ⟨F', by simp [h1], h2⟩
    · intro F' hF' x hx
      rcases List.mem_append.1 hF' with h1 | h1
      · exact hi.ixAll F' h1 x hx
      · simp at h1; subst h1; rw [hD] at hx; simp at hx
    · intro id
      rw [hi.srcs]
      simp only [List.mem_append, List.mem_cons, List.not_mem_nil, or_false]
      constructor
      · rintro ⟨F', h1, h2⟩; exact ⟨F', Or.inl h1, h2⟩
      · rintro ⟨F', h1 | rfl, ⟨x, hx⟩, h3⟩
        · exact ⟨F', h1, ⟨x, hx⟩, h3⟩
        · rw [hD] at hx; simp at hx
  | some x =>
    obtain ⟨ds, tids⟩ := x
    rw [hD] at h
    simp only at h
    split at h
    · simp at h
    next w1 hw1 =>
    unfold WState.create at hw1
    dsimp only at hw1
    rw [h5path_dataPath] at hw1
    split at hw1
    · simp at hw1
    next hcl =>
    simp only [List.any_eq_true, not_exists, not_and, Bool.not_eq_true] at hcl
    obtain rfl := Except.ok.inj hw1
    obtain ⟨h1, h2⟩ := makeIx_eq T _ F tids w' h
    have hdata : w'.datasets = (Fs ++ [F]).filterMap (fun F => (D F).map (fun x => (fldPath F, x.1))) := by
      rw [h1, List.filterMap_append, ← hi.data]
      simp [hD]
    refine ⟨hdata, ?_, ?_, ?_, ?_⟩
    · rw [h1]
      simp only
      rw [List.pairwise_append]
      refine ⟨hi.noClash, by simp, ?_⟩
      intro a ha b hb
      simp at hb; subst hb
      exact hcl a ha
    · intro name ix hix
      rcases h2 with ⟨ix0, h3, h4⟩ | ⟨h3, ix0, h4, h5, h6⟩
      · rw [h4] at hix
        obtain ⟨F', g1, g2⟩ := hi.ixFrom name ix hix
        exact ⟨F', by simp [g1], g2⟩
      · rw [h5, Dict.get?_set] at hix
        split at hix
        · next hn =>
          simp at hix; subst hix
          exact ⟨F, by simp, _, hD, by rw [hn], h4⟩
        · obtain ⟨F', g1, g2⟩ := hi.ixFrom name ix hix
          exact ⟨F', by simp [g1], g2⟩
    · intro F' hF' x hx
      have hold : ∀ F' ∈ Fs, ∀ x, D F' = some x → ∃ ix, w'.indexes.get? (ixName F') = some ix := by
        intro F' h7 x hx
        obtain ⟨ix, h8⟩ := hi.ixAll F' h7 x hx
        rcases h2 with ⟨ix0, h3, h4⟩ | ⟨h3, ix0, h4, h5, h6⟩
        · rw [h4]; exact ⟨ix, h8⟩
        · rw [h5, Dict.get?_set]
          split
          · exact ⟨_, rfl⟩
          · exact ⟨ix, h8⟩
      rcases List.mem_append.1 hF' with h7 | h7
      · exact hold F' h7 x hx
      · simp at h7; subst h7
        rcases h2 with ⟨ix0, h3, h4⟩ | ⟨h3, ix0, h4, h5, h6⟩
        · rw [h4]; exact ⟨ix0, h3⟩
        · rw [h5, Dict.get?_set]; simp
    · intro id
      simp only [List.mem_append, List.mem_cons, List.not_mem_nil, or_false]
      rcases h2 with ⟨ix0, h3, h4⟩ | ⟨h3, ix0, h4, h5, h6⟩
      · rw [h4]
        simp only
        rw [hi.srcs]
        obtain ⟨F0, g1, x0, g2, g3, -⟩ := hi.ixFrom _ _ h3
        have hid : srcId F0 = srcId F := by
          unfold srcId
          rw [g3, hcol F0 g1 g3]
        constructor
        · rintro ⟨F', k1, k2⟩; exact ⟨F', Or.inl k1, k2⟩
        · rintro ⟨F', k1 | rfl, k2, k3⟩
          · exact ⟨F', k1, k2, k3⟩
          · exact ⟨F0, g1, ⟨x0, g2⟩, by rw [hid, k3]⟩
      · rw [h6, mem_setAdd]
        simp only
        rw [hi.srcs]
        constructor
        · rintro (⟨F', k1, k2⟩ | rfl)
          · exact ⟨F', Or.inl k1, k2⟩
          · exact ⟨F, Or.inr rfl, ⟨_, hD⟩, rfl⟩
        · rintro ⟨F', k1 | rfl, k2, k3⟩
          · exact Or.inl ⟨F', k1, k2, k3⟩
          · exact Or.inr k3.symm

theorem winv_fold {T : List Nat} {D : Fld → Option (Dataset V × List Nat)} {Fs : List Fld} {w : WState V}
    (hcol : ∀ F ∈ Fs, ∀ F' ∈ Fs, ixName F' = ixName F → F'.1 = F.1) (h : foldE (addFld T D) WState.new Fs = .ok w) :
    WInv T D Fs w := by
  have := foldE_inv (P := fun done s => (∀ F ∈ done, F ∈ Fs) ∧ WInv T D done s) (l := Fs) (done := [])
    (s := WState.new) (r := w) (f := addFld T D) ?_ ?_ h
  · simpa using this.2
  · refine ⟨by simp, ⟨rfl, List.Pairwise.nil, ?_, by simp, by simp [WState.new]⟩⟩
    intro name ix hix
    simp [WState.new] at hix
  · rintro done s F s' hF ⟨h1, h2⟩ h3
    refine ⟨?_, winv_step (fun F' hF' => hcol F hF F' (h1 F' hF')) h2 h3⟩
    intro F' hF'
    rcases List.mem_append.1 hF' with h | h
    · exact h1 F' h
    · simp at h; subst h; exact hF

/-! ### Indexes in the file -/

theorem pathClash_self (p : Path) : pathClash p p = true := by simp [pathClash]

theorem writeIndexes_ok {l : List (Str × (List Nat × List Nat))} {index : Dict Path IndexGroup}
    (h : foldE writeIndexGroup [] l = .ok index) :
    index = l.map (fun x => (h5path (ch! "INDEX/" ++ x.1), indexGroup x.2)) ∧ index.keys.Nodup := by
  have := foldE_inv (P := fun done (ix : Dict Path IndexGroup) =>
    ix = done.map (fun x => (h5path (ch! "INDEX/" ++ x.1), indexGroup x.2)) ∧ ix.keys.Nodup)
    (l := l) (done := []) (s := []) (r := index) (f := writeIndexGroup) ⟨rfl, by simp [Dict.keys]⟩ ?_ h
  · simpa using this
  · rintro done s x s' hx ⟨h1, h2⟩ h3
    unfold writeIndexGroup at h3
    dsimp only at h3
    split at h3
    · simp at h3
    next hcl =>
    obtain rfl := Except.ok.inj h3
    refine ⟨by rw [h1]; simp, ?_⟩
    simp only [Dict.keys, List.map_append, List.map_cons, List.map_nil]
    rw [List.nodup_append]
    refine ⟨h2, by simp, ?_⟩
    intro a ha b hb
    rw [List.mem_singleton] at hb
    subst hb
    rintro rfl
    apply hcl
    rw [List.any_eq_true]
    obtain ⟨kv, k1, k2⟩ := List.mem_map.1 ha
    refine ⟨kv.1 ++ [ch! "first"], ?_, ?_⟩
    · unfold indexNames
      refine List.mem_cons_of_mem _ (List.mem_flatMap.2 ⟨kv, k1, by simp⟩)
    · rw [k2, pathClash_self]; rfl

/-! ### Which fields are written -/

theorem writeSources_ok {c : DC V} {b : Bool} {add : WState V → Str → Str → R (WState V)} {T : List Nat}
    {D : Fld → Option (Dataset V × List Nat)} {l : List Str} : ∀ {w w' : WState V},
    (∀ w s k w', s ∈ l → (∃ ks, c.keysForSource s = .ok ks ∧ k ∈ ks) → add w s k = .ok w' →
      addFld T D w (b, s, k) = .ok w') → foldE (writeSource c add) w l = .ok w' →
    ∃ Fs : List Fld, (∀ F, F ∈ Fs ↔ F.1 = b ∧ F.2.1 ∈ l ∧ ∃ ks, c.keysForSource F.2.1 = .ok ks ∧ F.2.2 ∈ ks) ∧
      foldE (addFld T D) w Fs = .ok w' := by
  induction l with
  | nil => intro w w' _ h; exact ⟨[], by simp, by simpa [foldE] using h⟩
  | cons s l ih =>
    intro w w' hadd h
    obtain ⟨w1, h1, h2⟩ := foldE_cons_ok.1 h
    obtain ⟨Fs, g1, g2⟩ := ih (fun w s k w' hs => hadd w s k w' (by simp [hs])) h2
    unfold writeSource at h1
    split at h1
    · simp at h1
    next ks hks =>
    have h3 : foldE (fun w key => addFld T D w (b, s, key)) w ks = .ok w1 :=
      foldE_mono (fun w k r hk hr => hadd w s k r (by simp) ⟨ks, hks, hk⟩ hr) h1
    rw [← foldE_map (addFld T D) (fun k => (b, s, k))] at h3
    refine ⟨ks.map (fun k => (b, s, k)) ++ Fs, ?_, foldE_append.2 ⟨w1, h3, g2⟩⟩
    rintro ⟨b', s', k'⟩
    rw [List.mem_append, g1, List.mem_map]
    constructor
    · rintro (⟨k, hk, e⟩ | ⟨e1, e2, e3⟩)
      · obtain ⟨rfl, rfl, rfl⟩ : b = b' ∧ s = s' ∧ k = k' := by simpa using e
        exact ⟨rfl, by simp, ks, hks, hk⟩
      · exact ⟨e1, by simp [e2], e3⟩
    · rintro ⟨rfl, e2, ks', e3, e4⟩
      rcases List.mem_cons.1 e2 with e2 | e2
      · left
        simp only at e2 e3 e4
        subst e2
        rw [hks] at e3
        obtain rfl := Except.ok.inj e3
        exact ⟨k', e4, rfl⟩
      · right; exact ⟨rfl, e2, ks', e3, e4⟩

theorem writeWith_ok {c : DC V} {addC addI : WState V → Str → Str → R (WState V)} {T : List Nat}
    {D : Fld → Option (Dataset V × List Nat)} {h : H5File V}
    (hC : ∀ w s k w', HasField c false s k → addC w s k = .ok w' → addFld T D w (false, s, k) = .ok w')
    (hI : ∀ w s k w', HasField c true s k → addI w s k = .ok w' → addFld T D w (true, s, k) = .ok w')
    (hw : writeWith c addC addI = .ok h) :
    ∃ Fs w, (∀ F : Fld, F ∈ Fs ↔ HasField c F.1 F.2.1 F.2.2) ∧ foldE (addFld T D) WState.new Fs = .ok w ∧
      w.finish c.trainIds = .ok h := by
  unfold writeWith at hw
  split at hw
  · simp at hw
  next w1 h1 =>
  split at hw
  · simp at hw
  next w2 h2 =>
  obtain ⟨F1, f1, f2⟩ := writeSources_ok (fun w s k w' hs hk => hC w s k w' ⟨by simpa using hs, hk⟩) h1
  obtain ⟨F2, g1, g2⟩ := writeSources_ok (fun w s k w' hs hk => hI w s k w' ⟨by simpa using hs, hk⟩) h2
  refine ⟨F1 ++ F2, w2, ?_, foldE_append.2 ⟨w1, f2, g2⟩, hw⟩
  rintro ⟨b, s, k⟩
  rw [List.mem_append, f1, g1]
  unfold HasField
  cases b <;> simp

/-- The data of a field as written by `write`. -/
def fldData (c : DC V) (F : Fld) : Option (Dataset V × List Nat) :=
  match c.getArray F.2.1 F.2.2 id with
  | .error _ => none
  | .ok a => a.coords.map (fun t => (⟨a.rows, a.rowShape, a.dtype⟩, t))

theorem fldData_some {c : DC V} {F : Fld} {x : Dataset V × List Nat} (h : fldData c F = some x) :
    ∃ a, c.getArray F.2.1 F.2.2 id = .ok a ∧ a.coords = some x.2 ∧ x.1 = ⟨a.rows, a.rowShape, a.dtype⟩ := by
  unfold fldData at h
  split at h
  · simp at h
  next a ha =>
  rw [Option.map_eq_some_iff] at h
  obtain ⟨t, h1, rfl⟩ := h
  exact ⟨a, ha, h1, rfl⟩

/-- The data of a field as written by `write_virtual`. -/
def fldVirtual (c : DC V) (F : Fld) : Option (Dataset V × List Nat) :=
  match assembleData c F.2.1 F.2.2 with
  | .error _ => none
  | .ok x => x

theorem addControl_ok {c : DC V} {w w' : WState V} {s k : Str} (h : addControl c w s k = .ok w') :
    addFld c.trainIds (fldData c) w (false, s, k) = .ok w' ∧ ∃ x, fldData c (false, s, k) = some x ∧
      x.1.rows.length = c.trainIds.length := by
  unfold addControl at h
  split at h
  · simp at h
  next a ha =>
  split at h
  · simp at h
  next hl =>
  split at h
  · simp at h
  next w1 hw1 =>
  split at h
  · simp at h
  next tids ht =>
  have hD : fldData c (false, s, k) = some (⟨a.rows, a.rowShape, a.dtype⟩, tids) := by
    unfold fldData; rw [show c.getArray (false, s, k).2.1 (false, s, k).2.2 id = .ok a from ha]; simp [ht]
  refine ⟨?_, _, hD, by simpa using hl⟩
  unfold addFld
  rw [hD]
  simp only
  rw [show w.create (dataPath (sectionName false) s k) _ = .ok w1 from hw1]
  simpa [makeIx] using h

theorem addInstrument_ok {c : DC V} {w w' : WState V} {s k : Str} (h : addInstrument c w s k = .ok w') :
    addFld c.trainIds (fldData c) w (true, s, k) = .ok w' ∧ ∃ x, fldData c (true, s, k) = some x := by
  unfold addInstrument at h
  split at h
  · simp at h
  next a ha =>
  split at h
  · simp at h
  next w1 hw1 =>
  split at h
  · simp at h
  next tids ht =>
  have hD : fldData c (true, s, k) = some (⟨a.rows, a.rowShape, a.dtype⟩, tids) := by
    unfold fldData; rw [show c.getArray (true, s, k).2.1 (true, s, k).2.2 id = .ok a from ha]; simp [ht]
  refine ⟨?_, _, hD⟩
  unfold addFld
  rw [hD]
  simp only
  rw [show w.create (dataPath (sectionName true) s k) _ = .ok w1 from hw1]
  simpa [makeIx] using h

theorem vAddControl_eq {c : DC V} {w w' : WState V} {s k : Str} {p : Option Str} :
    vAddControl c w s k = .ok (w', p) ↔ (∃ x, assembleData c s k = .ok x) ∧
      addFld c.trainIds (fldVirtual c) w (false, s, k) = .ok w' ∧
      p = (fldVirtual c (false, s, k)).map (fun _ => dataPath (sectionName false) s k) := by
  unfold vAddControl addFld fldVirtual
  dsimp only
  cases hx : assembleData c s k with
  | error e => simp
  | ok x =>
    cases x with
    | none => simp [eq_comm]
    | some x =>
      obtain ⟨ds, tids⟩ := x
      simp only
      rw [show sectionName false = ch! "CONTROL" from rfl]
      cases w.create (dataPath (ch! "CONTROL") s k) ds with
      | error e => simp
      | ok w1 =>
        simp only [makeIx, Bool.false_eq_true, if_false]
        cases makeControlIndex c.trainIds w1 s tids with
        | error e => simp
        | ok w2 => simp [eq_comm]

theorem vAddInstrument_eq {c : DC V} {w w' : WState V} {s k : Str} {p : Option Str} :
    vAddInstrument c w s k = .ok (w', p) ↔ (∃ x, assembleData c s k = .ok x) ∧
      addFld c.trainIds (fldVirtual c) w (true, s, k) = .ok w' ∧
      p = (fldVirtual c (true, s, k)).map (fun _ => dataPath (sectionName true) s k) := by
  unfold vAddInstrument addFld fldVirtual
  dsimp only
  cases hx : assembleData c s k with
  | error e => simp
  | ok x =>
    cases x with
    | none => simp [eq_comm]
    | some x =>
      obtain ⟨ds, tids⟩ := x
      simp only
      rw [show sectionName true = ch! "INSTRUMENT" from rfl]
      cases w.create (dataPath (ch! "INSTRUMENT") s k) ds with
      | error e => simp
      | ok w1 =>
        simp only [makeIx, if_true]
        cases makeInstrumentIndex c.trainIds w1 s k tids with
        | error e => simp
        | ok w2 => simp [eq_comm]

theorem dropPath_ok {r : R (WState V × Option Str)} {w : WState V} :
    dropPath r = .ok w ↔ ∃ p, r = .ok (w, p) := by
  unfold dropPath
  cases r with
  | error e => simp
  | ok x => obtain ⟨w1, p⟩ := x; simp

/-- The file written by `write`, as fields. -/
theorem write_ok {c : DC V} {h : H5File V} (hw : c.write = .ok h) :
    ∃ Fs w, (∀ F : Fld, F ∈ Fs ↔ HasField c F.1 F.2.1 F.2.2) ∧
      foldE (addFld c.trainIds (fldData c)) WState.new Fs = .ok w ∧ w.finish c.trainIds = .ok h :=
  writeWith_ok (fun _ _ _ _ _ h => (addControl_ok h).1) (fun _ _ _ _ _ h => (addInstrument_ok h).1) hw

/-- The file written by `write_virtual`, as fields. -/
theorem writeVirtual_ok {c : DC V} {h : H5File V} (hw : c.writeVirtual = .ok h) :
    ∃ Fs w, (∀ F : Fld, F ∈ Fs ↔ HasField c F.1 F.2.1 F.2.2) ∧
      foldE (addFld c.trainIds (fldVirtual c)) WState.new Fs = .ok w ∧ w.finish c.trainIds = .ok h :=
  writeWith_ok
    (fun _ _ _ _ _ h => by obtain ⟨p, h⟩ := dropPath_ok.1 h; exact (vAddControl_eq.1 h).2.1)
    (fun _ _ _ _ _ h => by obtain ⟨p, h⟩ := dropPath_ok.1 h; exact (vAddInstrument_eq.1 h).2.1) hw

theorem finish_ok {w : WState V} {T : List Nat} {h : H5File V} (hf : w.finish T = .ok h) :
    h.trainId = some T ∧ h.version = none ∧ h.sources05 = some (sortStrs w.sources) ∧ h.groups = [] ∧
      h.datasets = w.datasets ∧ foldE writeIndexGroup [] w.indexes = .ok h.index := by
  unfold WState.finish at hf
  split at hf
  · simp at hf
  next index hi =>
  obtain rfl := Except.ok.inj hf
  exact ⟨rfl, rfl, rfl, rfl, rfl, hi⟩

/-- After a fold of additions which all succeed for fields with data, every field in `write` has data. -/
theorem write_hasData {c : DC V} {h : H5File V} (hw : c.write = .ok h) {b : Bool} {s k : Str} (hF : HasField c b s k) :
    ∃ x, fldData c (b, s, k) = some x ∧ (b = false → x.1.rows.length = c.trainIds.length) := by
  have key : ∀ {add : WState V → Str → Str → R (WState V)} {P : Str → Str → Prop} {l : List Str} {w w' : WState V},
      (∀ w s k w', add w s k = .ok w' → P s k) → foldE (writeSource c add) w l = .ok w' →
      ∀ s ∈ l, ∀ ks, c.keysForSource s = .ok ks → ∀ k ∈ ks, P s k := by
    intro add P l
    induction l with
    | nil => intro w w' _ _ s hs; simp at hs
    | cons s0 l ih =>
      intro w w' hP h
      obtain ⟨w1, h1, h2⟩ := foldE_cons_ok.1 h
      intro s hs ks hks k hk
      rcases List.mem_cons.1 hs with rfl | hs
      · unfold writeSource at h1
        rw [hks] at h1
        simp only at h1
        clear hks ih h2 h
        induction ks generalizing w with
        | nil => simp at hk
        | cons k0 ks ihk =>
          obtain ⟨w3, h3, h4⟩ := foldE_cons_ok.1 h1
          rcases List.mem_cons.1 hk with rfl | hk
          · exact hP _ _ _ _ h3
          · exact ihk (w := w3) (by assumption) (by assumption)
      · exact ih hP h2 s hs ks hks k hk
  unfold DC.write writeWith at hw
  split at hw
  · simp at hw
  next w1 h1 =>
  split at hw
  · simp at hw
  next w2 h2 =>
  obtain ⟨hs, ks, hks, hk⟩ := hF
  cases b with
  | false =>
    obtain ⟨x, e1, e2⟩ := key (P := fun s k => ∃ x, fldData c (false, s, k) = some x ∧ x.1.rows.length = c.trainIds.length)
      (fun w s k w' h => (addControl_ok h).2) h1 s (by simpa using hs) ks hks k hk
    exact ⟨x, e1, fun _ => e2⟩
  | true =>
    obtain ⟨x, e1⟩ := key (P := fun s k => ∃ x, fldData c (true, s, k) = some x)
      (fun w s k w' h => (addInstrument_ok h).2) h2 s (by simpa using hs) ks hks k hk
    exact ⟨x, e1, by simp⟩

end KD
