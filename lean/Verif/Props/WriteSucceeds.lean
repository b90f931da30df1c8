/- Property C37: when writing succeeds. -/
import Verif.Props.Writer

set_option linter.unusedSimpArgs false

namespace KD
open Spec

variable {V : Type}

/-! ### Adding fields -/

theorem makeIx_succeeds {T : List Nat} {w : WState V} {F : Fld} {tids : List Nat} (h : F.1 = false → tids.Nodup) :
    ∃ w', makeIx T w F tids = .ok w' := by
  obtain ⟨b, s, k⟩ := F
  unfold makeIx
  cases b with
  | true =>
    simp only [if_true]
    unfold makeInstrumentIndex
    dsimp only
    split
    · exact ⟨_, rfl⟩
    · obtain ⟨ix, hix⟩ := index_order_unchecked T tids
      rw [hix]
      exact ⟨_, rfl⟩
  | false =>
    simp only [Bool.false_eq_true, if_false]
    unfold makeControlIndex
    split
    · exact ⟨_, rfl⟩
    · rw [if_neg (by rw [(h rfl).dedup]; simp)]
      exact ⟨_, rfl⟩

theorem addFld_succeeds {T : List Nat} {D : Fld → Option (Dataset V × List Nat)} {w : WState V} {F : Fld}
    {x : Dataset V × List Nat} (hx : D F = some x) (hn : F.1 = false → x.2.Nodup)
    (hc : ∀ kv ∈ w.datasets, pathClash kv.1 (fldPath F) = false) : ∃ w', addFld T D w F = .ok w' := by
  unfold addFld
  rw [hx]
  obtain ⟨ds, tids⟩ := x
  simp only
  unfold WState.create
  dsimp only
  rw [h5path_dataPath]
  have : ¬ (w.datasets.any (fun kv => pathClash kv.1 (fldPath (F.1, F.2.1, F.2.2))) = true) := by
    rw [List.any_eq_true]
    rintro ⟨kv, h1, h2⟩
    rw [hc kv h1] at h2
    simp at h2
  rw [if_neg this]
  exact makeIx_succeeds hn

theorem addFlds_succeed {T : List Nat} {D : Fld → Option (Dataset V × List Nat)} {Fs : List Fld}
    (hcol : ∀ F ∈ Fs, ∀ F' ∈ Fs, ixName F' = ixName F → F'.1 = F.1)
    (hD : ∀ F ∈ Fs, ∃ x, D F = some x ∧ (F.1 = false → x.2.Nodup))
    (hp : Fs.Pairwise (fun F F' => pathClash (fldPath F) (fldPath F') = false)) :
    ∃ w, foldE (addFld T D) WState.new Fs = .ok w := by
  induction Fs using List.reverseRecOn with
  | nil => exact ⟨_, rfl⟩
  | append_singleton Fs F ih =>
    rw [List.pairwise_append] at hp
    have hcol' : ∀ G ∈ Fs, ∀ G' ∈ Fs, ixName G' = ixName G → G'.1 = G.1 :=
      fun G hG G' hG' => hcol G (by simp [hG]) G' (by simp [hG'])
    obtain ⟨w, hw⟩ := ih hcol' (fun G hG => hD G (by simp [hG])) hp.1
    have hi := winv_fold hcol' hw
    obtain ⟨x, hx, hn⟩ := hD F (by simp)
    obtain ⟨w', hw'⟩ := addFld_succeeds (T := T) (w := w) hx hn (by
      intro kv hkv
      rw [hi.data, List.mem_filterMap] at hkv
      obtain ⟨G, hG, hG2⟩ := hkv
      rw [Option.map_eq_some_iff] at hG2
      obtain ⟨y, -, rfl⟩ := hG2
      exact hp.2.2 G hG F (by simp))
    exact ⟨w', foldE_append.2 ⟨w, hw, foldE_cons_ok.2 ⟨w', hw', rfl⟩⟩⟩

theorem indexes_nodup {T : List Nat} {D : Fld → Option (Dataset V × List Nat)} {Fs : List Fld} {w : WState V}
    (h : foldE (addFld T D) WState.new Fs = .ok w) : w.indexes.keys.Nodup := by
  refine foldE_inv (P := fun _ s => s.indexes.keys.Nodup) (done := []) (by simp [WState.new, Dict.keys]) ?_ h
  intro done s F s' _ h1 h2
  unfold addFld at h2
  split at h2
  · obtain rfl := Except.ok.inj h2; exact h1
  next ds tids hD =>
  split at h2
  · simp at h2
  next w1 hw1 =>
  have e : w1.indexes = s.indexes := by
    unfold WState.create at hw1
    dsimp only at hw1
    split at hw1
    · simp at hw1
    · obtain rfl := Except.ok.inj hw1; rfl
  obtain ⟨-, ⟨ix, -, rfl⟩ | ⟨-, ix, -, h3, -⟩⟩ := makeIx_eq T w1 F tids s' h2
  · rw [e]; exact h1
  · rw [h3, e]; exact Dict.nodup_set h1 _ _

/-! ### Indexes -/

/-- The path of an index. -/
def ixPath (name : Str) : Path := h5path (ch! "INDEX/" ++ name)

theorem writeIndexes_succeed {l : List (Str × (List Nat × List Nat))}
    (ht : ∀ x ∈ l, ∀ y ∈ [ch! "first", ch! "count"], pathClash [ch! "INDEX", ch! "trainId"] (ixPath x.1 ++ [y]) = false)
    (hp : l.Pairwise (fun a b => ∀ y ∈ [ch! "first", ch! "count"], ∀ z ∈ [ch! "first", ch! "count"],
      pathClash (ixPath a.1 ++ [y]) (ixPath b.1 ++ [z]) = false)) :
    ∃ index, foldE writeIndexGroup [] l = .ok index := by
  induction l using List.reverseRecOn with
  | nil => exact ⟨_, rfl⟩
  | append_singleton l x ih =>
    rw [List.pairwise_append] at hp
    obtain ⟨index, hi⟩ := ih (fun x hx => ht x (by simp [hx])) hp.1
    obtain ⟨rfl, -⟩ := writeIndexes_ok hi
    suffices h : writeIndexGroup (l.map (fun x => (h5path (ch! "INDEX/" ++ x.1), indexGroup x.2))) x =
        .ok (l.map (fun x => (h5path (ch! "INDEX/" ++ x.1), indexGroup x.2)) ++ [(ixPath x.1, indexGroup x.2)]) from
      ⟨_, foldE_append.2 ⟨_, hi, foldE_cons_ok.2 ⟨_, h, rfl⟩⟩⟩
    unfold writeIndexGroup
    dsimp only
    rw [if_neg]
    · rfl
    rw [List.any_eq_true]
    rintro ⟨q, h1, h2⟩
    have key : ∀ z ∈ [ch! "first", ch! "count"], pathClash q (ixPath x.1 ++ [z]) = false := by
      intro z hz
      unfold indexNames at h1
      rcases List.mem_cons.1 h1 with rfl | h1
      · exact ht x (by simp) z hz
      · rw [List.mem_flatMap] at h1
        obtain ⟨kv, k1, k2⟩ := h1
        rw [List.mem_map] at k1
        obtain ⟨y, y1, rfl⟩ := k1
        have := hp.2.2 y y1 x (by simp)
        rcases List.mem_cons.1 k2 with rfl | k2
        · exact this (ch! "first") (by simp) z hz
        · rw [List.mem_singleton] at k2
          subst k2
          exact this (ch! "count") (by simp) z hz
    have e1 := key (ch! "first") (by simp)
    have e2 := key (ch! "count") (by simp)
    unfold ixPath at e1 e2
    rw [e1, e2] at h2
    simp at h2

/-! ### Names -/

theorem splitCh_mem_of {sep : Char} {s : Str} {x : Char} (hx : x ∈ s) (hne : x ≠ sep) : ∃ p ∈ splitCh sep s, x ∈ p := by
  induction s with
  | nil => simp at hx
  | cons c s ih =>
    simp only [splitCh]
    by_cases hc : c = sep
    · subst hc
      simp only [if_true]
      rcases List.mem_cons.1 hx with rfl | hx
      · exact absurd rfl hne
      · obtain ⟨p, h1, h2⟩ := ih hx
        exact ⟨p, by simp [h1], h2⟩
    · simp only [hc, if_false]
      cases hs : splitCh sep s with
      | nil => exact absurd hs (splitCh_ne_nil _ _)
      | cons q qs =>
        simp only
        rcases List.mem_cons.1 hx with rfl | hx
        · exact ⟨x :: q, by simp, by simp⟩
        · obtain ⟨p, h1, h2⟩ := ih hx
          rw [hs] at h1
          rcases List.mem_cons.1 h1 with rfl | h1
          · exact ⟨_, List.mem_cons_self, by simp [h2]⟩
          · exact ⟨p, by simp [h1], h2⟩

theorem splitCh_mem_sub {sep : Char} {s p : Str} (hp : p ∈ splitCh sep s) {x : Char} (hx : x ∈ p) : x ∈ s := by
  induction s generalizing p with
  | nil => simp [splitCh] at hp; subst hp; simp at hx
  | cons c s ih =>
    simp only [splitCh] at hp
    by_cases hc : c = sep
    · simp only [hc, if_true] at hp
      rcases List.mem_cons.1 hp with rfl | hp
      · simp at hx
      · exact List.mem_cons_of_mem _ (ih hp hx)
    · simp only [hc, if_false] at hp
      cases hs : splitCh sep s with
      | nil => exact absurd hs (splitCh_ne_nil _ _)
      | cons q qs =>
        rw [hs] at hp ih
        simp only at hp
        rcases List.mem_cons.1 hp with rfl | hp
        · rcases List.mem_cons.1 hx with rfl | hx
          · simp
          · exact List.mem_cons_of_mem _ (ih (p := q) (by simp) hx)
        · exact List.mem_cons_of_mem _ (ih (p := p) (by simp [hp]) hx)

theorem comps_mem_of {s : Str} {x : Char} (hx : x ∈ s) (hne : x ≠ '/') : ∃ p ∈ comps s, x ∈ p := by
  obtain ⟨p, h1, h2⟩ := splitCh_mem_of hx hne
  refine ⟨p, ?_, h2⟩
  unfold comps h5path
  rw [List.mem_filter]
  refine ⟨h1, ?_⟩
  cases p <;> simp_all

theorem comps_mem_sub {s p : Str} (hp : p ∈ comps s) {x : Char} (hx : x ∈ p) : x ∈ s := by
  unfold comps h5path at hp
  exact splitCh_mem_sub (List.mem_filter.1 hp).1 hx

theorem pathClash_false {p q : Path} : pathClash p q = false ↔ ¬ p <+: q ∧ ¬ q <+: p := by
  simp [pathClash, List.isPrefixOf_iff_prefix, Bool.eq_false_iff]


theorem partition_joinCh {p : Str} {ps : List Str} (h : ∀ q ∈ p :: ps, q ≠ [] ∧ '/' ∉ q ∧ '.' ∉ q) :
    (partition '.' (joinCh '.' (p :: ps))).1 = p := by
  cases ps with
  | nil => simp [joinCh, partition_notMem (h p (by simp)).2.2]
  | cons q qs =>
    have : joinCh '.' (p :: q :: qs) = p ++ '.' :: joinCh '.' (q :: qs) := rfl
    rw [this, partition_append (h p (by simp)).2.2]

/-- The components of the index of a field. -/
theorem ixPath_ixName {c : DC V} (hn : WellNamed c) {b : Bool} {s k : Str} (hF : HasField c b s k) :
    ∃ g : Path, ixPath (ixName (b, s, k)) = ch! "INDEX" :: (comps s ++ g) ∧ (b = false → g = []) ∧
      (b = true → ∃ p, g = [p] ∧ ixName (b, s, k) = s ++ ch! "/" ++ p) := by
  have e0 : ∀ n : Str, ixPath n = ch! "INDEX" :: comps n := by
    intro n
    unfold ixPath comps
    have : ch! "INDEX/" ++ n = ch! "INDEX" ++ '/' :: n := by simp
    rw [this, h5path_append, h5path_single (by decide) (by decide)]
    rfl
  cases b with
  | false => exact ⟨[], by rw [e0]; simp [ixName], by simp, by simp⟩
  | true =>
    obtain ⟨parts, hne, hp, hk⟩ := hn.keys _ _ _ hF
    obtain ⟨p, ps, rfl⟩ := List.exists_cons_of_ne_nil hne
    have e1 : (partition '.' k).1 = p := by rw [hk]; exact partition_joinCh hp
    refine ⟨[p], ?_, by simp, fun _ => ⟨p, rfl, by simp [ixName, e1]⟩⟩
    rw [e0]
    simp only [ixName, if_true, e1]
    have : s ++ ch! "/" ++ p = s ++ '/' :: p := by simp
    unfold comps
    rw [this, h5path_append, h5path_single (hp p (by simp)).2.1 (hp p (by simp)).1]

theorem fldPath_apart {c : DC V} (hn : WellNamed c) (ha : NamesApart c) {F F' : Fld} (hF : HasField c F.1 F.2.1 F.2.2)
    (hF' : HasField c F'.1 F'.2.1 F'.2.2) (hpre : fldPath F <+: fldPath F') : F = F' := by
  obtain ⟨b, s, k⟩ := F
  obtain ⟨b', s', k'⟩ := F'
  simp only at hF hF'
  obtain ⟨parts, -, hp, rfl⟩ := hn.keys _ _ _ hF
  obtain ⟨parts', -, hp', rfl⟩ := hn.keys _ _ _ hF'
  obtain ⟨e1, e2, -⟩ := key_comps hp
  obtain ⟨e1', e2', -⟩ := key_comps hp'
  unfold fldPath at hpre
  simp only [e1, e2, e1', e2'] at hpre
  rw [List.cons_prefix_cons] at hpre
  obtain ⟨h1, h2⟩ := hpre
  have hb : b = b' := by
    cases b <;> cases b' <;> first | rfl | exact absurd h1 (by decide)
  subst hb
  have hs : s = s' := by
    rcases List.prefix_or_prefix_of_prefix ((List.prefix_append _ _).trans h2) (List.prefix_append (comps s') parts') with h | h
    · exact hn.apart _ _ _ _ _ hF hF' h
    · exact (hn.apart _ _ _ _ _ hF' hF h).symm
  subst hs
  rw [List.prefix_append_right_inj] at h2
  rw [ha.keys _ _ _ _ hF hF' hp hp' h2]

theorem colon_comp {c : DC V} (hn : WellNamed c) {s : Str} (hs : s ∈ c.instrumentSources) : ∃ p ∈ comps s, ':' ∈ p := by
  obtain ⟨d, ch, -, rfl⟩ := hn.instrument s hs
  exact comps_mem_of (by simp) (by decide)

theorem ix_apart {c : DC V} (hn : WellNamed c) (ha : NamesApart c) {F F' : Fld} (hF : HasField c F.1 F.2.1 F.2.2)
    (hF' : HasField c F'.1 F'.2.1 F'.2.2) {y z : Str} (hy : y ∈ [ch! "first", ch! "count"])
    (hz : z ∈ [ch! "first", ch! "count"])
    (hpre : ixPath (ixName F) ++ [y] <+: ixPath (ixName F') ++ [z]) : ixName F = ixName F' := by
  obtain ⟨b, s, k⟩ := F
  obtain ⟨b', s', k'⟩ := F'
  simp only at hF hF'
  obtain ⟨g, e1, e2, e3⟩ := ixPath_ixName hn hF
  obtain ⟨g', e1', e2', e3'⟩ := ixPath_ixName hn hF'
  rw [e1, e1'] at hpre
  simp only [List.cons_append, List.append_assoc] at hpre
  rw [List.cons_prefix_cons] at hpre
  have hpre := hpre.2
  have hcy : ':' ∉ y := by
    rcases List.mem_cons.1 hy with rfl | hy
    · decide
    · rw [List.mem_singleton] at hy; subst hy; decide
  have hcz : ':' ∉ z := by
    rcases List.mem_cons.1 hz with rfl | hz
    · decide
    · rw [List.mem_singleton] at hz; subst hz; decide
  have nocolon : ∀ {s : Str} {k}, HasField c false s k → ∀ p ∈ comps s, ':' ∉ p := by
    intro s k h p hp hc
    exact hn.control s (by simpa using h.1) (comps_mem_sub hp hc)
  have same : ∀ {b : Bool}, HasField c b s k → HasField c b s' k' → s = s' := by
    intro b h h'
    rcases List.prefix_or_prefix_of_prefix ((List.prefix_append _ _).trans hpre) (List.prefix_append (comps s') (g' ++ [z])) with h1 | h1
    · exact hn.apart _ _ _ _ _ h h' h1
    · exact (hn.apart _ _ _ _ _ h' h h1).symm
  cases b <;> cases b'
  · rw [show ixName (false, s, k) = s from rfl, show ixName (false, s', k') = s' from rfl]
    exact same hF hF'
  · exfalso
    obtain rfl := e2 rfl
    obtain ⟨p', rfl, -⟩ := e3' rfl
    simp only [List.nil_append] at hpre
    have hs' : s' ∈ c.instrumentSources := by simpa using hF'.1
    obtain ⟨q, q1, q2⟩ := colon_comp hn hs'
    have hidx := ha.index s (by simpa using hF.1) s' hs'
    have e : comps s' ++ ([p'] ++ [z]) = (comps s' ++ [p']) ++ [z] := by simp
    rw [e, List.prefix_concat_iff] at hpre
    rcases hpre with h | h
    · have := (List.append_inj' h rfl).1
      exact nocolon hF q (by rw [this]; simp [q1]) q2
    · rw [List.prefix_concat_iff] at h
      rcases h with h | h
      · have := (List.append_inj' h rfl).1
        exact nocolon hF q (by rw [this]; exact q1) q2
      · rcases List.mem_cons.1 hy with rfl | hy
        · exact hidx.1 h
        · rw [List.mem_singleton] at hy; subst hy; exact hidx.2 h
  · exfalso
    obtain ⟨q, q1, q2⟩ := colon_comp hn (s := s) (by simpa using hF.1)
    obtain rfl := e2' rfl
    have := hpre.subset (List.mem_append_left _ q1)
    rw [List.nil_append, List.mem_append, List.mem_singleton] at this
    rcases this with h | rfl
    · exact nocolon hF' q h q2
    · exact hcz q2
  · have := same hF hF'
    subst this
    obtain ⟨p, rfl, e4⟩ := e3 rfl
    obtain ⟨p', rfl, e4'⟩ := e3' rfl
    rw [List.prefix_append_right_inj] at hpre
    simp only [List.cons_append, List.nil_append] at hpre
    rw [List.cons_prefix_cons] at hpre
    rw [e4, e4', hpre.1]

theorem ix_not_trainId {c : DC V} (hn : WellNamed c) (ha : NamesApart c) {F : Fld} (hF : HasField c F.1 F.2.1 F.2.2)
    {y : Str} (hy : y ∈ [ch! "first", ch! "count"]) :
    pathClash [ch! "INDEX", ch! "trainId"] (ixPath (ixName F) ++ [y]) = false := by
  obtain ⟨b, s, k⟩ := F
  simp only at hF
  obtain ⟨g, e1, e2, e3⟩ := ixPath_ixName hn hF
  have hs : s ∈ c.allSources := (hasField_available hF).1
  have ht := ha.trainId s hs
  have hyt : y ≠ ch! "trainId" := by
    rcases List.mem_cons.1 hy with rfl | hy
    · decide
    · rw [List.mem_singleton] at hy; subst hy; decide
  rw [pathClash_false, e1]
  have hcs : comps s = [] → g = [] := by
    intro h
    cases b with
    | false => exact e2 rfl
    | true =>
      obtain ⟨p, h1, -⟩ := colon_comp hn (s := s) (by simpa using hF.1)
      rw [h] at h1; simp at h1
  cases hc : comps s with
  | nil =>
    rw [hcs hc]
    simp [List.cons_prefix_cons, Ne.symm hyt, hyt]
  | cons p ps =>
    rw [hc] at ht
    simp only [List.head?_cons, ne_eq, Option.some.injEq] at ht
    constructor
    · simp [List.cons_prefix_cons, Ne.symm ht]
    · simp [List.cons_prefix_cons, ht]

/-! ### Control data -/

theorem labelled_count {W : Type} {a : LArr W} {tids : List Nat} (hl : AllLabelled a) (hc : a.coords = some tids) (t : Nat) :
    (labelled a t).length = tids.count t := by
  unfold AllLabelled at hl
  unfold labelled
  rw [hc] at hl ⊢
  simp only [Option.getD_some] at hl ⊢
  rw [List.length_map]
  have : ∀ (l : List Nat) (r : List W), l.length = r.length →
      ((l.zip r).filter (fun x => decide (x.1 = t))).length = l.count t := by
    intro l
    induction l with
    | nil => intro r _; simp
    | cons x l ih =>
      intro r hr
      cases r with
      | nil => simp at hr
      | cons y r =>
        simp only [List.zip_cons_cons, List.filter_cons, List.count_cons]
        have := ih r (by simpa using hr)
        by_cases hx : x = t
        · simp [hx, this]
        · simp [hx, this]
  exact this _ _ hl

/-- The labels of an array are the selected trains, each once, if and only if each has exactly one entry. -/
theorem one_each {c : DC V} {b : Bool} {s k : Str} {a : LArr V} {tids : List Nat} (hc : NoConflict c.files)
    (hT : c.trainIds.Nodup) (hv : FollowsIn c c.trainIds b s k) (ha : c.getArray s k id = .ok a) (hco : a.coords = some tids) :
    (tids.Nodup ∧ a.rows.length = c.trainIds.length) ↔ ∀ t ∈ c.trainIds, OneEntry c b s k t := by
  obtain ⟨h1, h2, h3⟩ := get_array_follows hc hv ha
  have hlen : a.rows.length = tids.length := by
    unfold AllLabelled at h1; rw [hco] at h1; exact h1.symm
  have hcount := labelled_count h1 hco
  have hsub : ∀ t ∈ tids, t ∈ c.trainIds := by
    intro t ht
    by_contra hn
    have := h3 t (Or.inl hn)
    have h4 := hcount t
    rw [this] at h4
    exact absurd (List.count_pos_iff.2 ht) (by simp at h4; omega)
  constructor
  · rintro ⟨hn, hl⟩ t ht
    have hperm : tids.Perm c.trainIds := by
      have : tids.Subperm c.trainIds := List.subperm_of_subset hn (fun t ht => hsub t ht)
      exact this.perm_of_length_le (by omega)
    have hm : t ∈ tids := hperm.mem_iff.2 ht
    have h5 : (labelled a t).length = 1 := by rw [hcount]; exact List.count_eq_one_of_mem hn hm
    have h4 : ¬ (t ∉ c.trainIds ∨ ∀ f ∈ c.files, Holds f s → t ∉ f.trainIds) := by
      intro h; rw [h3 t h] at h5; simp at h5
    push Not at h4
    obtain ⟨-, f, h6, h7, h8⟩ := h4
    have h9 := h2 t ht f h6 h7 h8
    rw [List.map_id] at h9
    rw [h9] at h5
    exact ⟨f, h6, h7, List.length_eq_one_iff.1 h5⟩
  · intro h
    have hone : ∀ t ∈ c.trainIds, tids.count t = 1 := by
      intro t ht
      obtain ⟨g, hg, hh, v, hv'⟩ := h t ht
      have htg : t ∈ g.trainIds := by
        by_contra hn
        rw [fileEntries_notMem hn] at hv'
        simp at hv'
      rw [← hcount, h2 t ht g hg hh htg, hv']
      simp
    have hn : tids.Nodup := by
      rw [List.nodup_iff_count_le_one]
      intro t
      by_cases ht : t ∈ tids
      · rw [hone t (hsub t ht)]
      · rw [List.count_eq_zero.2 ht]; simp
    refine ⟨hn, ?_⟩
    rw [hlen]
    apply List.Perm.length_eq
    rw [List.perm_iff_count]
    intro t
    by_cases ht : t ∈ c.trainIds
    · rw [hone t ht, List.count_eq_one_of_mem hT ht]
    · rw [List.count_eq_zero.2 ht, List.count_eq_zero.2 (fun h => ht (hsub t h))]

/-! ### Writing -/

/-- The keys of a source. -/
def keysOf (c : DC V) (s : Str) : List Str :=
  match c.keysForSource s with
  | .error _ => []
  | .ok ks => ks

theorem keysOf_eq {c : DC V} {s : Str} {ks : List Str} (h : c.keysForSource s = .ok ks) : keysOf c s = ks := by
  simp [keysOf, h]

theorem writeSources_eq {c : DC V} {b : Bool} {add : WState V → Str → Str → R (WState V)} {T : List Nat}
    {D : Fld → Option (Dataset V × List Nat)} {l : List Str} (hk : ∀ s ∈ l, ∃ ks, c.keysForSource s = .ok ks)
    (hadd : ∀ w s k, s ∈ l → k ∈ keysOf c s → add w s k = addFld T D w (b, s, k)) : ∀ w : WState V,
    foldE (writeSource c add) w l = foldE (addFld T D) w (l.flatMap (fun s => (keysOf c s).map (fun k => (b, s, k)))) := by
  induction l with
  | nil => intro w; rfl
  | cons s l ih =>
    intro w
    obtain ⟨ks, hks⟩ := hk s (by simp)
    have h1 : writeSource c add w s = foldE (addFld T D) w ((keysOf c s).map (fun k => (b, s, k))) := by
      unfold writeSource
      rw [hks, keysOf_eq hks]
      simp only
      rw [foldE_map]
      exact foldE_congr (fun w' k hk' => hadd w' s k (by simp) (by rw [keysOf_eq hks]; exact hk'))
    have ih := ih (fun s hs => hk s (by simp [hs])) (fun w s k hs => hadd w s k (by simp [hs]))
    have happ : ∀ (l1 l2 : List Fld), foldE (addFld T D) w (l1 ++ l2) =
        match foldE (addFld T D) w l1 with
        | .error e => .error e
        | .ok w' => foldE (addFld T D) w' l2 := by
      intro l1
      generalize w = w0
      induction l1 generalizing w0 with
      | nil => intro l2; rfl
      | cons F l1 ih1 =>
        intro l2
        simp only [List.cons_append, foldE]
        cases addFld T D w0 F with
        | error e => rfl
        | ok w1 => exact ih1 w1 l2
    simp only [List.flatMap_cons]
    rw [happ, ← h1]
    simp only [foldE]
    cases writeSource c add w s with
    | error e => rfl
    | ok w' => exact ih w'

/-- C37. For readable files and names which do not collide in one file, `write` succeeds if and only if for every field the files agree
on its type and shape, it has some data in the selected trains and, for control data, exactly one entry for each of them. -/
theorem write_succeeds_iff {c : DC V} (hw : Writable c) (ha : NamesApart c) (hk : KeysReadable c) :
    (∃ h, c.write = .ok h) ↔ ∀ b s k, HasField c b s k → ¬ Mismatch c b s k ∧ HasData c b s k ∧
      (b = false → ∀ t ∈ c.trainIds, OneEntry c b s k t) := by
  have hT : c.trainIds.Nodup := hw.trains.imp (fun h => Nat.ne_of_lt h)
  constructor
  · rintro ⟨h, hwr⟩ b s k hF
    obtain ⟨x, hx, hx2⟩ := write_hasData hwr hF
    have hv := hw.valid b s k hF
    obtain ⟨a, ha1, hD⟩ := (fldData_iff hw.noConflict hv).1 ⟨x, hx⟩
    obtain ⟨a', ha', hco, hds⟩ := fldData_some hx
    simp only at ha'
    rw [ha1] at ha'
    obtain rfl := Except.ok.inj ha'
    obtain ⟨m1, m2⟩ := get_array_mismatch_gaps id hw.noConflict hv (hasField_available hF)
    refine ⟨fun hm => ?_, hD, ?_⟩
    · rw [m1 hm] at ha1; simp at ha1
    · rintro rfl
      apply (one_each hw.noConflict hT hv ha1 hco).1
      refine ⟨?_, by have := hx2 rfl; rw [hds] at this; exact this⟩
      obtain ⟨Fs, w, hFs, hfold, -⟩ := write_ok hwr
      have hi := winv_fold (fun F hF F' hF' => ixName_instr hw.named ((hFs F).1 hF) ((hFs F').1 hF')) hfold
      obtain ⟨ix, hix⟩ := hi.ixAll (false, s, k) ((hFs _).2 hF) x hx
      obtain ⟨⟨b', s', k'⟩, g1, x', g2, g3, g4⟩ := hi.ixFrom _ _ hix
      have hF' := (hFs _).1 g1
      have hb := ixName_instr hw.named hF hF' g3
      simp only at hb hF'
      subst hb
      simp only [ixName, Bool.false_eq_true, if_false] at g3
      subst g3
      simp only [IxOk, Bool.false_eq_true, if_false] at g4
      obtain ⟨a2, h21, h22, -⟩ := fldData_some g2
      have hgrp : c.keyGroup s' k' = c.keyGroup s' k := by
        have hni : s' ∉ c.instrumentSources := by
          intro hi
          unfold DC.instrumentSources at hi
          rw [List.mem_dedup, List.mem_flatMap] at hi
          obtain ⟨f, f1, f2⟩ := hi
          have f3 := (List.mem_filter.1 f2).1
          have := (hv f f1 (Or.inr f3)).2.2.1.category
          simp only [Bool.false_eq_true, if_false] at this
          exact this.2 f3
        unfold DC.keyGroup
        rw [if_neg hni, if_neg hni]
      have := group_labels hgrp ha1 h21
      rw [h22, hco] at this
      simp only [Option.getD_some] at this
      rw [← this]
      exact g4.1
  · intro hall
    have hdat : ∀ F : Fld, HasField c F.1 F.2.1 F.2.2 → ∃ a tids, c.getArray F.2.1 F.2.2 id = .ok a ∧ a.coords = some tids ∧
        fldData c F = some (⟨a.rows, a.rowShape, a.dtype⟩, tids) ∧
        (F.1 = false → tids.Nodup ∧ a.rows.length = c.trainIds.length) := by
      rintro ⟨b, s, k⟩ hF
      simp only at hF
      obtain ⟨h1, h2, h3⟩ := hall b s k hF
      have hv := hw.valid b s k hF
      obtain ⟨a, ha1, -⟩ := (get_array_mismatch_gaps id hw.noConflict hv (hasField_available hF)).2 h1
      obtain ⟨x, hx⟩ := (fldData_iff hw.noConflict hv).2 ⟨a, ha1, h2⟩
      obtain ⟨a', ha', hco, hds⟩ := fldData_some hx
      simp only at ha'
      rw [ha1] at ha'
      obtain rfl := Except.ok.inj ha'
      refine ⟨a, x.2, ha1, hco, by rw [hx, ← hds], ?_⟩
      intro hb
      simp only at hb
      subst hb
      exact (one_each hw.noConflict hT hv ha1 hco).2 (h3 rfl)
    let Fs : List Fld := c.controlSources.flatMap (fun s => (keysOf c s).map (fun k => (false, s, k))) ++
      c.instrumentSources.flatMap (fun s => (keysOf c s).map (fun k => (true, s, k)))
    have hkeys : ∀ s ∈ c.allSources, ∃ ks, c.keysForSource s = .ok ks := hk
    have hkc : ∀ s ∈ c.controlSources, ∃ ks, c.keysForSource s = .ok ks :=
      fun s hs => hk s (by unfold DC.allSources; simp [hs])
    have hki : ∀ s ∈ c.instrumentSources, ∃ ks, c.keysForSource s = .ok ks :=
      fun s hs => hk s (by unfold DC.allSources; simp [hs])
    have hfc : ∀ s ∈ c.controlSources, ∀ k ∈ keysOf c s, HasField c false s k := by
      intro s hs k hk'
      obtain ⟨ks, hks⟩ := hkc s hs
      rw [keysOf_eq hks] at hk'
      exact ⟨by simpa using hs, ks, hks, hk'⟩
    have hfi : ∀ s ∈ c.instrumentSources, ∀ k ∈ keysOf c s, HasField c true s k := by
      intro s hs k hk'
      obtain ⟨ks, hks⟩ := hki s hs
      rw [keysOf_eq hks] at hk'
      exact ⟨by simpa using hs, ks, hks, hk'⟩
    have hFs : ∀ F ∈ Fs, HasField c F.1 F.2.1 F.2.2 := by
      intro F hF
      rcases List.mem_append.1 hF with h | h
      · obtain ⟨s, h1, h2⟩ := List.mem_flatMap.1 h
        obtain ⟨k, h3, rfl⟩ := List.mem_map.1 h2
        exact hfc s h1 k h3
      · obtain ⟨s, h1, h2⟩ := List.mem_flatMap.1 h
        obtain ⟨k, h3, rfl⟩ := List.mem_map.1 h2
        exact hfi s h1 k h3
    have hcol : ∀ F ∈ Fs, ∀ F' ∈ Fs, ixName F' = ixName F → F'.1 = F.1 :=
      fun F hF F' hF' => ixName_instr hw.named (hFs F hF) (hFs F' hF')
    have hnd : Fs.Nodup := by
      have hone : ∀ (b : Bool) (l : List Str), l.Nodup → (∀ s ∈ l, ∃ ks, c.keysForSource s = .ok ks) →
          (l.flatMap (fun s => (keysOf c s).map (fun k => ((b, s, k) : Fld)))).Nodup := by
        intro b l hl hkl
        rw [List.nodup_flatMap]
        refine ⟨?_, ?_⟩
        · intro s hs
          obtain ⟨ks, hks⟩ := hkl s hs
          rw [keysOf_eq hks]
          exact (keysForSource_nodup hks).map (fun k k' h => by simpa using h)
        · refine hl.imp ?_
          intro s s' hne
          simp only [Function.onFun, List.disjoint_left, List.mem_map]
          rintro F ⟨k, -, rfl⟩ ⟨k', -, e⟩
          simp at e
          exact hne e.1.symm
      rw [List.nodup_append]
      refine ⟨hone _ _ (List.nodup_dedup _) hkc, hone _ _ (List.nodup_dedup _) hki, ?_⟩
      intro F hF F' hF' e
      obtain ⟨s, -, h2⟩ := List.mem_flatMap.1 hF
      obtain ⟨k, -, rfl⟩ := List.mem_map.1 h2
      obtain ⟨s', -, h2'⟩ := List.mem_flatMap.1 hF'
      obtain ⟨k', -, rfl⟩ := List.mem_map.1 h2'
      simp at e
    have hpw : Fs.Pairwise (fun F F' => pathClash (fldPath F) (fldPath F') = false) := by
      refine List.Pairwise.imp_of_mem ?_ hnd
      intro F F' hF hF' hne
      rw [pathClash_false]
      exact ⟨fun h => hne (fldPath_apart hw.named ha (hFs F hF) (hFs F' hF') h),
        fun h => hne (fldPath_apart hw.named ha (hFs F' hF') (hFs F hF) h).symm⟩
    obtain ⟨w, hfold⟩ := addFlds_succeed (T := c.trainIds) hcol (D := fldData c) (by
      intro F hF
      obtain ⟨a, tids, -, -, h3, h4⟩ := hdat F (hFs F hF)
      exact ⟨_, h3, fun h => (h4 h).1⟩) hpw
    have hi := winv_fold hcol hfold
    have hnames : ∀ x ∈ w.indexes, ∃ F ∈ Fs, ixName F = x.1 := by
      intro x hx
      obtain ⟨F, h1, -, -, h2, -⟩ := hi.ixFrom x.1 x.2 ((Dict.get?_eq_some_iff (indexes_nodup hfold)).2 hx)
      exact ⟨F, h1, h2⟩
    obtain ⟨index, hindex⟩ := writeIndexes_succeed (l := w.indexes) (by
      intro x hx y hy
      obtain ⟨F, h1, h2⟩ := hnames x hx
      rw [← h2]
      exact ix_not_trainId hw.named ha (hFs F h1) hy) (by
      have hnd := indexes_nodup hfold
      unfold Dict.keys at hnd
      rw [List.Nodup, List.pairwise_map] at hnd
      refine List.Pairwise.imp_of_mem ?_ hnd
      intro x x' hx hx' hne y hy z hz
      obtain ⟨F, h1, h2⟩ := hnames x hx
      obtain ⟨F', h1', h2'⟩ := hnames x' hx'
      rw [← h2, ← h2', pathClash_false]
      rw [← h2, ← h2'] at hne
      exact ⟨fun h => hne (ix_apart hw.named ha (hFs F h1) (hFs F' h1') hy hz h),
        fun h => hne (ix_apart hw.named ha (hFs F' h1') (hFs F h1) hz hy h).symm⟩)
    have eC := writeSources_eq (c := c) (b := false) (add := addControl c) (T := c.trainIds) (D := fldData c) hkc (by
      intro w s k hs hk'
      obtain ⟨a, tids, h1, h2, h3, h4⟩ := hdat (false, s, k) (hfc s hs k hk')
      unfold addControl addFld
      simp only at h1
      rw [h1, h3]
      simp only
      rw [if_neg (by rw [(h4 rfl).2]; simp)]
      cases hcr : w.create (dataPath (ch! "CONTROL") s k) ⟨a.rows, a.rowShape, a.dtype⟩ with
      | error e => rw [show w.create (dataPath (sectionName false) s k) _ = .error e from hcr]
      | ok w1 =>
        rw [show w.create (dataPath (sectionName false) s k) _ = .ok w1 from hcr, h2]
        simp [makeIx])
    have eI := writeSources_eq (c := c) (b := true) (add := addInstrument c) (T := c.trainIds) (D := fldData c) hki (by
      intro w s k hs hk'
      obtain ⟨a, tids, h1, h2, h3, h4⟩ := hdat (true, s, k) (hfi s hs k hk')
      unfold addInstrument addFld
      simp only at h1
      rw [h1, h3]
      simp only
      cases hcr : w.create (dataPath (ch! "INSTRUMENT") s k) ⟨a.rows, a.rowShape, a.dtype⟩ with
      | error e => rw [show w.create (dataPath (sectionName true) s k) _ = .error e from hcr]
      | ok w1 =>
        rw [show w.create (dataPath (sectionName true) s k) _ = .ok w1 from hcr, h2]
        simp [makeIx])
    obtain ⟨w1, f1, f2⟩ := foldE_append.1 hfold
    refine ⟨⟨some c.trainIds, none, some (sortStrs w.sources), none, index, [], w.datasets⟩, ?_⟩
    unfold DC.write writeWith
    rw [eC, f1]
    simp only
    rw [eI, f2]
    simp only
    unfold WState.finish
    rw [hindex]

/-- The names of `exWrite` are apart. -/
theorem exWrite_apart : NamesApart exWrite := by
  refine ⟨?_, ?_, ?_⟩
  · intro b s parts parts' h h' hp hp' hpre
    have : joinCh '.' parts = joinCh '.' parts' ∧ joinCh '.' parts ≠ [] := by
      rcases exWrite_field h with ⟨rfl, rfl, e⟩ | ⟨rfl, rfl, e⟩ <;> rcases exWrite_field h' with ⟨hb, -, e'⟩ | ⟨hb, -, e'⟩
      · rw [e, e']; decide
      · simp at hb
      · simp at hb
      · rw [e, e']; decide
    have h1 : parts ≠ [] := by rintro rfl; exact this.2 rfl
    have h2 : parts' ≠ [] := by rintro rfl; exact this.2 (this.1.trans rfl)
    rw [← splitCh_joinCh h1 (fun p h => (hp p h).2.2), this.1, splitCh_joinCh h2 (fun p h => (hp' p h).2.2)]
  · have e : exWrite.allSources = [ch! "C", ch! "D:o"] := by decide
    rw [e]; decide
  · have e : exWrite.instrumentSources = [ch! "D:o"] := by decide
    have e' : exWrite.controlSources = [ch! "C"] := by decide
    rw [e, e']; decide

theorem exWrite_keys : KeysReadable exWrite := by
  have e : exWrite.allSources = [ch! "C", ch! "D:o"] := by decide
  intro s hs
  rw [e] at hs
  rcases List.mem_cons.1 hs with rfl | hs
  · exact ⟨[ch! "x.value"], by decide⟩
  · obtain rfl := List.mem_singleton.1 hs
    exact ⟨[ch! "data.y"], by decide⟩

/-- It can be written, so every control field has one entry in each train; with control data of two trains only it can not. -/
example : (∀ t ∈ [1, 2, 3], OneEntry exWrite false (ch! "C") (ch! "x.value") t) ∧
    (({ exWrite with files := [exInst (ch! "a") [1, 2] [0, 2] [2, 1] [10, 11, 12], exInst (ch! "b") [3, 4] [0, 1] [1, 0] [20],
        exCtrl (ch! "c") [1, 2] [0, 1] [1, 1] [31, 32]] } : DC Nat).write).toBool = false := by
  have h : (exWrite.write).toBool = true := by decide
  refine ⟨fun t ht => ?_, by decide⟩
  refine ((write_succeeds_iff exWrite_writable exWrite_apart exWrite_keys).1 ?_ false (ch! "C") (ch! "x.value")
    ⟨by decide, [ch! "x.value"], by decide, by decide⟩).2.2 rfl t ht
  cases hw : exWrite.write with
  | error e => rw [hw] at h; simp [Except.toBool] at h
  | ok x => exact ⟨x, rfl⟩

end KD
