/- Property C113: detector data without pulses, joined over the modules. -/
import Verif.Spec.DetSlow
import Verif.Props.DetSuccess
import Verif.Props.AnyIndex

set_option linter.unusedSimpArgs false

namespace KD
open Spec

variable {V : Type}

/-! ### Labels -/

theorem slowLabels_ok {cs : List (Option (List Nat))} {L : Option (List Nat)} (h : slowLabels cs = .ok L) :
    (∀ c ∈ cs, c = L ∨ (c.getD []).Nodup ∧ (L.getD []).Nodup ∧ ∀ t ∈ c.getD [], t ∈ L.getD []) ∧
    (∀ t, t ∈ L.getD [] ↔ ∃ c ∈ cs, t ∈ c.getD []) ∧ (L = none → ∀ c ∈ cs, c = none) := by
  unfold slowLabels at h
  cases cs with
  | nil => simp at h
  | cons c rest =>
    simp only at h
    by_cases h1 : rest.all (fun c' => decide (c' = c)) = true
    · rw [if_pos h1] at h
      obtain rfl := Except.ok.inj h
      have hall : ∀ c' ∈ c :: rest, c' = c := by
        intro c' hc'
        rcases List.mem_cons.1 hc' with rfl | hc'
        · rfl
        · simpa using List.all_eq_true.1 h1 c' hc'
      refine ⟨fun c' hc' => Or.inl (hall c' hc'), ?_, ?_⟩
      · intro t
        constructor
        · intro ht; exact ⟨c, by simp, ht⟩
        · rintro ⟨c', hc', ht⟩; rw [hall c' hc'] at ht; exact ht
      · intro hn c' hc'
        rw [hall c' hc', hn]
    · rw [if_neg h1] at h
      split at h
      · rename_i h2
        obtain rfl := Except.ok.inj h
        have h2 := List.all_eq_true.1 h2
        have hmem : ∀ t, t ∈ sortedSet ((c :: rest).flatMap (fun c' => c'.getD [])) ↔ ∃ c' ∈ c :: rest, t ∈ c'.getD [] := by
          intro t
          rw [mem_sortedSet, List.mem_flatMap]
        refine ⟨?_, hmem, by simp⟩
        intro c' hc'
        refine Or.inr ⟨(by simpa using h2 c' hc' : _ ∧ _).2, ?_, ?_⟩
        · exact (sortedSet_pairwise _).imp (fun h => Nat.ne_of_lt h)
        · intro t ht
          exact (hmem t).2 ⟨c', hc', ht⟩
      · simp at h

/-! ### Entries -/

theorem entriesAt_self : ∀ (T : List Nat) (rows : List V) (t : Nat),
    entriesAt (some T) (rows.map some) t = ((T.zip rows).filter (fun x => x.1 = t)).map Prod.snd
  | [], _, _ => by simp [entriesAt]
  | _ :: _, [], _ => by simp [entriesAt]
  | a :: T, r :: rows, t => by
    have ih := entriesAt_self T rows t
    unfold entriesAt at ih ⊢
    simp only [Option.getD_some, List.map_cons, List.zip_cons_cons, List.filterMap_cons] at ih ⊢
    by_cases h : a = t
    · simp only [h, if_true, List.filter_cons, decide_true, List.map_cons]
      rw [ih]
    · simp only [h, if_false, List.filter_cons, decide_false]
      rw [ih]
      simp

theorem entriesAt_aligned (g : Nat → Option V) (t : Nat) : ∀ (T : List Nat), T.Nodup →
    entriesAt (some T) (T.map g) t = if t ∈ T then (g t).toList else []
  | [], _ => by simp [entriesAt]
  | a :: T, hn => by
    have ih := entriesAt_aligned g t T (List.nodup_cons.1 hn).2
    unfold entriesAt at ih ⊢
    simp only [Option.getD_some, List.map_cons, List.zip_cons_cons, List.filterMap_cons] at ih ⊢
    by_cases h : a = t
    · subst h
      have : a ∉ T := (List.nodup_cons.1 hn).1
      rw [if_neg this] at ih
      simp only [if_true, List.mem_cons, true_or]
      rw [ih]
      cases g a <;> rfl
    · simp only [h, if_false, List.mem_cons]
      rw [ih]
      have h' : ¬ t = a := fun e => h e.symm
      simp [h']

theorem labelled_nodup (t : Nat) : ∀ (l : List (Nat × V)), (l.map Prod.fst).Nodup →
    (l.filter (fun x => x.1 = t)).map Prod.snd = (Dict.get? l t).toList
  | [], _ => rfl
  | (k, v) :: l, hn => by
    rw [List.map_cons, List.nodup_cons] at hn
    have ih := labelled_nodup t l hn.2
    rw [Dict.get?_cons]
    by_cases h : k = t
    · subst h
      have : l.filter (fun x => decide (x.1 = k)) = [] := by
        rw [List.filter_eq_nil_iff]
        intro x hx
        simp only [decide_eq_true_eq]
        intro e
        exact hn.1 (List.mem_map.2 ⟨x, hx, e⟩)
      simp [List.filter_cons, this]
    · simp only [List.filter_cons, h, decide_false, if_false]
      rw [if_neg (by simp)]
      exact ih

theorem alignSlow_entries {L : Option (List Nat)} {b : LArr V} (hl : AllLabelled b)
    (h : b.coords = L ∨ (b.coords.getD []).Nodup ∧ (L.getD []).Nodup ∧ ∀ t ∈ b.coords.getD [], t ∈ L.getD []) (t : Nat) :
    entriesAt L (alignSlow L b) t = labelled b t := by
  unfold alignSlow labelled
  by_cases he : b.coords = L
  · rw [if_pos he, he]
    cases L with
    | none => simp [entriesAt]
    | some T => exact entriesAt_self T b.rows t
  · rw [if_neg he]
    obtain ⟨h1, h2, h3⟩ := h.resolve_left he
    have hz : ((b.coords.getD []).zip b.rows).map Prod.fst = b.coords.getD [] :=
      List.map_fst_zip (le_of_eq hl)
    rw [labelled_nodup t _ (by rw [hz]; exact h1)]
    have := entriesAt_aligned (Dict.get? ((b.coords.getD []).zip b.rows)) t (L.getD []) h2
    have e : entriesAt L ((L.getD []).map (Dict.get? ((b.coords.getD []).zip b.rows))) t =
        entriesAt (some (L.getD [])) ((L.getD []).map (Dict.get? ((b.coords.getD []).zip b.rows))) t := by
      simp [entriesAt]
    rw [e, this]
    split
    · rfl
    · rename_i hnot
      have : Dict.get? ((b.coords.getD []).zip b.rows) t = none := by
        rw [Dict.get?_none_iff]
        unfold Dict.keys
        rw [hz]
        exact fun hm => hnot (h3 t hm)
      rw [this]
      rfl

theorem alignSlow_length {L : Option (List Nat)} {b : LArr V} (hl : AllLabelled b) :
    (alignSlow L b).length = (L.getD []).length := by
  unfold alignSlow
  split
  · rename_i h
    rw [← h, List.length_map]
    exact hl.symm
  · simp

theorem labelled_ne_nil {b : LArr V} (hl : AllLabelled b) (t : Nat) : labelled b t ≠ [] ↔ t ∈ b.coords.getD [] := by
  unfold labelled
  have hz : ((b.coords.getD []).zip b.rows).map Prod.fst = b.coords.getD [] := List.map_fst_zip (le_of_eq hl)
  rw [Ne, List.map_eq_nil_iff, List.filter_eq_nil_iff]
  constructor
  · intro h
    by_contra hn
    apply h
    intro x hx
    simp only [decide_eq_true_eq]
    intro e
    apply hn
    rw [← hz, ← e]
    exact List.mem_map_of_mem hx
  · intro h hall
    rw [← hz] at h
    obtain ⟨x, hx, e⟩ := List.mem_map.1 h
    exact hall x hx (by simpa using e)

/-! ### The array -/

theorem slowPart_ok {d : Det V} {key : Str} {x : Nat × Str} {y : Nat × LArr V} :
    d.slowPart key x = .ok y ↔ d.data.getArray x.2 key id = .ok y.2 ∧ y.1 = x.1 := by
  obtain ⟨m, a⟩ := y
  unfold Det.slowPart
  split
  · rename_i e he; simp [he]
  · rename_i b hb; simp [hb]; tauto

theorem getArray_slow {d : Det V} {libs : Libs} {num : V → Nat} {key : Str} {arg : PulseArg} {ps : Pulses}
    (hk : ¬ ∃ rest, key = ch! "image." ++ rest) (hps : checkPulses libs arg = .ok ps) :
    d.getArray libs num key arg =
      match mapE (d.slowPart key) d.modules with
      | .error e => .error e
      | .ok l =>
        match concatSlow l with
        | .error e => .error e
        | .ok a => .ok (.slow a) := by
  have hkey : startsWith key (ch! "image.") = false := by
    rw [Bool.eq_false_iff, Ne, startsWith_iff]
    exact hk
  unfold Det.getArray
  rw [hps]
  simp only [hkey]
  rfl

/-- The arrays of the modules behind a result. -/
theorem slow_parts {kind : Option Str} {c : DC V} {name : Option Str} {modules : Option (List Nat)} {minModules : Int}
    {d : Det V} {libs : Libs} {num : V → Nat} {key : Str} {arg : PulseArg} {r : DetResult V}
    (hd : Det.init kind c name modules minModules = .ok d) (hk : ¬ ∃ rest, key = ch! "image." ++ rest)
    (h : d.getArray libs num key arg = .ok r) :
    ∃ (l : List (Nat × LArr V)) (a : SlowArr V) (shape : List Nat), r = .slow a ∧ slowLabels (l.map (fun x => x.2.coords)) = .ok a.labels ∧
      a = ⟨l.map Prod.fst, a.labels, shape, l.map (fun x => alignSlow a.labels x.2)⟩ ∧
      (l.map Prod.fst).Pairwise (· < ·) ∧ ((∀ x ∈ l, x.2.rowShape <+: shape) ∧ ∃ x ∈ l, shape = x.2.rowShape) ∧
      ∀ m b, (m, b) ∈ l ↔ ∃ source, (source, m) ∈ d.sourceToModno ∧ d.data.getArray source key id = .ok b := by
  obtain ⟨hm, hord⟩ := detector_modules hd
  have hps : ∃ ps, checkPulses libs arg = .ok ps := by
    unfold Det.getArray at h
    split at h
    · simp at h
    · rename_i ps hps; exact ⟨ps, hps⟩
  obtain ⟨ps, hps⟩ := hps
  rw [getArray_slow hk hps] at h
  cases hl : mapE (d.slowPart key) d.modules with
  | error e => rw [hl] at h; simp at h
  | ok l =>
    rw [hl] at h
    simp only at h
    cases ha : concatSlow l with
    | error e => rw [ha] at h; simp at h
    | ok a =>
      rw [ha] at h
      obtain rfl := Except.ok.inj h
      unfold concatSlow at ha
      cases hs : slowLabels (l.map (fun x => x.2.coords)) with
      | error e => rw [hs] at ha; simp at ha
      | ok L =>
        rw [hs] at ha
        simp only at ha
        split at ha
        · simp at ha
        · rename_i shape hsh
          obtain rfl := Except.ok.inj ha
          refine ⟨l, _, shape, rfl, hs, rfl, ?_, ?_, ?_⟩
          · rw [List.pairwise_map] at hord ⊢
            refine mapE_pairwise hl hord ?_
            intro a _ b _ x y hab hx hy
            rw [(slowPart_ok.1 hx).2, (slowPart_ok.1 hy).2]
            exact hab
          · obtain ⟨h1, h2⟩ := joinSizes_ok hsh
            refine ⟨fun x hx => h1 _ (List.mem_map.2 ⟨x, hx, rfl⟩), ?_⟩
            have hne : l ≠ [] := by
              rintro rfl
              simp [slowLabels] at hs
            obtain ⟨x, hx, e⟩ := List.mem_map.1 (h2 (by simpa using hne))
            exact ⟨x, hx, e.symm⟩
          · intro m b
            rw [mapE_mem hl]
            constructor
            · rintro ⟨⟨m', s⟩, hx, hy⟩
              obtain ⟨h1, h2⟩ := slowPart_ok.1 hy
              simp only at h1 h2
              subst h2
              exact ⟨s, (hm s m).1 hx, h1⟩
            · rintro ⟨s, h1, h2⟩
              exact ⟨(m, s), (hm s m).2 h1, slowPart_ok.2 ⟨h2, rfl⟩⟩

/-- C113. The result for a key which does not begin with `image.` has the modules of the detector in order. -/
theorem slow_array_modules {kind : Option Str} {c : DC V} {name : Option Str} {modules : Option (List Nat)} {minModules : Int}
    {d : Det V} {libs : Libs} {num : V → Nat} {key : Str} {arg : PulseArg} {r : DetResult V}
    (hd : Det.init kind c name modules minModules = .ok d) (hk : ¬ ∃ rest, key = ch! "image." ++ rest)
    (h : d.getArray libs num key arg = .ok r) :
    ∃ a, r = .slow a ∧ a.modules.Pairwise (· < ·) ∧ (∀ m, m ∈ a.modules ↔ ∃ source, (source, m) ∈ d.sourceToModno) ∧
      a.rows.length = a.modules.length := by
  have hps : ∃ ps, checkPulses libs arg = .ok ps := by
    unfold Det.getArray at h
    split at h
    · simp at h
    · rename_i ps hps; exact ⟨ps, hps⟩
  obtain ⟨l, a, shape, rfl, -, e, hord, -, hm⟩ := slow_parts hd hk h
  refine ⟨a, rfl, ?_, ?_, ?_⟩
  · rw [e]; exact hord
  · intro m
    rw [e]
    simp only [List.mem_map]
    constructor
    · rintro ⟨⟨m', b⟩, hx, rfl⟩
      obtain ⟨s, h1, -⟩ := (hm m' b).1 hx
      exact ⟨s, h1⟩
    · rintro ⟨s, hs⟩
      obtain ⟨ps, hps⟩ := hps
      rw [getArray_slow hk hps] at h
      cases hl : mapE (d.slowPart key) d.modules with
      | error e => rw [hl] at h; simp at h
      | ok l' =>
        obtain ⟨y, -, hy⟩ := mapE_ok_all hl (((detector_modules hd).1 s m).2 hs)
        obtain ⟨h1, h2⟩ := slowPart_ok.1 hy
        exact ⟨(m, y.2), (hm m y.2).2 ⟨s, hs, h1⟩, rfl⟩
  · rw [e]; simp

/-- C113. The shape of an entry of the array begins with that of the entries of each module (xarray repeats smaller ones), and one module has
this shape. So if the entries of two modules have shapes of which none begins with the other, the call fails. -/
theorem slow_array_shape {kind : Option Str} {c : DC V} {name : Option Str} {modules : Option (List Nat)} {minModules : Int}
    {d : Det V} {libs : Libs} {num : V → Nat} {key : Str} {arg : PulseArg} {a : SlowArr V}
    (hd : Det.init kind c name modules minModules = .ok d) (hk : ¬ ∃ rest, key = ch! "image." ++ rest)
    (h : d.getArray libs num key arg = .ok (.slow a)) :
    (∀ x ∈ d.sourceToModno, ∃ b, d.data.getArray x.1 key id = .ok b ∧ b.rowShape <+: a.rowShape) ∧
    ∃ x ∈ d.sourceToModno, ∃ b, d.data.getArray x.1 key id = .ok b ∧ b.rowShape = a.rowShape := by
  have hmods := slow_array_modules hd hk h
  obtain ⟨l, a', shape, ha', hL, e, hord, ⟨s1, y, s2, s3⟩, hm⟩ := slow_parts hd hk h
  obtain rfl := DetResult.slow.inj ha'
  obtain ⟨a', ha', -, hmem, -⟩ := hmods
  obtain rfl := DetResult.slow.inj ha'
  have hshape : a.rowShape = shape := by rw [e]
  rw [hshape]
  refine ⟨?_, ?_⟩
  · rintro ⟨s, m⟩ hx
    have := (hmem m).2 ⟨s, hx⟩
    rw [e] at this
    obtain ⟨⟨m', b⟩, hb, rfl⟩ := List.mem_map.1 this
    obtain ⟨s', hs', hg⟩ := (hm _ b).1 hb
    have hss : s' = s := by
      have := List.inj_on_of_nodup_map (init_ok hd).2.2.2.1 hs' hx rfl
      exact (Prod.mk.inj this).1
    subst hss
    exact ⟨b, hg, s1 _ hb⟩
  · obtain ⟨m, b⟩ := y
    obtain ⟨s, hs, hg⟩ := (hm m b).1 s2
    exact ⟨_, hs, b, hg, s3.symm⟩

/-- C113. Each module has, for each train, the entries which the files have for it, at the places labelled with this
train, and nothing else: other places labelled with the train are missing (NaN). -/
theorem slow_array_cells {kind : Option Str} {c : DC V} {name : Option Str} {modules : Option (List Nat)} {minModules : Int}
    {d : Det V} {libs : Libs} {num : V → Nat} {key : Str} {arg : PulseArg} {a : SlowArr V}
    (hd : Det.init kind c name modules minModules = .ok d) (hp : PlainSources d)
    (hk : ¬ ∃ rest, key = ch! "image." ++ rest) (h : d.getArray libs num key arg = .ok (.slow a))
    {source : Str} {i m : Nat} (hs : (source, m) ∈ d.sourceToModno) (hi : a.modules[i]? = some m)
    (hv : FollowsIn d.data d.data.trainIds true source key) :
    ∃ col, a.rows[i]? = some col ∧ col.length = (a.labels.getD []).length ∧
      (∀ t ∈ d.data.trainIds, ∀ f ∈ d.data.files, Holds f source → t ∈ f.trainIds →
        entriesAt a.labels col t = fileEntries f true source key t) ∧
      ∀ t, t ∉ d.data.trainIds ∨ (∀ f ∈ d.data.files, Holds f source → t ∉ f.trainIds) →
        entriesAt a.labels col t = [] := by
  obtain ⟨l, a', shape, ha', hL, e, hord, -, hm⟩ := slow_parts hd hk h
  obtain rfl := DetResult.slow.inj ha'
  rw [e] at hi
  simp only [List.getElem?_map, Option.map_eq_some_iff] at hi
  obtain ⟨⟨m', b⟩, hb, rfl⟩ := hi
  have hmem := List.mem_of_getElem? hb
  obtain ⟨s', hs', hg⟩ := (hm _ _).1 hmem
  obtain ⟨hmo, hmp⟩ := detector_modules hd
  have hss : s' = source := by
    have h1 := (hmo s' _).2 hs'
    have h2 := (hmo source _).2 hs
    have hn : (d.modules.map Prod.fst).Nodup := hmp.imp (fun h => Nat.ne_of_lt h)
    have := List.inj_on_of_nodup_map hn h1 h2 rfl
    exact congrArg Prod.snd this
  subst hss
  have hc := (init_data hd hp).1
  obtain ⟨hlab, hin, hout⟩ := get_array_follows hc hv hg
  have hent := alignSlow_entries (L := a.labels) hlab ((slowLabels_ok hL).1 b.coords (List.mem_map.2 ⟨_, hmem, rfl⟩))
  refine ⟨alignSlow a.labels b, ?_, alignSlow_length hlab, ?_, ?_⟩
  · conv_lhs => rw [e]
    simp only [List.getElem?_map, hb]
    rfl
  · intro t ht f hf hh htf
    rw [hent, hin t ht f hf hh htf, List.map_id]
  · intro t ht
    rw [hent, hout t ht]

/-- C113. The train labels are those of the trains for which some module has an entry. -/
theorem slow_array_labels {kind : Option Str} {c : DC V} {name : Option Str} {modules : Option (List Nat)} {minModules : Int}
    {d : Det V} {libs : Libs} {num : V → Nat} {key : Str} {arg : PulseArg} {a : SlowArr V}
    (hd : Det.init kind c name modules minModules = .ok d) (hp : PlainSources d)
    (hk : ¬ ∃ rest, key = ch! "image." ++ rest) (h : d.getArray libs num key arg = .ok (.slow a))
    (hv : ∀ x ∈ d.sourceToModno, FollowsIn d.data d.data.trainIds true x.1 key) (t : Nat) :
    t ∈ a.labels.getD [] ↔ ∃ x ∈ d.sourceToModno, HasEntries d x.1 key t := by
  obtain ⟨l, a', shape, ha', hL, e, hord, -, hm⟩ := slow_parts hd hk h
  obtain rfl := DetResult.slow.inj ha'
  have hc := (init_data hd hp).1
  rw [(slowLabels_ok hL).2.1 t]
  have key_ : ∀ source b, (∃ m, (source, m) ∈ d.sourceToModno) → d.data.getArray source key id = .ok b →
      (t ∈ b.coords.getD [] ↔ HasEntries d source key t) := by
    rintro source b ⟨m, hsm⟩ hg
    obtain ⟨hlab, hin, hout⟩ := get_array_follows hc (hv _ hsm) hg
    rw [← labelled_ne_nil hlab]
    constructor
    · intro hne
      by_cases h1 : t ∈ d.data.trainIds
      · by_cases h2 : ∀ f ∈ d.data.files, Holds f source → t ∉ f.trainIds
        · exact absurd (hout t (Or.inr h2)) hne
        · have : ∃ f ∈ d.data.files, Holds f source ∧ t ∈ f.trainIds := by
            by_contra hno
            exact h2 (fun f hf hh htf => hno ⟨f, hf, hh, htf⟩)
          obtain ⟨f, hf, hh, htf⟩ := this
          refine ⟨h1, f, hf, hh, htf, ?_⟩
          intro h0
          apply hne
          rw [hin t h1 f hf hh htf, h0]
          rfl
      · exact absurd (hout t (Or.inl h1)) hne
    · rintro ⟨h1, f, hf, hh, htf, h0⟩
      rw [hin t h1 f hf hh htf, List.map_id]
      exact h0
  constructor
  · rintro ⟨co, hco, ht⟩
    obtain ⟨⟨m, b⟩, hb, rfl⟩ := List.mem_map.1 hco
    obtain ⟨source, hs, hg⟩ := (hm m b).1 hb
    exact ⟨(source, m), hs, (key_ source b ⟨m, hs⟩ hg).1 ht⟩
  · rintro ⟨⟨source, m⟩, hx, he⟩
    obtain ⟨a2, ha2, -, -, -⟩ := slow_array_modules hd hk h
    have : ∃ b, d.data.getArray source key id = .ok b := by
      have hps : ∃ ps, checkPulses libs arg = .ok ps := by
        unfold Det.getArray at h
        split at h
        · simp at h
        · rename_i ps hps; exact ⟨ps, hps⟩
      obtain ⟨ps, hps⟩ := hps
      rw [getArray_slow hk hps] at h
      cases hl : mapE (d.slowPart key) d.modules with
      | error e => rw [hl] at h; simp at h
      | ok l' =>
        obtain ⟨y, -, hy⟩ := mapE_ok_all hl (((detector_modules hd).1 source m).2 hx)
        exact ⟨y.2, (slowPart_ok.1 hy).1⟩
    obtain ⟨b, hg⟩ := this
    exact ⟨b.coords, List.mem_map.2 ⟨(m, b), (hm m b).2 ⟨source, hx, hg⟩, rfl⟩, (key_ source b ⟨m, hx⟩ hg).2 he⟩

/-- C113. There is a result when each module has an array, with a label for each train at most once, and all entries have
the same shape. -/
theorem slow_array_succeeds {kind : Option Str} {c : DC V} {name : Option Str} {modules : Option (List Nat)} {minModules : Int}
    {d : Det V} {libs : Libs} {num : V → Nat} {key : Str} {arg : PulseArg} {ps : Pulses} {shape : List Nat}
    (hd : Det.init kind c name modules minModules = .ok d) (hk : ¬ ∃ rest, key = ch! "image." ++ rest)
    (hps : checkPulses libs arg = .ok ps)
    (hall : ∀ x ∈ d.sourceToModno, ∃ b T, d.data.getArray x.1 key id = .ok b ∧ b.coords = some T ∧ T.Nodup ∧ b.rowShape = shape) :
    ∃ a, d.getArray libs num key arg = .ok (.slow a) := by
  obtain ⟨hm, -⟩ := detector_modules hd
  obtain ⟨l, hl⟩ := mapE_exists_ok (f := d.slowPart key) (l := d.modules) (fun x hx => by
    obtain ⟨b, T, hb, -, -, -⟩ := hall _ ((hm x.2 x.1).1 hx)
    exact ⟨(x.1, b), slowPart_ok.2 ⟨hb, rfl⟩⟩)
  have hl2 : ∀ y ∈ l, ∃ T, y.2.coords = some T ∧ T.Nodup ∧ y.2.rowShape = shape := by
    intro y hy
    obtain ⟨x, hx, hxy⟩ := (mapE_mem hl).1 hy
    obtain ⟨b, T, hb, h1, h2, h3⟩ := hall _ ((hm x.2 x.1).1 hx)
    have := (slowPart_ok.1 hxy).1
    rw [hb] at this
    rw [← Except.ok.inj this]
    exact ⟨T, h1, h2, h3⟩
  have hne : l ≠ [] := by
    obtain ⟨s, m, hsm⟩ : ∃ s m, (s, m) ∈ d.sourceToModno := by
      obtain ⟨x, hx⟩ := List.exists_mem_of_ne_nil _ (init_sources_ne hd)
      exact ⟨x.1, x.2, hx⟩
    obtain ⟨y, hy, -⟩ := mapE_ok_all hl ((hm s m).2 hsm)
    exact List.ne_nil_of_mem hy
  rw [getArray_slow hk hps, hl]
  simp only
  have hlab : ∃ L, slowLabels (l.map (fun x => x.2.coords)) = .ok L := by
    unfold slowLabels
    cases hlm : l.map (fun x => x.2.coords) with
    | nil => exact absurd (List.map_eq_nil_iff.1 hlm) hne
    | cons c0 rest =>
      simp only
      split
      · exact ⟨_, rfl⟩
      · rw [if_pos]
        · exact ⟨_, rfl⟩
        · rw [← hlm, List.all_eq_true]
          intro co hco
          obtain ⟨y, hy, rfl⟩ := List.mem_map.1 hco
          obtain ⟨T, h1, h2, -⟩ := hl2 y hy
          simp [h1, h2]
  obtain ⟨L, hL⟩ := hlab
  have hsh : joinSizes (l.map (fun x => x.2.rowShape)) = .ok shape := by
    refine joinSizes_same ?_ (by simpa using hne)
    intro s hs
    obtain ⟨y, hy, rfl⟩ := List.mem_map.1 hs
    obtain ⟨T, -, -, h3⟩ := hl2 y hy
    exact h3
  unfold concatSlow
  rw [hL]
  simp only [hsh]
  exact ⟨_, rfl⟩

/-- C113. When one module has no data at all and another one has some, the call fails. -/
theorem slow_array_no_data {kind : Option Str} {c : DC V} {name : Option Str} {modules : Option (List Nat)} {minModules : Int}
    {d : Det V} {libs : Libs} {num : V → Nat} {key : Str} {arg : PulseArg} {x y : Str × Nat} {b b' : LArr V}
    (hd : Det.init kind c name modules minModules = .ok d) (hk : ¬ ∃ rest, key = ch! "image." ++ rest)
    (hx : x ∈ d.sourceToModno) (hy : y ∈ d.sourceToModno) (hb : d.data.getArray x.1 key id = .ok b)
    (hb' : d.data.getArray y.1 key id = .ok b') (hn : b.coords = none) (hn' : b'.coords ≠ none) :
    ∃ e, d.getArray libs num key arg = .error e := by
  cases h : d.getArray libs num key arg with
  | error e => exact ⟨e, rfl⟩
  | ok r =>
    exfalso
    obtain ⟨l, a, shape, rfl, hL, -, -, -, hm⟩ := slow_parts hd hk h
    have hm1 : (b.coords) ∈ l.map (fun x => x.2.coords) :=
      List.mem_map.2 ⟨(x.2, b), (hm _ _).2 ⟨x.1, hx, hb⟩, rfl⟩
    have hm2 : (b'.coords) ∈ l.map (fun x => x.2.coords) :=
      List.mem_map.2 ⟨(y.2, b'), (hm _ _).2 ⟨y.1, hy, hb'⟩, rfl⟩
    unfold slowLabels at hL
    cases hlm : l.map (fun x => x.2.coords) with
    | nil => rw [hlm] at hm1; simp at hm1
    | cons c0 rest =>
      rw [hlm] at hL hm1 hm2
      simp only at hL
      split at hL
      · rename_i hall
        have : ∀ co ∈ c0 :: rest, co = c0 := by
          intro co hco
          rcases List.mem_cons.1 hco with rfl | hco
          · rfl
          · simpa using List.all_eq_true.1 hall co hco
        exact hn' ((this _ hm2).trans ((this _ hm1).symm.trans hn))
      · split at hL
        · rename_i hall
          have := List.all_eq_true.1 hall _ hm1
          simp [hn] at this
        · simp at hL

end KD

namespace KD
open Spec

/-! ### An example -/

/-- A file of a module with one more group: data without pulses. -/
def exSlow (n : Char) (ids rows firsts counts slow : List Nat) (imageCounts : List Nat) : FileAccess Nat :=
  let f := exModule n [10, 11, 12] [0, 2, 4] imageCounts ids rows
  { f with file := { f.file with
      index := f.file.index ++ [([ch! "INDEX", ch! "X_AGIPD1M-1", ch! "DET", [n] ++ ch! "CH0:xtdf", ch! "detector"],
        ⟨some (firsts.map (BitVec.ofNat 64)), some (counts.map (BitVec.ofNat 64)), none, none⟩)],
      datasets := f.file.datasets ++ [([ch! "INSTRUMENT", ch! "X_AGIPD1M-1", ch! "DET", [n] ++ ch! "CH0:xtdf", ch! "detector",
        ch! "data"], ⟨slow, [3], 0⟩)] } }

/-- Two modules: module 3 has no entry for train 11, module 0 none for train 12. -/
def exSlowData : DC Nat where
  files := [exSlow '3' [5, 7, 5, 7] [100, 101, 110, 111] [0, 1, 1] [1, 0, 1] [1000, 1200] [2, 2, 0],
    exSlow '0' [5, 7, 5, 7, 5, 7] [200, 201, 210, 211, 220, 221] [0, 1, 2] [1, 1, 0] [2000, 2100] [2, 2, 2]]
  selection := [(exSource '3', none), (exSource '0', none)]
  trainIds := [10, 11, 12]
  ctxCloses := true

/-- The detector object for it. -/
def exSlowDet : Det Nat where
  name := ch! "X_AGIPD1M-1"
  sourceToModno := [(exSource '3', 3), (exSource '0', 0)]
  framesPerTrain := 2
  data := { exSlowData with ctxCloses := false }

set_option maxRecDepth 20000 in
theorem exSlow_init : Det.init (some (ch! "_AGIPD1M")) exSlowData none none 1 = .ok exSlowDet := by decide

set_option maxRecDepth 20000 in
theorem exSlow_array : exSlowDet.getArray ⟨true, true⟩ id (ch! "detector.data") (.by_ false (.slice .none .none .none)) =
    .ok (.slow ⟨[0, 3], some [10, 11, 12], [3], [[some 2000, some 2100, none], [some 1000, none, some 1200]]⟩) := by decide

theorem exSlow_valid : PlainSources exSlowDet ∧
    ∀ x ∈ exSlowDet.sourceToModno, ValidIn exSlowDet.data true x.1 (ch! "detector.data") := by
  constructor
  · exact exDet_valid.1
  · intro x hx f hf hh
    have hf' : f = exSlow '3' [5, 7, 5, 7] [100, 101, 110, 111] [0, 1, 1] [1, 0, 1] [1000, 1200] [2, 2, 0] ∨
        f = exSlow '0' [5, 7, 5, 7, 5, 7] [200, 201, 210, 211, 220, 221] [0, 1, 2] [1, 1, 0] [2000, 2100] [2, 2, 2] := by
      rcases List.mem_cons.1 hf with h | h
      · exact Or.inl h
      · exact Or.inr (List.mem_singleton.1 h)
    have hx' : x = (exSource '3', 3) ∨ x = (exSource '0', 0) := by
      rcases List.mem_cons.1 hx with h | h
      · exact Or.inl h
      · exact Or.inr (List.mem_singleton.1 h)
    rcases hx' with rfl | rfl <;> rcases hf' with rfl | rfl
    · exact ⟨by decide, by decide, by decide, [0, 1, 1], [1, 0, 1], ⟨[1000, 1200], [3], 0⟩, by decide, by decide, by decide,
        by decide, contiguous_cons rfl (contiguous_cons rfl (contiguous_one _ _)),
        inBounds_cons (by decide) (inBounds_cons (by decide) (inBounds_cons (by decide) (inBounds_nil _)))⟩
    · exact absurd hh (by unfold Holds; decide)
    · exact absurd hh (by unfold Holds; decide)
    · exact ⟨by decide, by decide, by decide, [0, 1, 2], [1, 1, 0], ⟨[2000, 2100], [3], 0⟩, by decide, by decide, by decide,
        by decide, contiguous_cons rfl (contiguous_cons rfl (contiguous_one _ _)),
        inBounds_cons (by decide) (inBounds_cons (by decide) (inBounds_cons (by decide) (inBounds_nil _)))⟩

/-- `slow_array_succeeds` applies. -/
example : ∀ x ∈ exSlowDet.sourceToModno, ∃ b T, exSlowDet.data.getArray x.1 (ch! "detector.data") id = .ok b ∧
    b.coords = some T ∧ T.Nodup ∧ b.rowShape = [3] := by
  intro x hx
  rcases List.mem_cons.1 hx with rfl | hx
  · exact ⟨⟨[1000, 1200], some [10, 12], [3], 0⟩, [10, 12], by decide, rfl, by decide, rfl⟩
  · obtain rfl := List.mem_singleton.1 hx
    exact ⟨⟨[2000, 2100], some [10, 11], [3], 0⟩, [10, 11], by decide, rfl, by decide, rfl⟩

end KD
