/- C67, C68: the messages of a streamer. -/
import Verif.Lemmas.StreamMessage

set_option linter.unusedSimpArgs false

namespace KD

variable {E N O : Type}

/-- What a client gets from a packed message. -/
theorem packAll_decode {env : PyEnv N O} {data : TData E N O} {md : TMeta O} {msg : List (Part E N O)}
    (h : packAll env false data md = .ok msg) (hw : Spec.WellFormed data) :
    ∃ g : Spec.Got E O, Spec.client msg = some g ∧ (∀ s, data.get? s = none → g.data.get? s = none ∧ g.metadata.get? s = none) ∧
      ∀ s props, data.get? s = some props → ∃ d, g.data.get? s = some d ∧
        (∀ k, d.get? k = (props.get? k).map (Spec.seen env)) ∧ (md.get? s).isSome = true ∧ g.metadata.get? s = md.get? s := by
  unfold packAll at h
  simp only [Bool.false_eq_true, if_false] at h
  split at h
  · simp at h
  · rename_i ps hps
    obtain rfl := Except.ok.inj h
    obtain ⟨g, h1, h2, h3⟩ := decode_sources hps (sortData_wf hw) ⟨[], []⟩
    refine ⟨g, h1, ?_, ?_⟩
    · intro s hs
      have hk : s ∉ (sortData data).keys := by
        rw [Dict.get?_none_iff] at hs
        intro hin
        exact hs (((sortData_perm data).map Prod.fst).mem_iff.1 hin)
      exact h3 s hk
    · intro s props hs
      exact h2 s props ((sortData_perm data).mem_iff.2 (Dict.mem_of_get? hs))

/-- The metadata `_serialize` begins with are the ones given, or those of the data. -/
theorem metaItems_get {data : TData E N O} {md : TMeta O} (h : mapE metaItem data = .ok md) (s : Str) :
    md.get? s = Spec.givenMeta data [] s := by
  unfold Spec.givenMeta
  simp only [if_true]
  induction data generalizing md with
  | nil => obtain rfl := Except.ok.inj h; rfl
  | cons x data ih =>
    obtain ⟨b, bs, h1, h2, rfl⟩ := mapE_cons_ok.1 h
    obtain ⟨s', props⟩ := x
    unfold metaItem metaOf at h1
    have := ih h2
    cases hp : props.get? (ch! "metadata") with
    | none =>
      simp only [hp] at h1
      obtain rfl := Except.ok.inj h1
      rw [Dict.get?_cons, Dict.get?_cons, this]
      by_cases e : s' = s
      · simp [e, hp]
      · simp [e]
    | some v =>
      cases v with
      | dict d =>
        simp only [hp] at h1
        obtain rfl := Except.ok.inj h1
        rw [Dict.get?_cons, Dict.get?_cons, this]
        by_cases e : s' = s
        · simp [e, hp]
        · simp [e]
      | array a => simp [hp] at h1
      | number a => simp [hp] at h1
      | object a => simp [hp] at h1

theorem metaItems_keys {data : TData E N O} {md : TMeta O} (h : mapE metaItem data = .ok md) : md.keys = data.keys := by
  induction data generalizing md with
  | nil => obtain rfl := Except.ok.inj h; rfl
  | cons x data ih =>
    obtain ⟨b, bs, h1, h2, rfl⟩ := mapE_cons_ok.1 h
    have hb : b.1 = x.1 := by
      unfold metaItem at h1
      split at h1
      · simp at h1
      · obtain rfl := Except.ok.inj h1; rfl
    rw [show Dict.keys (b :: bs) = b.1 :: Dict.keys bs from rfl, show Dict.keys (x :: data) = x.1 :: Dict.keys data from rfl, hb, ih h2]

/-- C67. A message of protocol 2.2 has all sources and no others; for each one a client gets its metadata, and for each key
the value which was fed: arrays with type, shape and elements, and numpy numbers as Python numbers. -/
theorem message_decodes {env : PyEnv N O} {data : TData E N O} {metadata : TMeta O} {out : Serialized E N O}
    (h : serialize env false false data metadata = .ok out) (hw : Spec.WellFormed data) :
    ∃ g : Spec.Got E O, Spec.client out.msg = some g ∧ (∀ s, data.get? s = none → g.data.get? s = none ∧ g.metadata.get? s = none) ∧
      (∀ s props, data.get? s = some props → ∃ d, g.data.get? s = some d ∧
        (∀ k, d.get? k = (props.get? k).map (Spec.seen env)) ∧
        ∃ m, Spec.givenMeta data metadata s = some m ∧ g.metadata.get? s = some m) ∧
      out.data = data ∧ out.metadata = metadata := by
  unfold serialize at h
  split at h
  · simp at h
  · rename_i md hmd
    simp only [Bool.false_eq_true, if_false] at h
    split at h
    · simp at h
    · rename_i msg hmsg
      obtain rfl := Except.ok.inj h
      obtain ⟨g, h1, h2, h3⟩ := packAll_decode hmsg hw
      have hmeta : ∀ s, Dict.get? md s = Spec.givenMeta data metadata s := by
        intro s
        cases metadata with
        | nil =>
          simp only [List.isEmpty_nil, if_true] at hmd
          exact metaItems_get hmd s
        | cons x metadata =>
          simp only [List.isEmpty_cons, Bool.false_eq_true, if_false] at hmd
          obtain rfl := Except.ok.inj hmd
          simp [Spec.givenMeta]
      refine ⟨g, h1, h2, ?_, rfl, ?_⟩
      · intro s props hs
        obtain ⟨d, e1, e2, e3, e4⟩ := h3 s props hs
        obtain ⟨m, hm⟩ := Option.isSome_iff_exists.1 e3
        exact ⟨d, e1, e2, m, by rw [← hmeta, hm], by rw [e4, hm]⟩
      · cases metadata with
        | nil => rfl
        | cons x metadata =>
          simp only [List.isEmpty_cons, Bool.false_eq_true, if_false] at hmd ⊢
          exact (Except.ok.inj hmd).symm

/-- The name in a header. -/
def headerOf : Part E N O → Option Str
  | .header s _ => some s
  | _ => none

/-- C67. The sources are in alphabetical order in the message. -/
theorem message_sorted {env : PyEnv N O} {data : TData E N O} {metadata : TMeta O} {dummy : Bool} {out : Serialized E N O}
    (h : serialize env false dummy data metadata = .ok out) : (out.msg.filterMap headerOf).Pairwise (· ≤ ·) := by
  have key : ∀ {env : PyEnv N O} {md : TMeta O} {l : TData E N O} {ps : List (List (Part E N O))},
      mapE (sourceParts env md) l = .ok ps → ps.flatten.filterMap headerOf = l.map Prod.fst := by
    intro env md l
    induction l with
    | nil => intro ps h; obtain rfl := Except.ok.inj h; rfl
    | cons x l ih =>
      intro ps h
      obtain ⟨b, bs, h1, h2, rfl⟩ := mapE_cons_ok.1 h
      rw [List.flatten_cons, List.filterMap_append, ih h2, List.map_cons]
      have : b.filterMap headerOf = [x.1] := by
        unfold sourceParts at h1
        split at h1
        · simp at h1
        · simp only at h1
          split at h1
          · split at h1
            · simp at h1
            · rename_i l' hl'
              obtain rfl := Except.ok.inj h1
              have : l'.flatten.filterMap headerOf = [] := by
                rw [List.filterMap_eq_nil_iff]
                intro p hp
                obtain ⟨q, hq, hpq⟩ := List.mem_flatten.1 hp
                obtain ⟨y, -, hy⟩ := (mapE_mem hl').1 hq
                rw [arrayParts_ok] at hy
                obtain rfl := Except.ok.inj hy
                simp only [List.mem_cons, List.not_mem_nil, or_false] at hpq
                rcases hpq with rfl | rfl <;> rfl
              show x.1 :: l'.flatten.filterMap headerOf = [x.1]
              rw [this]
          · simp at h1
      rw [this]; rfl
  have hsort : ∀ d : TData E N O, ((sortData d).map Prod.fst).Pairwise (· ≤ ·) := by
    intro d
    rw [List.pairwise_map]
    have : IsTrans (Str × Dict Str (TVal E N O)) (fun a b => a.1 ≤ b.1) := ⟨fun a b c h1 h2 => List.le_trans h1 h2⟩
    have : Std.Total (fun a b : Str × Dict Str (TVal E N O) => a.1 ≤ b.1) := ⟨fun a b => List.le_total _ _⟩
    exact List.pairwise_insertionSort _ d
  unfold serialize at h
  split at h
  · simp at h
  · split at h
    · simp at h
    · split at h
      · simp at h
      · rename_i msg hmsg
        obtain rfl := Except.ok.inj h
        unfold packAll at hmsg
        simp only [Bool.false_eq_true, if_false] at hmsg
        split at hmsg
        · simp at hmsg
        · rename_i ps hps
          obtain rfl := Except.ok.inj hmsg
          rw [key hps]
          exact hsort _

theorem packed_ok {env : PyEnv N O} {data : TData E N O} (hp : Spec.Packable env data) {s : Str} {props : Dict Str (TVal E N O)}
    (hs : (s, props) ∈ data) {y : Str × Packed O} (hy : y ∈ (splitProps env props).1) : y.2.ok env = true := by
  obtain ⟨k, p⟩ := y
  obtain ⟨v, hv, hpv⟩ := (splitProps_main env k p props).1 hy
  have := hp s props k v hs hv
  cases v with
  | array a => simp [packedOf] at hpv
  | number n => obtain rfl := Option.some.inj hpv; exact this
  | dict d => obtain rfl := Option.some.inj hpv; exact List.all_eq_true.2 this
  | object o => obtain rfl := Option.some.inj hpv; exact this

/-- C67. Feeding succeeds if there are metadata for each source (given with the data or apart) and msgpack can pack them and
all values which are not arrays. -/
theorem message_succeeds {env : PyEnv N O} {data : TData E N O} {metadata : TMeta O} (hn : data.keys.Nodup)
    (hm : ∀ s ∈ data.keys, ∃ m, Spec.givenMeta data metadata s = some m ∧ ∀ x ∈ m, env.packable x.2 = true)
    (hp : Spec.Packable env data) : ∃ out, serialize env false false data metadata = .ok out := by
  have h1 : ∃ md, (if metadata.isEmpty then mapE metaItem data else .ok metadata) = .ok md ∧
      ∀ s ∈ data.keys, ∃ m : Dict Str O, Dict.get? md s = some m ∧ ∀ x ∈ m, env.packable x.2 = true := by
    cases metadata with
    | nil =>
      have : ∃ md, mapE (metaItem (E := E) (N := N) (O := O)) data = .ok md := by
        apply mapE_exists_ok
        rintro ⟨s, props⟩ hx
        obtain ⟨m, hm, -⟩ := hm s (List.mem_map.2 ⟨_, hx, rfl⟩)
        unfold Spec.givenMeta at hm
        rw [(Dict.get?_eq_some_iff hn).2 hx] at hm
        simp only [if_true] at hm
        unfold metaItem metaOf
        simp only
        cases hv : props.get? (ch! "metadata") with
        | none => exact ⟨_, rfl⟩
        | some v =>
          rw [hv] at hm
          cases v with
          | dict d => exact ⟨_, rfl⟩
          | array a => simp at hm
          | number a => simp at hm
          | object a => simp at hm
      obtain ⟨md, hmd⟩ := this
      refine ⟨md, by simpa using hmd, ?_⟩
      intro s hs
      rw [metaItems_get hmd]
      exact hm s hs
    | cons x metadata =>
      refine ⟨x :: metadata, by simp, ?_⟩
      intro s hs
      have := hm s hs
      simpa [Spec.givenMeta] using this
  obtain ⟨md, hmd, hmd2⟩ := h1
  have h2 : ∃ msg, packAll env false data md = .ok msg := by
    unfold packAll
    simp only [Bool.false_eq_true, if_false]
    have : ∃ ps, mapE (sourceParts env md) (sortData data) = .ok ps := by
      apply mapE_exists_ok
      rintro ⟨s, props⟩ hx
      have hx' := (sortData_perm data).mem_iff.1 hx
      obtain ⟨m, e1, e2⟩ := hmd2 s (List.mem_map.2 ⟨_, hx', rfl⟩)
      unfold sourceParts
      simp only [e1]
      have c1 : packableDict env m = true := List.all_eq_true.2 e2
      have c2 : (splitProps env props).1.all (fun y => y.2.ok env) = true := by
        rw [List.all_eq_true]
        intro y hy
        exact packed_ok hp hx' hy
      rw [c1, c2]
      simp only [Bool.and_self, if_true]
      have : ∃ l, mapE (arrayParts (N := N) (O := O) s) (splitProps env props).2 = .ok l :=
        mapE_exists_ok (fun a _ => ⟨_, arrayParts_ok s a⟩)
      obtain ⟨l, hl⟩ := this
      rw [hl]
      exact ⟨_, rfl⟩
    obtain ⟨ps, hps⟩ := this
    rw [hps]
    exact ⟨_, rfl⟩
  obtain ⟨msg, hmsg⟩ := h2
  refine ⟨⟨msg, data, if metadata.isEmpty then [] else md⟩, ?_⟩
  unfold serialize
  rw [hmd]
  simp only [Bool.false_eq_true, if_false, hmsg]

/-- C67. If metadata are given but not for all sources, or if there is something which msgpack does not know, feeding fails
and nothing is sent. -/
theorem message_fails {env : PyEnv N O} {data : TData E N O} {metadata : TMeta O} :
    (metadata ≠ [] → ∀ s ∈ data.keys, metadata.get? s = none → ∃ e, serialize env false false data metadata = .error e) ∧
    (∀ s props k o, (s, props) ∈ data → (k, .object o) ∈ props → env.packable o = false →
      ∃ e, serialize env false false data metadata = .error e) := by
  have bad : ∀ {md : TMeta O}, (∃ x ∈ data, ∀ l, sourceParts env md x ≠ .ok l) → ∀ msg, packAll env false data md ≠ .ok msg := by
    rintro md ⟨x, hx, hbad⟩ msg hm
    unfold packAll at hm
    simp only [Bool.false_eq_true, if_false] at hm
    split at hm
    · simp at hm
    · rename_i ps hps
      obtain ⟨l, -, hl⟩ := mapE_ok_all hps ((sortData_perm data).mem_iff.2 hx)
      exact hbad l hl
  have fails : (∀ md msg, packAll env false data md = .ok msg → md = metadata ∨ metadata = [] → False) →
      ∃ e, serialize env false false data metadata = .error e := by
    intro hno
    unfold serialize
    split
    · exact ⟨_, rfl⟩
    · rename_i md hmd
      simp only [Bool.false_eq_true, if_false]
      split
      · exact ⟨_, rfl⟩
      · rename_i msg hmsg
        exfalso
        refine hno md msg hmsg ?_
        cases metadata with
        | nil => exact Or.inr rfl
        | cons x metadata =>
          simp only [List.isEmpty_cons, Bool.false_eq_true, if_false] at hmd
          exact Or.inl (Except.ok.inj hmd).symm
  constructor
  · intro hne s hs hnone
    apply fails
    intro md msg hmsg hor
    obtain rfl := hor.resolve_right hne
    obtain ⟨x, hx, rfl⟩ := List.mem_map.1 hs
    refine bad ⟨x, hx, ?_⟩ msg hmsg
    intro l hl
    unfold sourceParts at hl
    rw [hnone] at hl
    simp at hl
  · intro s props k o hsp hko hnp
    apply fails
    intro md msg hmsg _
    refine bad ⟨(s, props), hsp, ?_⟩ msg hmsg
    intro l hl
    unfold sourceParts at hl
    split at hl
    · simp at hl
    · simp only at hl
      split at hl
      · rename_i hc
        rw [Bool.and_eq_true, List.all_eq_true] at hc
        have := hc.2 (k, .obj o) ((splitProps_main env k _ props).2 ⟨_, hko, rfl⟩)
        simp [Packed.ok, hnp] at this
      · simp at hl

/-- In protocol 1.0 the message is one part with the data itself; metadata given apart are left out. -/
theorem message_v1 {env : PyEnv N O} {data : TData E N O} {metadata : TMeta O} {out : Serialized E N O}
    (h : serialize env true false data metadata = .ok out) : out.msg = [.whole data] ∧ out.data = data := by
  unfold serialize at h
  split at h
  · simp at h
  · simp only [Bool.false_eq_true, if_false] at h
    split at h
    · simp at h
    · rename_i msg hmsg
      obtain rfl := Except.ok.inj h
      unfold packAll at hmsg
      simp only [if_true] at hmsg
      split at hmsg
      · obtain rfl := Except.ok.inj hmsg; exact ⟨rfl, rfl⟩
      · simp at hmsg

/-- Protocol 1.0 can pack everything but objects which msgpack does not know. -/
theorem message_v1_iff {env : PyEnv N O} {data : TData E N O} {metadata : TMeta O} (hne : metadata ≠ []) :
    (∃ out, serialize env true false data metadata = .ok out) ↔
      ∀ s props k v, (s, props) ∈ data → (k, v) ∈ props →
        (∀ o, v = .object o → env.packable o = true) ∧ (∀ d, v = .dict d → ∀ x ∈ d, env.packable x.2 = true) := by
  have he : metadata.isEmpty = false := by cases metadata; exact absurd rfl hne; rfl
  have hv : ∀ v : TVal E N O, v.ok env = true ↔
      (∀ o, v = .object o → env.packable o = true) ∧ (∀ d, v = .dict d → ∀ x ∈ d, env.packable x.2 = true) := by
    intro v
    cases v <;> simp [TVal.ok, packableDict]
  have hall : data.all (fun x => x.2.all (fun y => y.2.ok env)) = true ↔
      ∀ s props k v, (s, props) ∈ data → (k, v) ∈ props →
        (∀ o, v = .object o → env.packable o = true) ∧ (∀ d, v = .dict d → ∀ x ∈ d, env.packable x.2 = true) := by
    rw [List.all_eq_true]
    constructor
    · intro h s props k v h1 h2
      exact (hv v).1 (List.all_eq_true.1 (h (s, props) h1) (k, v) h2)
    · intro h x hx
      rw [List.all_eq_true]
      intro y hy
      exact (hv y.2).2 (h x.1 x.2 y.1 y.2 hx hy)
  rw [← hall]
  unfold serialize packAll
  simp only [he, Bool.false_eq_true, if_false, if_true]
  by_cases h : data.all (fun x => x.2.all (fun y => y.2.ok env)) = true
  · simp [h]
  · simp [h]

/-! ### C68 -/

/-- The dummy timestamps: the time, its whole seconds, and its fraction filled with zeros to 18 digits. -/
def Spec.IsStamps (env : PyEnv N O) (sec frac : Str) (m : Dict Str O) : Prop :=
  env.nowStr = sec ++ '.' :: frac ∧ '.' ∉ sec ∧ '.' ∉ frac ∧
  m.get? (ch! "timestamp") = some env.now ∧ m.get? (ch! "timestamp.sec") = some (env.str sec) ∧
  ∃ zeros : Str, (∀ c ∈ zeros, c = '0') ∧ (frac ++ zeros).length = max 18 frac.length ∧
    m.get? (ch! "timestamp.frac") = some (env.str (frac ++ zeros))

theorem splitCh_notMem_parts (sep : Char) (s : Str) : ∀ p ∈ splitCh sep s, sep ∉ p := by
  induction s with
  | nil => simp [splitCh]
  | cons c s ih =>
    simp only [splitCh]
    split
    · rename_i hc
      intro p hp
      rw [List.mem_cons] at hp
      rcases hp with rfl | hp
      · simp
      · exact ih p hp
    · rename_i hc
      split
      · intro p hp
        rw [List.mem_singleton] at hp
        subst hp
        simp [Ne.symm hc]
      · rename_i w ws heq
        intro p hp
        rw [List.mem_cons] at hp
        rw [heq] at ih
        rcases hp with rfl | hp
        · have := ih w (by simp)
          simp [Ne.symm hc, this]
        · exact ih p (by simp [hp])

theorem splitCh_two {sep : Char} {s a b : Str} (h : splitCh sep s = [a, b]) : s = a ++ sep :: b := by
  induction s generalizing a with
  | nil => simp [splitCh] at h
  | cons c s ih =>
    simp only [splitCh] at h
    split at h
    · rename_i hc
      simp only [List.cons.injEq] at h
      obtain ⟨rfl, h⟩ := h
      have hs : sep ∉ s := by
        intro hin
        obtain ⟨x, y, rfl⟩ := List.append_of_mem hin
        rw [splitCh_append] at h
        have l1 := List.length_pos_iff.2 (splitCh_ne_nil sep x)
        have l2 := List.length_pos_iff.2 (splitCh_ne_nil sep y)
        have := congrArg List.length h
        simp at this; omega
      rw [splitCh_notMem hs] at h
      simp only [List.cons.injEq, and_true] at h
      subst h hc; rfl
    · split at h
      · simp at h
      · rename_i w ws heq
        simp only [List.cons.injEq] at h
        obtain ⟨rfl, rfl⟩ := h
        rw [ih heq]; rfl

/-- The timestamps can be made when the time has one decimal point. -/
theorem dummyStamps_ok {env : PyEnv N O} {st : Dict Str O} (h : dummyStamps env = .ok st) :
    st.keys = [ch! "timestamp", ch! "timestamp.sec", ch! "timestamp.frac"] ∧ ∃ sec frac, Spec.IsStamps env sec frac st := by
  unfold dummyStamps at h
  split at h
  · rename_i sec frac hs
    obtain rfl := Except.ok.inj h
    refine ⟨rfl, sec, frac, splitCh_two hs, splitCh_notMem_parts _ _ _ (by rw [hs]; simp), splitCh_notMem_parts _ _ _ (by rw [hs]; simp),
      rfl, rfl, List.replicate (18 - frac.length) '0', fun c hc => List.eq_of_mem_replicate hc, ?_, rfl⟩
    simp; omega
  · simp at h

theorem dummyStamps_succeeds {env : PyEnv N O} {sec frac : Str} (h : env.nowStr = sec ++ '.' :: frac) (h1 : '.' ∉ sec) (h2 : '.' ∉ frac) :
    ∃ st, dummyStamps env = .ok st := by
  unfold dummyStamps
  rw [h, splitCh_append, splitCh_notMem h1, splitCh_notMem h2]
  exact ⟨_, rfl⟩

theorem stampSources_get {st : Dict Str O} : ∀ {l : List Str} {md md' : TMeta O}, l.Nodup → foldE (stampSource st) md l = .ok md' →
    (∀ s ∈ l, ∃ m, md.get? s = some m ∧ md'.get? s = some (addStamps st m)) ∧ (∀ s, s ∉ l → md'.get? s = md.get? s)
  | [], md, md', _, h => by
    obtain rfl := Except.ok.inj h
    exact ⟨by simp, fun _ _ => rfl⟩
  | a :: l, md, md', hn, h => by
    rw [List.nodup_cons] at hn
    unfold foldE at h
    split at h
    · simp at h
    · rename_i md1 h1
      unfold stampSource at h1
      split at h1
      · simp at h1
      · rename_i m hm
        obtain rfl := Except.ok.inj h1
        obtain ⟨g1, g2⟩ := stampSources_get hn.2 h
        constructor
        · intro s hs
          rw [List.mem_cons] at hs
          rcases hs with rfl | hs
          · refine ⟨m, hm, ?_⟩
            rw [g2 s hn.1, Dict.get?_set]; simp
          · obtain ⟨m', e1, e2⟩ := g1 s hs
            have : a ≠ s := fun e => hn.1 (e ▸ hs)
            rw [Dict.get?_set, if_neg this] at e1
            exact ⟨m', e1, e2⟩
        · intro s hs
          rw [List.mem_cons, not_or] at hs
          rw [g2 s hs.2, Dict.get?_set, if_neg (fun e => hs.1 e.symm)]

theorem addStamps_spec {env : PyEnv N O} {st : Dict Str O} (h : dummyStamps env = .ok st) (m : Dict Str O) :
    ((m.get? (ch! "timestamp")).isSome = true → addStamps st m = m) ∧
    (m.get? (ch! "timestamp") = none → (∃ sec frac, Spec.IsStamps env sec frac (addStamps st m)) ∧
      ∀ k, k ∉ [ch! "timestamp", ch! "timestamp.sec", ch! "timestamp.frac"] → (addStamps st m).get? k = m.get? k) := by
  obtain ⟨hk, sec, frac, hs⟩ := dummyStamps_ok h
  have hnd : (st.map Prod.fst).Nodup := by
    show st.keys.Nodup
    rw [hk]; decide
  constructor
  · intro hi
    unfold addStamps
    rw [if_pos hi]
  · intro hi
    have e : addStamps st m = m.update st := by
      unfold addStamps
      rw [hi]; rfl
    rw [e]
    refine ⟨⟨sec, frac, hs.1, hs.2.1, hs.2.2.1, ?_, ?_, ?_⟩, ?_⟩
    · exact Dict.get?_update_mem hnd (Dict.mem_of_get? hs.2.2.2.1)
    · exact Dict.get?_update_mem hnd (Dict.mem_of_get? hs.2.2.2.2.1)
    · obtain ⟨z, z1, z2, z3⟩ := hs.2.2.2.2.2
      exact ⟨z, z1, z2, Dict.get?_update_mem hnd (Dict.mem_of_get? z3)⟩
    · intro k hkn
      exact Dict.get?_update_notMem (show k ∉ st.keys by rw [hk]; exact hkn)

theorem writeBack_fst (md : TMeta O) (x : Str × Dict Str (TVal E N O)) : (writeBack md x).1 = x.1 := by
  unfold writeBack; split <;> rfl

theorem writeBack_get (md : TMeta O) (x : Str × Dict Str (TVal E N O)) (k : Str) :
    (k ≠ ch! "metadata" → (writeBack md x).2.get? k = x.2.get? k) ∧
    (k = ch! "metadata" → (writeBack md x).2.get? k =
      match x.2.get? (ch! "metadata"), md.get? x.1 with
      | some (.dict _), some m => some (.dict m)
      | v, _ => v) := by
  unfold writeBack
  split
  · rename_i d m h1 h2
    constructor
    · intro hk
      simp only
      rw [Dict.get?_set, if_neg (fun e => hk e.symm)]
    · rintro rfl
      simp only [h1, h2]
      rw [Dict.get?_set]; simp
  · rename_i hno
    refine ⟨fun _ => rfl, ?_⟩
    rintro rfl
    split
    · rename_i d m h1 h2
      exact absurd h2 (hno d m h1)
    · rfl

theorem writeBack_keys (md : TMeta O) (x : Str × Dict Str (TVal E N O)) : (writeBack md x).2.keys = x.2.keys := by
  unfold writeBack
  split
  · rename_i d m h1 h2
    simp only
    rw [Dict.keys_set, if_pos (Dict.mem_keys_iff.2 ⟨_, h1⟩)]
  · rfl

theorem writeBack_data_get (md : TMeta O) (data : TData E N O) (s : Str) :
    Dict.get? (data.map (writeBack md)) s = (data.get? s).map (fun p => (writeBack md (s, p)).2) := by
  induction data with
  | nil => rfl
  | cons x data ih =>
    obtain ⟨a, p⟩ := x
    rw [List.map_cons, show writeBack md (a, p) = (a, (writeBack md (a, p)).2) from Prod.ext (writeBack_fst md (a, p)) rfl,
      Dict.get?_cons, Dict.get?_cons, ih]
    by_cases e : a = s
    · subst e; simp
    · simp [e]

theorem writeBack_wf {md : TMeta O} {data : TData E N O} (h : Spec.WellFormed data) : Spec.WellFormed (data.map (writeBack md)) := by
  constructor
  · have : Dict.keys (data.map (writeBack md)) = data.keys := by
      unfold Dict.keys
      rw [List.map_map]
      apply List.map_congr_left
      intro x _
      exact writeBack_fst md x
    rw [this]; exact h.1
  · intro s props hsp
    obtain ⟨⟨s', p⟩, hx, e⟩ := List.mem_map.1 hsp
    obtain rfl : s' = s := (writeBack_fst md (s', p)).symm.trans (by rw [e])
    obtain rfl : (writeBack md (s', p)).2 = props := by rw [e]
    have hw := h.2 s' p hx
    have hn : (writeBack md (s', p)).2.keys.Nodup := by rw [writeBack_keys]; exact hw.1
    refine ⟨hn, ?_⟩
    intro k a hka
    have hg := (Dict.get?_eq_some_iff hn).2 hka
    by_cases hk : k = ch! "metadata"
    · rw [(writeBack_get md (s', p) k).2 hk] at hg
      split at hg
      · simp at hg
      · subst hk
        exact hw.2 _ a (Dict.mem_of_get? hg)
    · rw [(writeBack_get md (s', p) k).1 hk] at hg
      exact hw.2 k a (Dict.mem_of_get? hg)

/-- C68, what holds. With dummy timestamps, the metadata a client gets for each source in a message of protocol 2.2 have a
timestamp: the ones which were given if they have one, and otherwise the given ones with the current time added. All data
other than the metadata are as they were fed. Missing: the arguments of `feed` are modified (`dummy_mutates_wrong`), and in
protocol 1.0 the timestamps can be missing (`dummy_v1_wrong`). -/
theorem dummy_timestamps_partial {env : PyEnv N O} {data : TData E N O} {metadata : TMeta O} {out : Serialized E N O}
    (h : serialize env false true data metadata = .ok out) (hw : Spec.WellFormed data) :
    ∃ g : Spec.Got E O, Spec.client out.msg = some g ∧ (∀ s, data.get? s = none → g.data.get? s = none) ∧
      ∀ s props, data.get? s = some props →
        (∃ d, g.data.get? s = some d ∧ ∀ k, k ≠ ch! "metadata" → d.get? k = (props.get? k).map (Spec.seen env)) ∧
        ∃ m m', Spec.givenMeta data metadata s = some m ∧ g.metadata.get? s = some m' ∧
          (m'.get? (ch! "timestamp")).isSome = true ∧
          ((m.get? (ch! "timestamp")).isSome = true → m' = m) ∧
          (m.get? (ch! "timestamp") = none → (∃ sec frac, Spec.IsStamps env sec frac m') ∧
            ∀ k, k ∉ [ch! "timestamp", ch! "timestamp.sec", ch! "timestamp.frac"] → m'.get? k = m.get? k) := by
  unfold serialize at h
  split at h
  · simp at h
  · rename_i md hmd
    have hmeta : ∀ s, Dict.get? md s = Spec.givenMeta data metadata s := by
      intro s
      cases metadata with
      | nil =>
        simp only [List.isEmpty_nil, if_true] at hmd
        exact metaItems_get hmd s
      | cons x metadata =>
        simp only [List.isEmpty_cons, Bool.false_eq_true, if_false] at hmd
        obtain rfl := Except.ok.inj hmd
        simp [Spec.givenMeta]
    simp only [if_true] at h
    split at h
    · simp at h
    · rename_i data' md' hst
      split at h
      · simp at h
      · rename_i msg hmsg
        obtain rfl := Except.ok.inj h
        unfold stampAll at hst
        split at hst
        · simp at hst
        · rename_i st hd
          split at hst
          · simp at hst
          · rename_i md2 hf
            obtain ⟨hdata, rfl⟩ := Prod.mk.inj (Except.ok.inj hst)
            obtain ⟨q1, q2⟩ := stampSources_get hw.1 hf
            have hwf : Spec.WellFormed data' := by
              rw [← hdata]
              split
              · exact writeBack_wf hw
              · exact hw
            have hget : ∀ s, (data.get? s = none → data'.get? s = none) ∧ ∀ props, data.get? s = some props →
                ∃ props', data'.get? s = some props' ∧ ∀ k, k ≠ ch! "metadata" → props'.get? k = props.get? k := by
              intro s
              rw [← hdata]
              split
              · rw [writeBack_data_get]
                constructor
                · intro e; rw [e]; rfl
                · intro props e
                  rw [e]
                  exact ⟨_, rfl, fun k hk => (writeBack_get md2 (s, props) k).1 hk⟩
              · exact ⟨id, fun props e => ⟨props, e, fun _ _ => rfl⟩⟩
            obtain ⟨g, h1, h2, h3⟩ := packAll_decode hmsg hwf
            refine ⟨g, h1, fun s hs => (h2 s ((hget s).1 hs)).1, ?_⟩
            intro s props hs
            obtain ⟨props', e1, e2⟩ := (hget s).2 props hs
            obtain ⟨d, f1, f2, f3, f4⟩ := h3 s props' e1
            refine ⟨⟨d, f1, fun k hk => by rw [f2, e2 k hk]⟩, ?_⟩
            obtain ⟨m, r1, r2⟩ := q1 s (Dict.mem_keys_iff.2 ⟨_, hs⟩)
            obtain ⟨a1, a2⟩ := addStamps_spec hd m
            refine ⟨m, addStamps st m, by rw [← hmeta, r1], by rw [f4, r2], ?_, a1, a2⟩
            cases hts : m.get? (ch! "timestamp") with
            | none =>
              obtain ⟨⟨sec, frac, hs⟩, -⟩ := a2 hts
              rw [hs.2.2.2.1]; rfl
            | some v => rw [a1 (by rw [hts]; rfl), hts]; rfl

/-- A value for examples: numbers and texts are Python objects. -/
inductive ExObj where
  | num (n : Nat)
  | text (s : Str)
  | function
  deriving DecidableEq, Repr

/-- Python for examples, at time 12.5. -/
def exEnv : PyEnv Nat ExObj :=
  { item := .num, packable := fun o => decide (o ≠ .function), str := .text, now := .num 12, nowStr := ch! "12.5" }

/-- Data of two sources, with an array which is not contiguous. -/
def exData : TData Nat Nat ExObj :=
  [(ch! "B", [(ch! "x", .number 4), (ch! "img", .array ⟨ch! "uint16", [2, 2], false, [1, 2, 3, 4]⟩),
      (ch! "metadata", .dict [(ch! "source", .text (ch! "B"))])]),
   (ch! "A", [(ch! "y", .object (.text (ch! "on")))])]

theorem exData_wf : Spec.WellFormed exData := by
  refine ⟨by decide, ?_⟩
  intro s props h
  simp only [exData, List.mem_cons, List.not_mem_nil, or_false, Prod.mk.injEq] at h
  rcases h with ⟨rfl, rfl⟩ | ⟨rfl, rfl⟩
  · refine ⟨by decide, ?_⟩
    intro k a h
    simp only [List.mem_cons, List.not_mem_nil, or_false, Prod.mk.injEq, reduceCtorEq, and_false, false_or, or_false,
      TVal.array.injEq] at h
    obtain ⟨-, rfl⟩ := h
    rfl
  · refine ⟨by decide, ?_⟩
    intro k a h
    simp at h

/-- The theorems apply to these data, and the message is the expected one. -/
example : ∃ out, serialize exEnv false false exData [] = .ok out ∧
    out.msg = [.header (ch! "A") [], .main [(ch! "y", .obj (.text (ch! "on")))],
      .header (ch! "B") [(ch! "source", .text (ch! "B"))], .main [(ch! "x", .obj (.num 4)), (ch! "metadata", .dict [(ch! "source", .text (ch! "B"))])],
      .arrayHeader (ch! "B") (ch! "img") (ch! "uint16") [2, 2], .bytes [1, 2, 3, 4]] ∧
    (∃ g, Spec.client out.msg = some g) := by
  refine ⟨_, rfl, by decide, ?_⟩
  obtain ⟨g, hg, -⟩ := message_decodes (env := exEnv) (data := exData) (metadata := []) rfl exData_wf
  exact ⟨g, hg⟩

/-- C68 is wrong: the metadata in the data which were fed are modified. -/
theorem dummy_mutates_wrong : ∃ out, serialize exEnv false true exData [] = .ok out ∧ out.data ≠ exData ∧
    (out.data.get? (ch! "B")).bind (fun p => p.get? (ch! "metadata")) =
      some (.dict [(ch! "source", .text (ch! "B")), (ch! "timestamp", .num 12), (ch! "timestamp.sec", .text (ch! "12")),
        (ch! "timestamp.frac", .text (ch! "500000000000000000"))]) := by
  refine ⟨_, rfl, ?_⟩
  decide

/-- C68 is wrong: metadata given apart are modified as well. -/
theorem dummy_mutates_meta_wrong : ∃ out, serialize exEnv false true exData [(ch! "A", []), (ch! "B", [])] = .ok out ∧
    out.data = exData ∧ out.metadata ≠ [(ch! "A", []), (ch! "B", [])] := by
  refine ⟨_, rfl, ?_⟩
  decide

/-- C68 is wrong in protocol 1.0: a source without metadata gets no timestamp, and none gets one if metadata are given
apart. -/
theorem dummy_v1_wrong :
    (∃ out, serialize exEnv true true exData [] = .ok out ∧ ∃ d, out.msg = [.whole d] ∧
      d.get? (ch! "A") = some [(ch! "y", .object (.text (ch! "on")))]) ∧
    (∃ out, serialize exEnv true true exData [(ch! "A", []), (ch! "B", [])] = .ok out ∧ out.msg = [.whole exData]) := by
  constructor
  · refine ⟨_, rfl, _, rfl, ?_⟩
    decide
  · refine ⟨_, rfl, ?_⟩
    decide

/-- A timestamp which is incomplete is overwritten in part: `timestamp.sec` given without `timestamp` is lost. -/
theorem dummy_overwrites : addStamps [(ch! "timestamp", ExObj.num 12), (ch! "timestamp.sec", .text (ch! "12")), (ch! "timestamp.frac", .text [])]
    [(ch! "timestamp.sec", .text (ch! "7"))] =
    [(ch! "timestamp.sec", .text (ch! "12")), (ch! "timestamp", .num 12), (ch! "timestamp.frac", .text [])] := by decide

/-- Only the protocol versions 1.0 and 2.2 exist. -/
theorem protocol_versions (v : Str) : (protocolVersion v = .ok true ↔ v = ch! "1.0") ∧ (protocolVersion v = .ok false ↔ v = ch! "2.2") ∧
    (v ≠ ch! "1.0" → v ≠ ch! "2.2" → protocolVersion v = .error .value) := by
  unfold protocolVersion
  by_cases h1 : v = ch! "1.0"
  · subst h1; decide
  · by_cases h2 : v = ch! "2.2"
    · subst h2; decide
    · simp [h1, h2]

end KD
