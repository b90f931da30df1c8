/- Property C115: what the clients of `serve_files` get. -/
import Verif.Spec.Serve
import Verif.Props.Serve
import Verif.Props.Stream
import Verif.Props.StreamMessage
import Verif.Props.History

set_option linter.unusedSimpArgs false

namespace KD
open Spec

variable {V E N O M : Type}

/-! ### Reading trains -/

theorem iterUntil_spec {c : DC V} (hc : NoConflict c.files) : ∀ (ts : List Nat) (cache : DsCache V), CacheOk c cache →
    (c.iterUntil cache ts).1.map Prod.fst <+: ts ∧ ((c.iterUntil cache ts).2 = none → (c.iterUntil cache ts).1.map Prod.fst = ts) ∧
    (∀ x ∈ (c.iterUntil cache ts).1, pureAssemble c x.1 = .ok x.2) ∧
    ∀ e, (c.iterUntil cache ts).2 = some e →
      ∃ t, ts[(c.iterUntil cache ts).1.length]? = some t ∧ pureAssemble c t = .error e := by
  intro ts
  induction ts with
  | nil => intro cache _; simp [DC.iterUntil]
  | cons t ts ih =>
    intro cache hok
    obtain ⟨h1, h2⟩ := assemble_pure hc hok t
    unfold DC.iterUntil
    generalize hr : c.assemble cache t = r at h1 h2
    obtain ⟨r1, cache'⟩ := r
    cases r1 with
    | error e =>
      simp only at h1 ⊢
      refine ⟨by simp, by simp, by simp, ?_⟩
      intro e' he
      obtain rfl := Option.some.inj he
      exact ⟨t, rfl, h1.symm⟩
    | ok d =>
      simp only at h1 h2 ⊢
      obtain ⟨i1, i2, i3, i4⟩ := ih cache' h2
      refine ⟨?_, ?_, ?_, ?_⟩
      · rw [List.map_cons]
        exact List.cons_prefix_cons.2 ⟨rfl, i1⟩
      · intro he; rw [List.map_cons, i2 he]
      · intro x hx
        rcases List.mem_cons.1 hx with rfl | hx
        · exact h1.symm
        · exact i3 x hx
      · intro e he
        obtain ⟨t', ht', hp⟩ := i4 e he
        exact ⟨t', by simpa using ht', hp⟩

theorem feedAll_get {ser : Nat → Dict Str (SourceData V) → R M} : ∀ (l : List (Nat × Dict Str (SourceData V))),
    (∀ (n : Nat) (m : M), (feedAll ser l).1[n]? = some m → ∃ x : Nat × Dict Str (SourceData V), (l.filter (fun x => !x.2.isEmpty))[n]? = some x ∧ ser x.1 x.2 = .ok m) ∧
    ((feedAll ser l).2 = none → (feedAll ser l).1.length = (l.filter (fun x => !x.2.isEmpty)).length) := by
  intro l
  induction l with
  | nil => simp [feedAll]
  | cons x l ih =>
    obtain ⟨t, d⟩ := x
    unfold feedAll
    by_cases hd : d.isEmpty = true
    · rw [if_pos hd, List.filter_cons]
      simp only [hd, Bool.not_true, Bool.false_eq_true, if_false]
      exact ih
    · rw [if_neg hd, List.filter_cons]
      simp only [hd, Bool.not_false, if_true]
      cases hs : ser t d with
      | error e => simp
      | ok m =>
        refine ⟨?_, ?_⟩
        · intro n m' hn
          cases n with
          | zero =>
            simp only [List.getElem?_cons_zero, Option.some.injEq] at hn
            subst hn
            exact ⟨(t, d), rfl, hs⟩
          | succ n =>
            simp only [List.getElem?_cons_succ] at hn ⊢
            exact ih.1 n m' hn
        · intro he
          simp only [List.length_cons]
          rw [ih.2 he]

/-! ### The message of a train -/

theorem pureSource_ok {c : DC V} {entry : Str → FileAccess V × Nat × Dataset V → Str → R (Entry V)} {t : Nat} {s : Str}
    {x : Str × SourceData V} (h : pureSource c entry t s = .ok x) :
    x.1 = s ∧ x.2.mdSource = s ∧ x.2.mdTid = t ∧ x.2.data.keys.Nodup := by
  unfold pureSource at h
  split at h
  · simp at h
  · rename_i ks hks
    split at h
    · simp at h
    · rename_i items hit
      obtain rfl := Except.ok.inj h
      refine ⟨rfl, rfl, rfl, ?_⟩
      have hnd := keysForSource_nodup hks
      have key : ∀ (ks : List Str) (items : List (Option (Str × Entry V))), mapE (pureKey c (entry s) s t) ks = .ok items →
          ((items.filterMap id).map Prod.fst).Sublist ks := by
        intro ks
        induction ks with
        | nil => intro items h; obtain rfl := Except.ok.inj h; simp
        | cons k ks ih =>
          intro items h
          obtain ⟨b, bs, h1, h2, rfl⟩ := mapE_cons_ok.1 h
          have hb : b = none ∨ ∃ v, b = some (k, v) := by
            unfold pureKey at h1
            split at h1
            · simp at h1
            · exact Or.inl (Except.ok.inj h1).symm
            · split at h1
              · simp at h1
              · exact Or.inr ⟨_, (Except.ok.inj h1).symm⟩
          rcases hb with rfl | ⟨v, rfl⟩
          · rw [List.filterMap_cons]
            exact (ih bs h2).trans (List.sublist_cons_self _ _)
          · rw [List.filterMap_cons]
            simp only [id, List.map_cons]
            exact (ih bs h2).cons_cons k
      exact List.Nodup.sublist (key _ _ hit) hnd

theorem update_mem {K A : Type} [DecidableEq K] {d : Dict K A} {l : List (K × A)} {x : K × A} (h : x ∈ d.update l) : x ∈ d ∨ x ∈ l := by
  have set_mem : ∀ {a : Dict K A} {k : K} {v : A} {y : K × A}, y ∈ a.set k v → y ∈ a ∨ y = (k, v) := by
    intro a k v y hy
    induction a with
    | nil => simp [Dict.set] at hy; exact Or.inr hy
    | cons w a ih =>
      obtain ⟨wk, wv⟩ := w
      unfold Dict.set at hy
      split at hy
      · next hwk =>
        subst hwk
        rw [List.mem_cons] at hy
        rcases hy with hy | hy
        · exact Or.inr hy
        · exact Or.inl (by simp [hy])
      · rw [List.mem_cons] at hy
        rcases hy with hy | hy
        · exact Or.inl (by simp [hy])
        · rcases ih hy with h | h
          · exact Or.inl (by simp [h])
          · exact Or.inr h
  induction l generalizing d with
  | nil => exact Or.inl h
  | cons z l ih =>
    rw [Dict.update_cons] at h
    rcases ih h with h | h
    · rcases set_mem h with h | h
      · exact Or.inl h
      · exact Or.inr (by simp [h])
    · exact Or.inr (by simp [h])

/-- The data of a train read from files: distinct sources and keys, and metadata saying which they are. -/
structure TrainOk (t : Nat) (d : Dict Str (SourceData V)) : Prop where
  sources : d.keys.Nodup
  fine : ∀ s sd, (s, sd) ∈ d → sd.mdSource = s ∧ sd.mdTid = t ∧ sd.data.keys.Nodup

theorem pureAssemble_ok {c : DC V} {t : Nat} {d : Dict Str (SourceData V)} (h : pureAssemble c t = .ok d) : TrainOk t d := by
  unfold pureAssemble at h
  split at h
  · simp at h
  · rename_i ctrl hctrl
    split at h
    · simp at h
    · rename_i inst hinst
      obtain rfl := Except.ok.inj h
      refine ⟨Dict.nodup_update (Dict.nodup_update (by simp [Dict.keys]) _) _, ?_⟩
      intro s sd hm
      rcases update_mem hm with hm | hm
      · rcases update_mem hm with hm | hm
        · simp at hm
        · obtain ⟨s', -, hs⟩ := (mapE_mem hctrl).1 hm
          obtain ⟨rfl, h2, h3, h4⟩ := pureSource_ok hs
          exact ⟨h2, h3, h4⟩
      · obtain ⟨s', -, hs⟩ := (mapE_mem hinst).1 hm
        obtain ⟨rfl, h2, h3, h4⟩ := pureSource_ok hs
        exact ⟨h2, h3, h4⟩

theorem map_get {A B : Type} (f : A → B) (d : Dict Str A) (s : Str) :
    Dict.get? (d.map (fun x => (x.1, f x.2)) : Dict Str B) s = (d.get? s).map f := by
  induction d with
  | nil => rfl
  | cons x d ih =>
    obtain ⟨k, v⟩ := x
    rw [List.map_cons, Dict.get?_cons, Dict.get?_cons, ih]
    split <;> rfl

theorem map_keys {A B : Type} (f : A → B) (d : Dict Str A) : Dict.keys (d.map (fun x => (x.1, f x.2)) : Dict Str B) = d.keys := by
  simp [Dict.keys, Function.comp_def]

theorem feedSource_get {str : Str → O} {int : Nat → O} {conv : Entry V → TVal E N O} {sd : SourceData V} (hn : sd.data.keys.Nodup)
    {k : Str} (hk : k ≠ ch! "metadata") : (feedSource str int conv sd).get? k = (sd.data.get? k).map conv := by
  unfold feedSource
  rw [← map_get conv sd.data k]
  by_cases hm : k ∈ sd.data.keys
  · obtain ⟨v, hv⟩ := Dict.mem_keys_iff.1 hm
    rw [map_get, hv]
    apply Dict.get?_update_mem
    · rw [List.map_map]; exact hn
    · exact List.mem_map.2 ⟨(k, v), Dict.mem_of_get? hv, rfl⟩
  · rw [Dict.get?_update_notMem, map_get]
    · have : sd.data.get? k = none := Dict.get?_none_iff.2 hm
      rw [this, Dict.get?_cons, if_neg (fun h => hk h.symm)]
      rfl
    · rw [List.map_map]
      exact hm

theorem feedSource_meta {str : Str → O} {int : Nat → O} {conv : Entry V → TVal E N O} {sd : SourceData V}
    {m : Dict Str O} (hn : sd.data.keys.Nodup) (h : (feedSource str int conv sd).get? (ch! "metadata") = some (.dict m))
    (hconv : ∀ e d, conv e ≠ .dict d) :
    m = [(ch! "source", str sd.mdSource), (ch! "timestamp.tid", int sd.mdTid)] := by
  unfold feedSource at h
  by_cases hm : ch! "metadata" ∈ sd.data.keys
  · exfalso
    obtain ⟨v, hv⟩ := Dict.mem_keys_iff.1 hm
    rw [Dict.get?_update_mem (v := conv v)] at h
    · exact hconv v m (Option.some.inj h)
    · rw [List.map_map]; exact hn
    · exact List.mem_map.2 ⟨(ch! "metadata", v), Dict.mem_of_get? hv, rfl⟩
  · rw [Dict.get?_update_notMem] at h
    · rw [Dict.get?_cons, if_pos rfl] at h
      simp only [Option.some.injEq, TVal.dict.injEq] at h
      exact h.symm
    · rw [List.map_map]
      exact hm

theorem feedData_wf {str : Str → O} {int : Nat → O} {conv : Entry V → TVal E N O} {t : Nat} {d : Dict Str (SourceData V)}
    (h : TrainOk t d) (harr : ∀ e a, conv e = .array a → a.elems.length = a.shape.prod) :
    Spec.WellFormed (feedData str int conv d) := by
  refine ⟨by unfold feedData; rw [map_keys]; exact h.sources, ?_⟩
  intro s props hm
  obtain ⟨⟨s', sd⟩, hx, e⟩ := List.mem_map.1 hm
  obtain ⟨rfl, rfl⟩ := Prod.mk.inj e
  refine ⟨Dict.nodup_update (by simp [Dict.keys]) _, ?_⟩
  intro k a hka
  rcases update_mem hka with hka | hka
  · simp at hka
  · obtain ⟨y, -, e⟩ := List.mem_map.1 hka
    exact harr _ _ (Prod.mk.inj e).2

/-- All sources of the message have timestamps of the time `now`: a number and its text. -/
def Stamped (env : PyEnv N O) (now : O × Str) (d : Dict Str (SourceData V)) (g : Got E O) : Prop :=
  ∀ s sd, d.get? s = some sd → ∃ m, g.metadata.get? s = some m ∧
    ∃ sec frac, IsStamps { env with now := now.1, nowStr := now.2 } sec frac m

theorem serializeTrain_shows {env : PyEnv N O} {int : Nat → O} {conv : Entry V → TVal E N O} {dummy : Bool} {now : Nat → O × Str}
    {t : Nat} {d : Dict Str (SourceData V)} {m : List (Part E N O)} (h : serializeTrain env int conv false dummy now t d = .ok m)
    (hd : TrainOk t d) (harr : ∀ e a, conv e = .array a → a.elems.length = a.shape.prod) (hconv : ∀ e d, conv e ≠ .dict d) :
    ∃ g, client m = some g ∧ ShowsTrain env int conv d g ∧ (dummy = true → Stamped env (now t) d g) := by
  unfold serializeTrain at h
  split at h
  · simp at h
  · rename_i out hout
    obtain rfl := Except.ok.inj h
    have hw := feedData_wf (str := env.str) (int := int) hd harr
    have hseen : ∀ v : TVal E N O, seen { env with now := (now t).1, nowStr := (now t).2 } v = seen env v := by
      intro v; cases v <;> rfl
    have hget : ∀ s, (feedData env.str int conv d).get? s = (d.get? s).map (feedSource env.str int conv) := map_get _ d
    have hgiven : ∀ s sd m, d.get? s = some sd → givenMeta (feedData env.str int conv d) [] s = some m →
        m = [(ch! "source", env.str sd.mdSource), (ch! "timestamp.tid", int sd.mdTid)] ∨ m = [] := by
      intro s sd m hs hm
      obtain ⟨-, -, hn⟩ := hd.fine s sd (Dict.mem_of_get? hs)
      unfold givenMeta at hm
      rw [if_pos rfl, hget, hs] at hm
      simp only [Option.map_some] at hm
      split at hm
      · exact Or.inr (Option.some.inj hm).symm
      · rename_i d' hd'
        obtain rfl := Option.some.inj hm
        exact Or.inl (feedSource_meta hn hd' hconv)
      · simp at hm
    have hsome : ∀ s sd m, d.get? s = some sd → givenMeta (feedData env.str int conv d) [] s = some m →
        m = [(ch! "source", env.str sd.mdSource), (ch! "timestamp.tid", int sd.mdTid)] := by
      intro s sd m hs hm
      rcases hgiven s sd m hs hm with h | h
      · exact h
      · exfalso
        subst h
        obtain ⟨-, -, hn⟩ := hd.fine s sd (Dict.mem_of_get? hs)
        unfold givenMeta at hm
        rw [if_pos rfl, hget, hs] at hm
        simp only [Option.map_some] at hm
        have hmem : ch! "metadata" ∈ (feedSource env.str int conv sd).keys := by
          unfold feedSource
          have : ∀ (l : List (Str × TVal E N O)) (a : Dict Str (TVal E N O)), ch! "metadata" ∈ a.keys → ch! "metadata" ∈ (a.update l).keys := by
            intro l
            induction l with
            | nil => intro a h; exact h
            | cons x l ih =>
              intro a h
              rw [Dict.update_cons]
              apply ih
              rw [Dict.keys_set]
              split
              · exact h
              · simp [h]
          exact this _ _ (by simp [Dict.keys])
        obtain ⟨v, hv⟩ := Dict.mem_keys_iff.1 hmem
        rw [hv] at hm
        split at hm
        · rename_i h0; simp at h0
        · rename_i d' hd'
          obtain rfl := Option.some.inj hd'
          obtain rfl := Option.some.inj hm
          have := feedSource_meta hn hv hconv
          simp at this
        · simp at hm
    cases dummy with
    | false =>
      obtain ⟨g, hg, h1, h2, -⟩ := message_decodes hout hw
      refine ⟨g, hg, ⟨?_, ?_⟩, by simp⟩
      · intro s hs
        exact (h1 s (by rw [hget, hs]; rfl)).1
      · intro s sd hs
        obtain ⟨-, -, hn⟩ := hd.fine s sd (Dict.mem_of_get? hs)
        obtain ⟨got, e1, e2, m, e3, e4⟩ := h2 s _ (by rw [hget, hs]; rfl)
        refine ⟨⟨got, e1, ?_⟩, m, e4, ?_⟩
        · intro k hk
          rw [e2 k, feedSource_get hn hk, Option.map_map]
          exact congrFun (congrArg Option.map (funext fun e => hseen (conv e))) _
        · obtain rfl := hsome s sd m hs e3
          exact ⟨rfl, rfl⟩
    | true =>
      obtain ⟨g, hg, h1, h2⟩ := dummy_timestamps_partial hout hw
      refine ⟨g, hg, ⟨?_, ?_⟩, fun _ => ?_⟩
      · intro s hs
        exact h1 s (by rw [hget, hs]; rfl)
      · intro s sd hs
        obtain ⟨-, -, hn⟩ := hd.fine s sd (Dict.mem_of_get? hs)
        obtain ⟨⟨got, e1, e2⟩, m, m', e3, e4, -, -, e5⟩ := h2 s _ (by rw [hget, hs]; rfl)
        refine ⟨⟨got, e1, ?_⟩, m', e4, ?_⟩
        · intro k hk
          rw [e2 k hk, feedSource_get hn hk, Option.map_map]
          exact congrFun (congrArg Option.map (funext fun e => hseen (conv e))) _
        · obtain rfl := hsome s sd m hs e3
          obtain ⟨-, e6⟩ := e5 rfl
          rw [e6 _ (by decide), e6 _ (by decide)]
          exact ⟨rfl, rfl⟩
      · intro s sd hs
        obtain ⟨-, m, m', e3, e4, -, -, e5⟩ := h2 s _ (by rw [hget, hs]; rfl)
        obtain rfl := hsome s sd m hs e3
        exact ⟨m', e4, (e5 rfl).1⟩

/-! ### The calls -/

/-- The messages among the calls. -/
def Call.msg : Call M → Option M
  | .feed m => some m
  | _ => none

/-- The messages given to `feed` among all steps. -/
def Act.msg : Act M → Option M
  | .feed m => some m
  | _ => none

theorem named_offered [DecidableEq M] {s t : Streamer M} {j : Nat} {a : Act M} (h : s.named j a = some t) : t.offered = s.offered := by
  obtain ⟨u, _, -, hs⟩ := Streamer.named_ok h
  unfold Streamer.threadStep at hs
  repeat' split at hs
  all_goals first
    | (simp at hs; done)
    | (obtain rfl := Option.some.inj hs; rfl)

theorem step_offered [DecidableEq M] {s t : Streamer M} {a : Act M} (h : s.step a = some t) :
    t.offered = s.offered ++ (Act.msg a).toList := by
  cases a with
  | feed m => obtain rfl := Option.some.inj h; rfl
  | start =>
    simp only [Streamer.step, Streamer.start] at h
    split at h
    · simp at h
    · obtain rfl := Option.some.inj h; simp [Act.msg]
  | stop =>
    simp only [Streamer.step, Streamer.stop] at h
    repeat' split at h
    all_goals first
      | (simp at h; done)
      | (obtain rfl := Option.some.inj h; simp [Act.msg, Streamer.setIface])
  | joined =>
    simp only [Streamer.step, Streamer.joined] at h
    repeat' split at h
    all_goals first
      | (simp at h; done)
      | (obtain rfl := Option.some.inj h; simp [Act.msg])
  | put i =>
    simp only [Streamer.step, Streamer.put] at h
    repeat' split at h
    all_goals first
      | (simp at h; done)
      | (obtain rfl := Option.some.inj h; simp [Act.msg])
  | request c r => obtain rfl := Option.some.inj h; simp [Act.msg]
  | lose i =>
    simp only [Streamer.step] at h
    split at h
    · obtain rfl := Option.some.inj h; simp [Act.msg]
    · simp at h
  | recv j i =>
    simp only [Streamer.step, Streamer.recv] at h
    repeat' split at h
    all_goals first
      | (simp at h; done)
      | (obtain rfl := Option.some.inj h; simp [Act.msg, Streamer.setIface])
  | deliver j i =>
    simp only [Streamer.step, Streamer.deliver] at h
    repeat' split at h
    all_goals first
      | (simp at h; done)
      | (obtain rfl := Option.some.inj h; simp [Act.msg, Streamer.setIface])
  | bind j => rw [named_offered h]; simp [Act.msg]
  | check j => rw [named_offered h]; simp [Act.msg]
  | handle j => rw [named_offered h]; simp [Act.msg]
  | get j => rw [named_offered h]; simp [Act.msg]
  | send j => rw [named_offered h]; simp [Act.msg]
  | close j => rw [named_offered h]; simp [Act.msg]

theorem run_offered [DecidableEq M] {acts : List (Act M)} : ∀ {s t : Streamer M}, s.run acts = some t →
    t.offered = s.offered ++ acts.filterMap Act.msg := by
  induction acts with
  | nil => intro s t h; obtain rfl := Option.some.inj h; simp
  | cons a l ih =>
    intro s t h
    obtain ⟨u, h1, h2⟩ := Streamer.run_cons h
    rw [ih h2, step_offered h1, List.filterMap_cons]
    cases Act.msg a <;> simp

theorem calls_msgs (acts : List (Act M)) : (acts.filterMap callOf).filterMap Call.msg = acts.filterMap Act.msg := by
  rw [List.filterMap_filterMap]
  apply List.filterMap_congr
  intro a _
  cases a <;> rfl

theorem follows_one [DecidableEq M] {s : Streamer M} {acts : List (Act M)} {calls : List (Call M)} (h : Follows s acts calls) :
    OneFeeder s acts := fun l l' _ t e hr => (h.returned l l' _ t e rfl hr).1

/-- What is fed are the messages of the calls, in order. -/
theorem follows_offered [DecidableEq M] {maxlen : Int} {acts : List (Act M)} {calls : List (Call M)} {s : Streamer M}
    (h : Follows (Streamer.new M maxlen) acts calls) (hr : (Streamer.new M maxlen).run acts = some s) :
    s.offered <+: calls.filterMap Call.msg := by
  rw [run_offered hr, ← calls_msgs]
  obtain ⟨rest, e⟩ := h.order
  rw [← e, List.filterMap_append]
  exact ⟨_, rfl⟩

theorem filterMap_feeds (l : List M) : (l.map Call.feed).filterMap Call.msg = l := by
  induction l with
  | nil => rfl
  | cons m l ih => rw [List.map_cons, List.filterMap_cons]; simp only [Call.msg, ih]

theorem serveCalls_msgs {c d : DC V} {sg kg version : Str} {v1 : Bool} {ser : Bool → Nat → Dict Str (SourceData V) → R M}
    (hd : c.select (.globs [(sg, kg)]) = .ok d) (hv : protocolVersion version = .ok v1) :
    (serveCalls (.ok c) sg kg version ser).1.filterMap Call.msg = (feedAll (ser v1) (d.iterUntil [] d.trainIds).1).1 ∧
    ((serveCalls (.ok c) sg kg version ser).2 = none →
      (feedAll (ser v1) (d.iterUntil [] d.trainIds).1).2 = none ∧ (d.iterUntil [] d.trainIds).2 = none) := by
  unfold serveCalls
  simp only [hd, hv]
  cases h1 : (feedAll (ser v1) (d.iterUntil [] d.trainIds).1).2 with
  | some e =>
    refine ⟨?_, by simp⟩
    show List.filterMap Call.msg (Call.start :: _) = _
    rw [List.filterMap_cons]
    exact filterMap_feeds _
  | none =>
    cases h2 : (d.iterUntil [] d.trainIds).2 with
    | some e =>
      refine ⟨?_, by simp⟩
      show List.filterMap Call.msg (Call.start :: _) = _
      rw [List.filterMap_cons]
      exact filterMap_feeds _
    | none =>
      refine ⟨?_, fun _ => ⟨rfl, rfl⟩⟩
      show List.filterMap Call.msg (Call.start :: (_ ++ [Call.stop])) = _
      rw [List.filterMap_cons]
      show List.filterMap Call.msg (_ ++ [Call.stop]) = _
      rw [List.filterMap_append, filterMap_feeds]
      simp [Call.msg]

/-- C115. While `serve_files` runs, in whatever order its thread, the thread of the streamer, any number of clients and the
network get to act, the n-th reply sent is decoded by the client as the data of the n-th train of the selected data (not counting
trains without any data): the same sources, keys and values, and the train ID, and, if they are asked for, dummy timestamps with
the time at which this train was serialized. The trains are those of the selection, in order;
all of them unless reading or serializing one of them fails. Missing: that all of them are sent (`serve_loses_rest`). -/
theorem serve_stream_partial [DecidableEq E] [DecidableEq N] [DecidableEq O] {c d : DC V} {sg kg : Str} {env : PyEnv N O} {int : Nat → O}
    {conv : Entry V → TVal E N O} {dummy : Bool} {now : Nat → O × Str}
    (hc : NoConflict c.files) (hd : c.select (.globs [(sg, kg)]) = .ok d) (hcat : ∀ s ∈ d.instrumentSources, s ∉ d.controlSources)
    (harr : ∀ e a, conv e = .array a → a.elems.length = a.shape.prod) (hconv : ∀ e d, conv e ≠ .dict d)
    {calls : List (Call (List (Part E N O)))} {err : Option PyErr}
    (hcalls : serveCalls (.ok c) sg kg (ch! "2.2") (fun v1 => serializeTrain env int conv v1 dummy now) = (calls, err))
    {maxlen : Int} {acts : List (Act (List (Part E N O)))} {s : Streamer (List (Part E N O))}
    (hrun : (Streamer.new _ maxlen).run acts = some s) (hf : Follows (Streamer.new _ maxlen) acts calls) :
    ∃ ts : List (Nat × Dict Str (SourceData V)), ts.map Prod.fst <+: d.trainIds ∧ (err = none → ts.map Prod.fst = d.trainIds) ∧
      (∀ t x, (t, x) ∈ ts → ∃ x', d.trainFromId t = .ok (t, x') ∧ x.keys = x'.keys ∧
        ∀ s sd, x.get? s = some sd → sd.mdTid = t ∧ ∃ sd', x'.get? s = some sd' ∧ SameExceptEmpty sd.data sd'.data) ∧
      ∀ (n : Nat) (client : Nat) m, s.sent[n]? = some (client, m) →
        ∃ t x, (ts.filter (fun x => !x.2.isEmpty))[n]? = some (t, x) ∧ ∃ g, Spec.client m = some g ∧ ShowsTrain env int conv x g ∧
          (dummy = true → Stamped env (now t) x g) := by
  have hdc : NoConflict d.files := by
    obtain ⟨sel, -, -, rfl⟩ := select_ok_iff.1 hd
    exact filesFor_noConflict hc sel
  obtain ⟨i1, i2, i3, -⟩ := iterUntil_spec hdc d.trainIds [] (fun s k f ds h => by simp at h)
  obtain ⟨m1, m2⟩ := serveCalls_msgs (ser := fun v1 => serializeTrain env int conv v1 dummy now) hd ((protocol_versions _).2.1.2 rfl)
  rw [hcalls] at m1 m2
  simp only at m1 m2
  refine ⟨_, i1, fun he => i2 (m2 he).2, ?_, ?_⟩
  · intro t x hx
    have hp := i3 _ hx
    have ht : t ∈ d.trainIds := i1.subset (List.mem_map.2 ⟨_, hx, rfl⟩)
    obtain ⟨x', h1, h2, h3⟩ := pureAssemble_agrees hcat ht hp
    refine ⟨x', h1, h2, ?_⟩
    intro s sd hs
    obtain ⟨sd', k1, -, -, k2⟩ := h3 s sd hs
    exact ⟨((pureAssemble_ok hp).fine s sd (Dict.mem_of_get? hs)).2.1, sd', k1, k2⟩
  · intro n cl m hn
    have ho := (stream_order_of_calls hrun (follows_one hf)).2.2 n cl m hn
    have hp := follows_offered hf hrun
    rw [m1] at hp
    have hm : (feedAll (serializeTrain env int conv false dummy now) (d.iterUntil [] d.trainIds).1).1[n]? = some m := by
      obtain ⟨rest, e⟩ := hp
      rw [← e]
      exact List.getElem?_append_left (List.getElem?_eq_some_iff.1 ho).1 ▸ ho
    obtain ⟨⟨t, x⟩, h1, h2⟩ := (feedAll_get _).1 n m hm
    refine ⟨t, x, h1, serializeTrain_shows h2 (pureAssemble_ok (i3 (t, x) ?_)) harr hconv⟩
    exact (List.mem_filter.1 (List.mem_of_getElem? h1)).1

/-! ### Which interface is current -/

theorem step_current [DecidableEq M] {s t : Streamer M} {a : Act M} (ha : a ≠ .start) (hj : s.joining = false) (hs : s.step a = some t) :
    t.current = s.current ∧ (a ≠ .stop → t.joining = false) := by
  have named : ∀ {k : Nat} {a : Act M}, s.named k a = some t → t.current = s.current ∧ t.joining = s.joining := by
    intro k a hn
    obtain ⟨v, hv, -, hst⟩ := Streamer.named_ok hn
    unfold Streamer.threadStep at hst
    repeat' split at hst
    all_goals first
      | (simp at hst; done)
      | (obtain rfl := Option.some.inj hst; exact ⟨rfl, rfl⟩)
  cases a with
  | start => exact absurd rfl ha
  | feed m => obtain rfl := Option.some.inj hs; exact ⟨rfl, fun _ => hj⟩
  | stop =>
    simp only [Streamer.step, Streamer.stop] at hs
    repeat' split at hs
    all_goals first
      | (simp at hs; done)
      | (obtain rfl := Option.some.inj hs; exact ⟨rfl, fun h => absurd rfl h⟩)
  | joined =>
    simp only [Streamer.step, Streamer.joined, hj] at hs
    simp at hs
  | put i =>
    simp only [Streamer.step, Streamer.put] at hs
    repeat' split at hs
    all_goals first
      | (simp at hs; done)
      | (obtain rfl := Option.some.inj hs; exact ⟨rfl, fun _ => hj⟩)
  | request c r => obtain rfl := Option.some.inj hs; exact ⟨rfl, fun _ => hj⟩
  | lose i =>
    simp only [Streamer.step] at hs
    split at hs
    · obtain rfl := Option.some.inj hs; exact ⟨rfl, fun _ => hj⟩
    · simp at hs
  | recv k i =>
    simp only [Streamer.step, Streamer.recv] at hs
    repeat' split at hs
    all_goals first
      | (simp at hs; done)
      | (obtain rfl := Option.some.inj hs; exact ⟨rfl, fun _ => hj⟩)
  | deliver k i =>
    simp only [Streamer.step, Streamer.deliver] at hs
    repeat' split at hs
    all_goals first
      | (simp at hs; done)
      | (obtain rfl := Option.some.inj hs; exact ⟨rfl, fun _ => hj⟩)
  | bind k => exact (named hs).imp_right fun h _ => h.trans hj
  | check k => exact (named hs).imp_right fun h _ => h.trans hj
  | handle k => exact (named hs).imp_right fun h _ => h.trans hj
  | get k => exact (named hs).imp_right fun h _ => h.trans hj
  | send k => exact (named hs).imp_right fun h _ => h.trans hj
  | close k => exact (named hs).imp_right fun h _ => h.trans hj

/-- Without `start` there is no current interface. -/
theorem never_started [DecidableEq M] {maxlen : Int} {l : List (Act M)} {t : Streamer M} (hno : Act.start ∉ l)
    (h : (Streamer.new M maxlen).run l = some t) : t.current = none := by
  have := Streamer.run_induct_mem (P := fun s : Streamer M => s.current = none ∧ s.joining = false) (ok := fun a => a ≠ .start)
    ?_ ⟨rfl, rfl⟩ (fun a ha e => hno (e ▸ ha)) h
  · exact this.1
  · intro u a u' ⟨h1, h2⟩ ha hs
    obtain ⟨e1, e2⟩ := step_current ha h2 hs
    refine ⟨e1.trans h1, ?_⟩
    by_cases hstop : a = .stop
    · subst hstop
      simp only [Streamer.step, Streamer.stop, h1, h2] at hs
      simp at hs
      rw [← hs]; exact h2
    · exact e2 hstop

/-- After `start` there is, unless `stop` is called. -/
theorem started_current [DecidableEq M] {maxlen : Int} {l : List (Act M)} {t : Streamer M} (hstart : Act.start ∈ l) (hno : Act.stop ∉ l)
    (h : (Streamer.new M maxlen).run l = some t) : t.current ≠ none := by
  have key : ∀ (l : List (Act M)) (s t : Streamer M), s.run l = some t → s.joining = false → Act.stop ∉ l →
      (s.current ≠ none ∨ Act.start ∈ l) → t.current ≠ none := by
    intro l
    induction l with
    | nil =>
      intro s t h _ _ hor
      obtain rfl := Option.some.inj h
      simpa using hor
    | cons a l ih =>
      intro s t h hj hns hor
      obtain ⟨u, hs, hr⟩ := Streamer.run_cons h
      have ha : a ≠ .stop := fun e => hns (e ▸ List.mem_cons_self)
      by_cases hst : a = .start
      · subst hst
        simp only [Streamer.step, Streamer.start, hj] at hs
        simp at hs
        subst hs
        exact ih _ t hr rfl (fun hm => hns (List.mem_cons_of_mem _ hm)) (Or.inl (by simp))
      · obtain ⟨e1, e2⟩ := step_current hst hj hs
        refine ih u t hr (e2 ha) (fun hm => hns (List.mem_cons_of_mem _ hm)) ?_
        rcases hor with h | h
        · exact Or.inl (by rw [e1]; exact h)
        · rcases List.mem_cons.1 h with h | h
          · exact absurd h.symm hst
          · exact Or.inr h
  exact key l _ t h rfl hno (Or.inr hstart)

/-! ### After `stop` -/

/-- How many more replies the thread of an interface can send once it is told to stop. -/
def Pc.left : Pc M → Nat
  | .recv => 1
  | .handle _ _ => 1
  | .get _ => 1
  | .send _ _ => 1
  | _ => 0

/-- The interfaces other than `j` are finished, `j` was told to stop, and not more than `n` replies are sent in the end. -/
def Ending (j n : Nat) (s : Streamer M) : Prop :=
  (∀ (i : Nat) (t : Iface M), s.ifaces[i]? = some t → i ≠ j → t.pc = .done) ∧
  ∃ t, s.ifaces[j]? = some t ∧ t.stopped = true ∧ s.sent.length + t.pc.left ≤ n

theorem Ending.same {j n : Nat} {s t : Streamer M} (h : Ending j n s) (h1 : t.ifaces = s.ifaces) (h2 : t.sent = s.sent) : Ending j n t := by
  unfold Ending; rw [h1, h2]; exact h

theorem Ending.set {j n k : Nat} {s t : Streamer M} {v w : Iface M} (h : Ending j n s) (hv : s.ifaces[k]? = some v)
    (hdone : v.pc = .done → w.pc = .done) (hst : v.stopped = true → w.stopped = true)
    (he : t.ifaces = s.ifaces.set k w)
    (hs : t.sent.length + w.pc.left ≤ s.sent.length + v.pc.left) : Ending j n t := by
  obtain ⟨h1, u, h2, h3, h4⟩ := h
  refine ⟨?_, ?_⟩
  · intro i x hx hne
    rw [he] at hx
    rcases getElem?_set_cases hx with ⟨rfl, rfl, -⟩ | ⟨-, hx⟩
    · exact hdone (h1 i v hv hne)
    · exact h1 i x hx hne
  · by_cases hk : k = j
    · subst hk
      obtain rfl := Option.some.inj (hv.symm.trans h2)
      exact ⟨w, by rw [he]; exact getElem?_set_self' hv, hst h3, by omega⟩
    · refine ⟨u, by rw [he]; exact getElem?_set_other h2 (Ne.symm hk), h3, ?_⟩
      have hd := h1 k v hv hk
      rw [hd, hdone hd] at hs
      omega

theorem Ending.step [DecidableEq M] {j n : Nat} {s t : Streamer M} {a : Act M} (h : Ending j n s) (ha : a ≠ .start) (hs : s.step a = some t) :
    Ending j n t := by
  have named : ∀ {k : Nat} {a : Act M}, s.named k a = some t → Ending j n t := by
    intro k a hn
    obtain ⟨v, hv, -, hst⟩ := Streamer.named_ok hn
    unfold Streamer.threadStep at hst
    split at hst
    · rename_i hp
      split at hst
      · obtain rfl := Option.some.inj hst
        exact h.set hv (w := { v with pc := .done }) (by simp) id rfl (by simp [hp, Pc.left, Streamer.setIface])
      · obtain rfl := Option.some.inj hst
        exact h.set hv (w := { v with pc := .check }) (by rw [hp]; simp) id rfl (by simp [hp, Pc.left, Streamer.setIface])
    · rename_i hp
      obtain rfl := Option.some.inj hst
      by_cases hk : k = j
      · subst hk
        obtain ⟨h1, u, h2, h3, h4⟩ := h
        obtain rfl := Option.some.inj (hv.symm.trans h2)
        rw [hp] at h4
        refine Ending.set ⟨h1, v, h2, h3, by rw [hp]; exact h4⟩ hv (w := { v with pc := if v.stopped then .closing else .recv })
          (by rw [hp]; simp) id rfl ?_
        rw [if_pos h3]
        simp [hp, Pc.left, Streamer.setIface]
      · have := h.1 k v hv hk
        rw [this] at hp
        simp at hp
    · simp at hst
    · rename_i c r hp
      obtain rfl := Option.some.inj hst
      refine h.set hv (w := { v with pc := if r ≠ ch! "next" then .closing else .get c }) (by rw [hp]; simp) id rfl ?_
      split <;> simp [hp, Pc.left, Streamer.setIface]
    · rename_i c hp
      split at hst
      · simp at hst
      · rename_i m rest hb
        obtain rfl := Option.some.inj hst
        exact h.set hv (w := { v with pc := .send c m }) (by rw [hp]; simp) id rfl (by simp [hp, Pc.left, Streamer.setIface])
    · rename_i c m hp
      obtain rfl := Option.some.inj hst
      exact h.set hv (w := { v with pc := .check, out := v.out ++ [(c, m)] }) (by rw [hp]; simp) id rfl
        (by simp [hp, Pc.left])
    · rename_i hp
      obtain rfl := Option.some.inj hst
      exact h.set hv (w := { v with pc := .done, out := [] }) (by simp) id rfl (by simp [hp, Pc.left, Streamer.setIface])
    · simp at hst
  cases a with
  | start => exact absurd rfl ha
  | feed m => obtain rfl := Option.some.inj hs; exact h.same rfl rfl
  | stop =>
    simp only [Streamer.step, Streamer.stop] at hs
    split at hs
    · simp at hs
    · split at hs
      · obtain rfl := Option.some.inj hs; exact h
      · split at hs
        · simp at hs
        · rename_i v hv
          obtain rfl := Option.some.inj hs
          exact h.set hv (w := { v with stopped := true }) id (fun _ => rfl) rfl (by simp [Streamer.setIface])
  | joined =>
    simp only [Streamer.step, Streamer.joined] at hs
    repeat' split at hs
    all_goals first
      | (simp at hs; done)
      | (obtain rfl := Option.some.inj hs; exact h.same rfl rfl)
  | put i =>
    simp only [Streamer.step, Streamer.put] at hs
    repeat' split at hs
    all_goals first
      | (simp at hs; done)
      | (obtain rfl := Option.some.inj hs; exact h.same rfl rfl)
  | request c r => obtain rfl := Option.some.inj hs; exact h.same rfl rfl
  | lose i =>
    simp only [Streamer.step] at hs
    split at hs
    · obtain rfl := Option.some.inj hs; exact h.same rfl rfl
    · simp at hs
  | recv k i =>
    simp only [Streamer.step, Streamer.recv] at hs
    split at hs
    · rename_i v c r hv hr
      split at hs
      · rename_i hp
        obtain rfl := Option.some.inj hs
        exact h.set hv (w := { v with pc := .handle c r }) (by rw [hp]; simp) id rfl (by simp [hp, Pc.left, Streamer.setIface])
      · simp at hs
    · simp at hs
  | deliver k i =>
    simp only [Streamer.step, Streamer.deliver] at hs
    split at hs
    · simp at hs
    · rename_i v hv
      split at hs
      · simp at hs
      · obtain rfl := Option.some.inj hs
        exact h.set hv (w := { v with out := v.out.eraseIdx i }) id id rfl (by simp [Streamer.setIface])
  | bind k => exact named hs
  | check k => exact named hs
  | handle k => exact named hs
  | get k => exact named hs
  | send k => exact named hs
  | close k => exact named hs

/-- The calls of `serve_files` when nothing fails. -/
theorem serveCalls_done {data : R (DC V)} {sg kg version : Str} {ser : Bool → Nat → Dict Str (SourceData V) → R M}
    {calls : List (Call M)} (hc : serveCalls data sg kg version ser = (calls, none)) :
    ∃ ms : List M, calls = .start :: ms.map .feed ++ [.stop] := by
  unfold serveCalls at hc
  split at hc
  · simp at hc
  · split at hc
    · simp at hc
    · split at hc
      · simp at hc
      · simp only at hc
        split at hc
        · simp at hc
        · simp at hc
        · exact ⟨_, (Prod.mk.inj hc).1.symm⟩

/-- What comes before feeding: when the data cannot be opened, nothing matches the globs or the protocol version is unknown,
that exception is raised and the streamer is not started. -/
theorem serve_refused {c : DC V} {sg kg version : Str} {ser : Bool → Nat → Dict Str (SourceData V) → R M} {e : PyErr} :
    serveCalls (.error e : R (DC V)) sg kg version ser = ([], some e) ∧
    (c.select (.globs [(sg, kg)]) = .error e → serveCalls (.ok c) sg kg version ser = ([], some e)) ∧
    (∀ d, c.select (.globs [(sg, kg)]) = .ok d → version ≠ ch! "1.0" → version ≠ ch! "2.2" →
      serveCalls (.ok c) sg kg version ser = ([], some .value)) := by
  refine ⟨rfl, ?_, ?_⟩
  · intro h
    unfold serveCalls
    simp only [h]
  · intro d h h1 h2
    unfold serveCalls protocolVersion
    simp only [h, if_neg h1, if_neg h2]

/-- Otherwise the streamer is started once, before anything is fed. -/
theorem serve_starts {c d : DC V} {sg kg version : Str} {ser : Bool → Nat → Dict Str (SourceData V) → R M}
    (hd : c.select (.globs [(sg, kg)]) = .ok d) (hv : version = ch! "1.0" ∨ version = ch! "2.2") :
    ∃ rest, (serveCalls (.ok c) sg kg version ser).1 = .start :: rest ∧ Call.start ∉ rest := by
  obtain ⟨v1, hv1⟩ : ∃ v1, protocolVersion version = .ok v1 := by
    rcases hv with rfl | rfl
    · exact ⟨true, rfl⟩
    · exact ⟨false, rfl⟩
  unfold serveCalls
  simp only [hd, hv1]
  split
  · exact ⟨_, rfl, by simp⟩
  · exact ⟨_, rfl, by simp⟩
  · exact ⟨_, rfl, by simp⟩

/-- When reading or serializing a train fails, the exception is raised without calling `stop`: the thread goes on answering
requests as long as the process runs. -/
theorem serve_error_no_stop {data : R (DC V)} {sg kg version : Str} {ser : Bool → Nat → Dict Str (SourceData V) → R M}
    {calls : List (Call M)} {e : PyErr} (hc : serveCalls data sg kg version ser = (calls, some e)) : Call.stop ∉ calls := by
  unfold serveCalls at hc
  split at hc
  · obtain ⟨rfl, -⟩ := Prod.mk.inj hc; simp
  · split at hc
    · obtain ⟨rfl, -⟩ := Prod.mk.inj hc; simp
    · split at hc
      · obtain ⟨rfl, -⟩ := Prod.mk.inj hc; simp
      · simp only at hc
        split at hc
        · obtain ⟨rfl, -⟩ := Prod.mk.inj hc; simp
        · obtain ⟨rfl, -⟩ := Prod.mk.inj hc; simp
        · simp at hc

/-- C66 and C115 are wrong for every run: from when `stop` is called, at most one more train is sent, whatever the clients ask
for, and however many trains are in the buffer. -/
theorem stop_sends_one [DecidableEq M] {maxlen : Int} {acts more : List (Act M)} {s s1 s2 : Streamer M}
    (h : (Streamer.new M maxlen).run acts = some s) (hone : StartsOnce (Streamer.new M maxlen) acts) (hcur : s.current ≠ none)
    (hstop : s.step .stop = some s1) (hmore : s1.run more = some s2) (hns : Act.start ∉ more) :
    s2.sent.length ≤ s.sent.length + 1 := by
  have hod := fun (i : Nat) (t : Iface M) (hi : s.ifaces[i]? = some t) => others_done h hone hi
  obtain ⟨j, hj⟩ := Option.ne_none_iff_exists'.1 hcur
  simp only [Streamer.step, Streamer.stop, hj] at hstop
  split at hstop
  · simp at hstop
  · split at hstop
    · simp at hstop
    · rename_i v hv
      obtain rfl := Option.some.inj hstop
      have h0 : Ending j (s.sent.length + 1) { s.setIface j { v with stopped := true } with joining := true } := by
        refine ⟨?_, _, getElem?_set_self' hv, rfl, ?_⟩
        · intro i t hi hne
          rcases getElem?_set_cases hi with ⟨rfl, -, -⟩ | ⟨-, hi⟩
          · exact absurd rfl hne
          · rcases hod i t hi with h | h
            · exact h
            · rw [hj] at h
              exact absurd (Option.some.inj h).symm hne
        · show s.sent.length + v.pc.left ≤ s.sent.length + 1
          cases v.pc <;> simp [Pc.left]
      obtain ⟨-, t, -, -, h4⟩ := Streamer.run_induct_mem (P := Ending j (s.sent.length + 1)) (ok := fun a => a ≠ .start)
        (fun u a u' hu ha hs => hu.step ha hs) h0 (fun a ha e => hns (e ▸ ha)) hmore
      omega

/-- C115 is wrong at the end: when `serve_files` comes to `stop`, all trains but those sent before and one more are lost. With
`n` trains to be served of which `k` were sent when the last call was made, the clients get at most `k + 1`. -/
theorem serve_loses_rest [DecidableEq M] {data : R (DC V)} {sg kg version : Str} {ser : Bool → Nat → Dict Str (SourceData V) → R M}
    {calls : List (Call M)} (hc : serveCalls data sg kg version ser = (calls, none))
    {maxlen : Int} {acts more : List (Act M)} {s s2 : Streamer M}
    (h : (Streamer.new M maxlen).run (acts ++ .stop :: more) = some s2) (hf : Follows (Streamer.new M maxlen) (acts ++ .stop :: more) calls)
    (hr : (Streamer.new M maxlen).run acts = some s) :
    s2.sent.length ≤ s.sent.length + 1 := by
  obtain ⟨ms, rfl⟩ := serveCalls_done hc
  have hpre := hf.order
  rw [List.filterMap_append, List.filterMap_cons] at hpre
  simp only [callOf] at hpre
  obtain ⟨rest, hrest⟩ := hpre
  have hrest' : acts.filterMap callOf ++ (Call.stop :: (more.filterMap callOf ++ rest)) = .start :: ms.map .feed ++ [.stop] := by
    rw [← hrest]; simp
  have hstop : Call.stop ∉ (Call.start :: ms.map .feed : List (Call M)) := by simp
  -- the call of `stop` is the last one
  have hsplit : acts.filterMap callOf = .start :: ms.map .feed ∧ more.filterMap callOf = [] := by
    have key : ∀ (a b c : List (Call M)), Call.stop ∉ b → a ++ Call.stop :: c = b ++ [Call.stop] → a = b ∧ c = [] := by
      intro a
      induction a with
      | nil =>
        intro b c hb e
        cases b with
        | nil => simpa using e
        | cons x b =>
          rw [List.nil_append, List.cons_append] at e
          exact absurd (List.mem_cons_self) ((List.cons.inj e).1 ▸ hb)
      | cons x a ih =>
        intro b c hb e
        cases b with
        | nil => simp at e
        | cons y b =>
          rw [List.cons_append, List.cons_append] at e
          obtain ⟨rfl, e'⟩ := List.cons.inj e
          obtain ⟨rfl, h2⟩ := ih b c (fun hm => hb (List.mem_cons_of_mem _ hm)) e'
          exact ⟨rfl, h2⟩
    obtain ⟨h1, h2⟩ := key _ _ _ hstop hrest'
    exact ⟨h1, (List.append_eq_nil_iff.1 h2).1⟩
  have hns : Act.start ∉ more := by
    intro hm
    have : Call.start ∈ more.filterMap callOf := List.mem_filterMap.2 ⟨_, hm, rfl⟩
    rw [hsplit.2] at this
    simp at this
  rw [Streamer.run_append hr] at h
  obtain ⟨s1, h1, h2⟩ := Streamer.run_cons h
  -- `start` is called once
  have hone : StartsOnce (Streamer.new M maxlen) acts := by
    intro l l' t e ht
    have hno : Act.start ∉ l := by
      intro hm
      have e1 : acts.filterMap callOf = l.filterMap callOf ++ .start :: l'.filterMap callOf := by
        rw [e, List.filterMap_append, List.filterMap_cons]; rfl
      rw [hsplit.1] at e1
      have hl : Call.start ∈ l.filterMap callOf := List.mem_filterMap.2 ⟨_, hm, rfl⟩
      cases hc : l.filterMap callOf with
      | nil => rw [hc] at hl; simp at hl
      | cons x y =>
        rw [hc, List.cons_append] at e1
        have := (List.cons.inj e1).2
        have hin : Call.start ∈ ms.map Call.feed := by rw [this]; simp
        simp at hin
    exact never_started hno ht
  by_cases hcur : s.current = none
  · -- `start` was called, so there is an interface unless it was stopped
    exfalso
    have hmem : Act.start ∈ acts := by
      have : Call.start ∈ acts.filterMap callOf := by rw [hsplit.1]; simp
      obtain ⟨a, ha, e⟩ := List.mem_filterMap.1 this
      cases a <;> simp [callOf] at e
      exact ha
    have hnostop : Act.stop ∉ acts := by
      intro hm
      have : Call.stop ∈ acts.filterMap callOf := List.mem_filterMap.2 ⟨_, hm, rfl⟩
      rw [hsplit.1] at this
      exact hstop this
    exact started_current hmem hnostop hr hcur
  · exact stop_sends_one hr hone hcur h1 h2 hns

/-! ### The trains served are those of `trains()` -/

theorem iterUntil_trains {c : DC V} : ∀ (ts : List Nat) (cache : DsCache V),
    c.iterTrains false cache ts = match c.iterUntil cache ts with
      | (_, some e) => .error e
      | (l, none) => .ok l := by
  intro ts
  induction ts with
  | nil => intro cache; rfl
  | cons t ts ih =>
    intro cache
    unfold DC.iterTrains DC.iterUntil
    simp only [Bool.false_eq_true, if_false]
    cases h : c.assemble cache t with
    | mk r cache' =>
      cases r with
      | error e => rfl
      | ok d =>
        simp only [ih cache']
        cases h2 : c.iterUntil cache' ts with
        | mk l e => cases e <;> rfl

/-- C115. When nothing fails, what is fed are the messages of the trains `trains()` gives, without those which have no sources,
and then `stop` is called. -/
theorem serve_calls_trains {c d : DC V} {sg kg : Str} {v1 : Bool} {version : Str} {ser : Bool → Nat → Dict Str (SourceData V) → R M}
    {calls : List (Call M)} (hd : c.select (.globs [(sg, kg)]) = .ok d) (hv : protocolVersion version = .ok v1)
    (hc : serveCalls (.ok c) sg kg version ser = (calls, none)) :
    ∃ l ms, d.trains none none false = .ok l ∧ mapE (fun x => ser v1 x.1 x.2) (l.filter (fun x => !x.2.isEmpty)) = .ok ms ∧
      calls = .start :: ms.map .feed ++ [.stop] := by
  have hall : ∀ l : List (Nat × Dict Str (SourceData V)), (feedAll (ser v1) l).2 = none →
      mapE (fun x => ser v1 x.1 x.2) (l.filter (fun x => !x.2.isEmpty)) = .ok (feedAll (ser v1) l).1 := by
    intro l
    induction l with
    | nil => intro _; rfl
    | cons x l ih =>
      obtain ⟨t, x⟩ := x
      intro h
      unfold feedAll at h ⊢
      by_cases hx : x.isEmpty = true
      · rw [if_pos hx] at h ⊢
        rw [List.filter_cons]
        simp only [hx, Bool.not_true, Bool.false_eq_true, if_false]
        exact ih h
      · rw [if_neg hx] at h ⊢
        rw [List.filter_cons]
        simp only [hx, Bool.not_false, if_true]
        cases hs : ser v1 t x with
        | error e => rw [hs] at h; simp at h
        | ok m =>
          rw [hs] at h
          exact mapE_cons_ok.2 ⟨m, _, hs, ih h, rfl⟩
  have hm := (serveCalls_msgs (ser := ser) hd hv).2
  rw [hc] at hm
  obtain ⟨h1, h2⟩ := hm rfl
  refine ⟨(d.iterUntil [] d.trainIds).1, _, ?_, hall _ h1, ?_⟩
  · have := iterUntil_trains (c := d) d.trainIds []
    rw [show d.iterUntil [] d.trainIds = ((d.iterUntil [] d.trainIds).1, none) from Prod.ext rfl h2] at this
    simpa [DC.trains] using this
  · unfold serveCalls at hc
    simp only [hd, hv, h1, h2] at hc
    exact (Prod.mk.inj hc).1.symm

/-! ### A concrete run -/

/-- The objects of the example: integers and strings. -/
abbrev ServedObj := Nat ⊕ Str

/-- msgpack and Python in the example. -/
def exPy : PyEnv Nat ServedObj := ⟨Sum.inl, fun _ => true, Sum.inr, .inl 5, ch! "5.25"⟩

/-- One-dimensional arrays of the numbers in the files, or one number. -/
def exConv : Entry Nat → TVal Nat Nat ServedObj
  | .one v => .number v
  | .many l => .array ⟨ch! "uint64", [l.length], true, l⟩

/-- `serve_files` of the example collection. -/
def exCalls : List (Call (List (Part Nat Nat ServedObj))) × Option PyErr :=
  serveCalls (.ok exTrains) (ch! "*") (ch! "*") (ch! "2.2") (fun v1 => serializeTrain exPy .inl exConv v1 true (fun t => (.inl t, ch! "7.5")))

/-- A client gets the first train; then another one asks. -/
def exServed (m m' : M) : List (Act M) :=
  [.start, .bind 0, .feed m, .request 3 (ch! "next"), .check 0, .put 0, .recv 0 0, .handle 0, .get 0, .send 0, .deliver 0 0, .feed m',
   .put 0, .request 4 (ch! "next")]

theorem exServed_run [DecidableEq M] (m m' : M) :
    ∃ s, (Streamer.new M 10).run (exServed m m') = some s ∧ s.received = [(3, m)] ∧ s.sent = [(3, m)] ∧ s.buffer = [m'] := by
  refine ⟨_, rfl, rfl, rfl, rfl⟩

theorem exServed_follows [DecidableEq M] (m m' : M) (rest : List (Call M)) :
    Follows (Streamer.new M 10) (exServed m m') (.start :: .feed m :: .feed m' :: rest) := by
  refine ⟨⟨rest, rfl⟩, ?_⟩
  intro l l' a t e ha ht
  have h1 : l = (exServed m m').take l.length ∧ (exServed m m')[l.length]? = some a := by rw [e]; simp
  have h3 : l.length < 14 := by
    have := congrArg List.length e
    simp only [exServed, List.length_cons, List.length_nil, List.length_append] at this
    omega
  obtain ⟨h1, h2⟩ := h1
  rw [h1] at ht
  generalize l.length = n at h2 h3 ht
  interval_cases n <;> first
    | (obtain rfl := Option.some.inj h2; simp [callOf] at ha; done)
    | (obtain rfl := Option.some.inj ht; exact ⟨rfl, rfl⟩)

/-- `serve_stream_partial` applies to the example: the first client gets train 1, with the data of both sources. -/
example : ∃ m m' rest, exCalls = (.start :: .feed m :: .feed m' :: rest, none) ∧ ∃ s, (Streamer.new _ 10).run (exServed m m') = some s ∧
    ∃ d, exTrains.select (.globs [(ch! "*", ch! "*")]) = .ok d ∧ ∃ t x, t ∈ d.trainIds ∧ ch! "D:o" ∈ Dict.keys x ∧
      ∃ g, client m = some g ∧ ShowsTrain exPy .inl exConv x g ∧ Stamped exPy (.inl t, ch! "7.5") x g := by
  have hcalls : ∃ m m' rest, exCalls = (.start :: .feed m :: .feed m' :: rest, none) := by
    have h : (match exCalls with
      | (.start :: .feed _ :: .feed _ :: _, none) => true
      | _ => false) = true := by decide +kernel
    split at h
    · rename_i m m' rest hx
      exact ⟨m, m', rest, hx⟩
    · simp at h
  obtain ⟨m, m', rest, hc⟩ := hcalls
  obtain ⟨s, hs, -, hsent, -⟩ := exServed_run m m'
  refine ⟨m, m', rest, hc, s, hs, ?_⟩
  have hd : ∃ d, exTrains.select (.globs [(ch! "*", ch! "*")]) = .ok d := ⟨_, rfl⟩
  obtain ⟨d, hd⟩ := hd
  refine ⟨d, hd, ?_⟩
  obtain ⟨ts, h1, h2, h3, h4⟩ := serve_stream_partial (env := exPy) (int := .inl) (conv := exConv) exTrains_valid.2.1 hd
    (by
      have : (match exTrains.select (.globs [(ch! "*", ch! "*")]) with
        | .ok d => decide (∀ s ∈ d.instrumentSources, s ∉ d.controlSources)
        | .error _ => false) = true := by decide +kernel
      rw [hd] at this
      simpa using this)
    (by intro e a h; cases e <;> simp [exConv] at h; subst h; simp)
    (by intro e d h; cases e <;> simp [exConv] at h)
    hc hs (exServed_follows m m' rest)
  obtain ⟨t, x, h5, g, h6, h7⟩ := h4 0 3 m (by rw [hsent]; rfl)
  have hmem := (List.mem_filter.1 (List.mem_of_getElem? h5)).1
  refine ⟨t, x, h1.subset (List.mem_map.2 ⟨_, hmem, rfl⟩), ?_, g, h6, h7.1, h7.2 rfl⟩
  obtain ⟨x', hx', hk, -⟩ := h3 t x hmem
  rw [hk]
  have : (match exTrains.select (.globs [(ch! "*", ch! "*")]) with
    | .ok d => d.trainIds.all (fun t => match d.trainFromId t with
      | .ok (_, x) => decide (ch! "D:o" ∈ Dict.keys x)
      | .error _ => false)
    | .error _ => false) = true := by decide +kernel
  rw [hd] at this
  have := List.all_eq_true.1 this t (h1.subset (List.mem_map.2 ⟨_, hmem, rfl⟩))
  rw [hx'] at this
  simpa using this

/-- Version 2.1, which the documentation names, is refused; the data of the example can be selected. -/
example : serveCalls (.ok exTrains) (ch! "*") (ch! "*") (ch! "2.1") (fun _ t _ => (.ok t : R Nat)) = ([], some .value) ∧
    (exTrains.select (.globs [(ch! "*", ch! "*")])).toBool = true ∧
    serveCalls (.ok exTrains) (ch! "nothing") (ch! "*") (ch! "2.2") (fun _ t _ => (.ok t : R Nat)) = ([], some .value) := by
  refine ⟨?_, ?_, ?_⟩ <;> decide +kernel

end KD
