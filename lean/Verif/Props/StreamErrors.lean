/- Property C67: which exceptions feeding a train raises. -/
import Verif.Props.StreamMessage
import Verif.Props.Arrays

set_option linter.unusedSimpArgs false

namespace KD.Spec

variable {E N O : Type}

/-- Something in the data or in the metadata is not known to msgpack, or the data has something else than a dict as its
metadata. -/
def Unpackable (env : PyEnv N O) (data : TData E N O) (metadata : TMeta O) : Prop :=
  ¬ Packable env data ∨ (∃ s m x, givenMeta data metadata s = some m ∧ x ∈ m ∧ env.packable x.2 = false) ∨
  (metadata = [] ∧ ∃ s props v, (s, props) ∈ data ∧ props.get? (ch! "metadata") = some v ∧ ∀ d, v ≠ .dict d)

end KD.Spec

namespace KD
open Spec

variable {E N O : Type}

theorem Dict.mem_set {K V : Type _} [DecidableEq K] {d : Dict K V} {k : K} {v : V} {y : K × V} (h : y ∈ d.set k v) :
    y ∈ d ∨ y.2 = v := by
  induction d with
  | nil =>
    obtain rfl : y = (k, v) := by simpa [Dict.set] using h
    exact Or.inr rfl
  | cons x d ih =>
    obtain ⟨k', v'⟩ := x
    unfold Dict.set at h
    split at h
    · rcases List.mem_cons.1 h with rfl | h
      · exact Or.inr rfl
      · exact Or.inl (List.mem_cons_of_mem _ h)
    · rcases List.mem_cons.1 h with rfl | h
      · exact Or.inl List.mem_cons_self
      · rcases ih h with h | h
        · exact Or.inl (List.mem_cons_of_mem _ h)
        · exact Or.inr h

theorem Dict.mem_update {K V : Type _} [DecidableEq K] {l : List (K × V)} {d : Dict K V} {y : K × V} (h : y ∈ d.update l) :
    y ∈ d ∨ ∃ x ∈ l, y.2 = x.2 := by
  induction l generalizing d with
  | nil => exact Or.inl h
  | cons x l ih =>
    rw [Dict.update_cons] at h
    rcases ih h with h | ⟨z, hz, e⟩
    · rcases Dict.mem_set h with h | h
      · exact Or.inl h
      · exact Or.inr ⟨x, List.mem_cons_self, h⟩
    · exact Or.inr ⟨z, List.mem_cons_of_mem _ hz, e⟩

theorem stamps_packable {env : PyEnv N O} {st : Dict Str O} (h : dummyStamps env = .ok st) (h1 : env.packable env.now = true)
    (h2 : ∀ s, env.packable (env.str s) = true) : ∀ x ∈ st, env.packable x.2 = true := by
  unfold dummyStamps at h
  split at h
  · obtain rfl := Except.ok.inj h
    intro x hx
    simp only [List.mem_cons, List.not_mem_nil, or_false] at hx
    rcases hx with rfl | rfl | rfl
    · exact h1
    · exact h2 _
    · exact h2 _
  · simp at h

theorem addStamps_bad {env : PyEnv N O} {st m : Dict Str O} (hst : ∀ x ∈ st, env.packable x.2 = true) {x : Str × O}
    (hx : x ∈ addStamps st m) (hb : env.packable x.2 = false) : ∃ y ∈ m, env.packable y.2 = false := by
  unfold addStamps at hx
  split at hx
  · exact ⟨x, hx, hb⟩
  · rcases Dict.mem_update hx with h | ⟨y, hy, e⟩
    · exact ⟨x, h, hb⟩
    · rw [e, hst y hy] at hb
      simp at hb

theorem stampSources_error {st : Dict Str O} {e : PyErr} : ∀ {l : List Str} {md : TMeta O}, foldE (stampSource st) md l = .error e →
    e = .key ∧ ∃ s ∈ l, md.get? s = none
  | [], md, h => by simp [foldE] at h
  | a :: l, md, h => by
    unfold foldE at h
    split at h
    · rename_i e' h1
      obtain rfl := Except.error.inj h
      unfold stampSource at h1
      split at h1
      · rename_i hm
        obtain rfl := Except.error.inj h1
        exact ⟨rfl, a, List.mem_cons_self, hm⟩
      · simp at h1
    · rename_i md1 h1
      unfold stampSource at h1
      split at h1
      · simp at h1
      · rename_i m hm
        obtain rfl := Except.ok.inj h1
        obtain ⟨he, s, hs, hn⟩ := stampSources_error h
        refine ⟨he, s, List.mem_cons_of_mem _ hs, ?_⟩
        rw [Dict.get?_set] at hn
        split at hn
        · simp at hn
        · exact hn

theorem sourceParts_error {env : PyEnv N O} {md : TMeta O} {x : Str × Dict Str (TVal E N O)} {e : PyErr}
    (h : sourceParts env md x = .error e) :
    (e = .key ∧ md.get? x.1 = none) ∨
    (e = .type ∧ ∃ m, md.get? x.1 = some m ∧ ((∃ y ∈ m, env.packable y.2 = false) ∨
      ∃ y ∈ (splitProps env x.2).1, y.2.ok env = false)) := by
  unfold sourceParts at h
  split at h
  · rename_i hm
    exact Or.inl ⟨(Except.error.inj h).symm, hm⟩
  · rename_i m hm
    simp only at h
    split at h
    · obtain ⟨l, hl⟩ : ∃ l, mapE (arrayParts (N := N) (O := O) x.1) (splitProps env x.2).2 = .ok l :=
        mapE_exists_ok (fun a _ => ⟨_, arrayParts_ok x.1 a⟩)
      rw [hl] at h
      simp at h
    · rename_i hc
      refine Or.inr ⟨(Except.error.inj h).symm, m, hm, ?_⟩
      rw [Bool.and_eq_true, not_and_or] at hc
      rcases hc with hc | hc
      · left
        simpa [packableDict] using hc
      · right
        simpa using hc

theorem unpackable_item {env : PyEnv N O} {data : TData E N O} {s : Str} {props : Dict Str (TVal E N O)} (hs : (s, props) ∈ data)
    {y : Str × Packed O} (hy : y ∈ (splitProps env props).1) (hb : y.2.ok env = false) : ¬ Packable env data := by
  intro hp
  rw [packed_ok hp hs hy] at hb
  simp at hb

/-- What was not packable after the timestamps were added was not before. -/
theorem writeBack_item {md : TMeta O} {x : Str × Dict Str (TVal E N O)} {y : Str × TVal E N O}
    (hy : y ∈ (writeBack md x).2) : y ∈ x.2 ∨ ∃ m d, x.2.get? (ch! "metadata") = some (.dict d) ∧ md.get? x.1 = some m ∧ y.2 = .dict m := by
  unfold writeBack at hy
  split at hy
  · rename_i d m h1 h2
    rcases Dict.mem_set hy with h | h
    · exact Or.inl h
    · exact Or.inr ⟨m, d, h1, h2, h⟩
  · exact Or.inl hy

theorem metaOf_error {props : Dict Str (TVal E N O)} {e : PyErr} (h : metaOf props = .error e) :
    e = .type ∧ ∃ v, props.get? (ch! "metadata") = some v ∧ ∀ d, v ≠ .dict d := by
  unfold metaOf at h
  split at h
  · simp at h
  · simp at h
  · rename_i v hne hv
    refine ⟨(Except.error.inj h).symm, v, hv, ?_⟩
    rintro d rfl
    exact hne d rfl

theorem metaItems_error {data : TData E N O} {e : PyErr} (h : mapE metaItem data = .error e) :
    e = .type ∧ ∃ s props v, (s, props) ∈ data ∧ props.get? (ch! "metadata") = some v ∧ ∀ d, v ≠ .dict d := by
  obtain ⟨x, hx, he⟩ := mapE_error_mem h
  unfold metaItem at he
  split at he
  · rename_i e' he'
    obtain rfl := Except.error.inj he
    obtain ⟨h1, v, h2, h3⟩ := metaOf_error he'
    exact ⟨h1, x.1, x.2, v, hx, h2, h3⟩
  · simp at he

/-- Packing fails with TypeError for something msgpack does not know, and with KeyError for a source without metadata. -/
theorem packAll_error {env : PyEnv N O} {v1 : Bool} {data : TData E N O} {md : TMeta O} {e : PyErr}
    (h : packAll env v1 data md = .error e) :
    (e = .key ∧ ∃ s ∈ data.keys, md.get? s = none) ∨
    (e = .type ∧ ((∃ s ∈ data.keys, ∃ m, md.get? s = some m ∧ ∃ y ∈ m, env.packable y.2 = false) ∨
      ∃ x ∈ data, ∃ y ∈ x.2, (∃ z, packedOf env y.2 = some z ∧ z.ok env = false))) := by
  unfold packAll at h
  split at h
  · split at h
    · simp at h
    · rename_i hc
      refine Or.inr ⟨(Except.error.inj h).symm, Or.inr ?_⟩
      simp only [List.all_eq_true, not_forall] at hc
      obtain ⟨x, hx, y, hy, hb⟩ := hc
      refine ⟨x, hx, y, hy, ?_⟩
      obtain ⟨k, v⟩ := y
      cases v with
      | array a => simp [TVal.ok] at hb
      | number n => simp [TVal.ok] at hb
      | dict d => exact ⟨.dict d, rfl, by simpa [TVal.ok, Packed.ok] using hb⟩
      | object o => exact ⟨.obj o, rfl, by simpa [TVal.ok, Packed.ok] using hb⟩
  · split at h
    · rename_i e' he
      obtain rfl := Except.error.inj h
      obtain ⟨x, hx, hx'⟩ := mapE_error_mem he
      have hx0 := (sortData_perm data).mem_iff.1 hx
      have hk : x.1 ∈ data.keys := List.mem_map.2 ⟨x, hx0, rfl⟩
      rcases sourceParts_error hx' with ⟨h1, h2⟩ | ⟨h1, m, h2, h3 | ⟨y, hy, hb⟩⟩
      · exact Or.inl ⟨h1, x.1, hk, h2⟩
      · exact Or.inr ⟨h1, Or.inl ⟨x.1, hk, m, h2, h3⟩⟩
      · obtain ⟨v, hv, hpv⟩ := (splitProps_main env y.1 y.2 x.2).1 hy
        exact Or.inr ⟨h1, Or.inr ⟨x, hx0, (y.1, v), hv, y.2, hpv, hb⟩⟩
    · simp at h

/-- C67. Feeding a train fails only with: KeyError, if metadata are given, but not for a source; TypeError, if there is
something which msgpack does not know; ValueError, if dummy timestamps are added and the time as text is not made of
seconds, a dot and a fraction. -/
theorem message_errors {env : PyEnv N O} {v1 dummy : Bool} {data : TData E N O} {metadata : TMeta O} {e : PyErr}
    (hn : data.keys.Nodup) (hnow : env.packable env.now = true) (hstr : ∀ s, env.packable (env.str s) = true)
    (h : serialize env v1 dummy data metadata = .error e) :
    (e = .key ∧ metadata ≠ [] ∧ ∃ s ∈ data.keys, metadata.get? s = none) ∨
    (e = .type ∧ Unpackable env data metadata) ∨
    (e = .value ∧ dummy = true ∧ ¬ ∃ sec frac : Str, env.nowStr = sec ++ '.' :: frac ∧ '.' ∉ sec ∧ '.' ∉ frac) := by
  have hbad : ∀ x ∈ data, ∀ y ∈ x.2, (∃ z, packedOf env y.2 = some z ∧ z.ok env = false) → ¬ Packable env data := by
    rintro x hx y hy ⟨z, hz, hb⟩
    exact unpackable_item (y := (y.1, z)) hx ((splitProps_main env y.1 z x.2).2 ⟨y.2, hy, hz⟩) hb
  unfold serialize at h
  split at h
  · rename_i e' h1
    obtain rfl := Except.error.inj h
    split at h1
    · rename_i he
      obtain ⟨h2, h3⟩ := metaItems_error h1
      exact Or.inr (Or.inl ⟨h2, Or.inr (Or.inr ⟨List.isEmpty_iff.1 he, h3⟩)⟩)
    · simp at h1
  · rename_i md h1
    have hmd : ∀ s, Dict.get? md s = givenMeta data metadata s := by
      intro s
      split at h1
      · rename_i he
        rw [List.isEmpty_iff.1 he]
        exact metaItems_get h1 s
      · rename_i he
        obtain rfl := Except.ok.inj h1
        have : metadata ≠ [] := fun h => he (List.isEmpty_iff.2 h)
        simp [givenMeta, this]
    have hkey : (∃ s ∈ data.keys, Dict.get? md s = none) → metadata ≠ [] ∧ ∃ s ∈ data.keys, metadata.get? s = none := by
      rintro ⟨s, hs, hnone⟩
      split at h1
      · exfalso
        rw [Dict.get?_none_iff, metaItems_keys h1] at hnone
        exact hnone hs
      · rename_i he
        obtain rfl := Except.ok.inj h1
        exact ⟨fun h => he (List.isEmpty_iff.2 h), s, hs, hnone⟩
    cases dummy with
    | false =>
      simp only [Bool.false_eq_true, if_false] at h
      split at h
      · rename_i e' he
        obtain rfl := Except.error.inj h
        rcases packAll_error he with ⟨h2, h3⟩ | ⟨h2, ⟨s, hs, m, hm, y, hy, hb⟩ | ⟨x, hx, y, hy, hb⟩⟩
        · exact Or.inl ⟨h2, hkey h3⟩
        · rw [hmd] at hm
          exact Or.inr (Or.inl ⟨h2, Or.inr (Or.inl ⟨s, m, y, hm, hy, hb⟩)⟩)
        · exact Or.inr (Or.inl ⟨h2, Or.inl (hbad x hx y hy hb)⟩)
      · simp at h
    | true =>
      simp only [if_true] at h
      split at h
      · rename_i e' he
        obtain rfl := Except.error.inj h
        unfold stampAll at he
        split at he
        · rename_i e'' hd
          obtain rfl := Except.error.inj he
          refine Or.inr (Or.inr ⟨?_, rfl, ?_⟩)
          · unfold dummyStamps at hd
            split at hd
            · simp at hd
            · exact (Except.error.inj hd).symm
          · rintro ⟨sec, frac, g1, g2, g3⟩
            obtain ⟨st, hst⟩ := dummyStamps_succeeds g1 g2 g3
            rw [hd] at hst
            simp at hst
        · split at he
          · rename_i e'' hd
            obtain rfl := Except.error.inj he
            obtain ⟨h2, h3⟩ := stampSources_error hd
            exact Or.inl ⟨h2, hkey h3⟩
          · simp at he
      · rename_i data' md' hs
        split at h
        · rename_i e' he
          obtain rfl := Except.error.inj h
          unfold stampAll at hs
          split at hs
          · simp at hs
          · rename_i st hst
            have hpst := stamps_packable hst hnow hstr
            split at hs
            · simp at hs
            · rename_i md2 hf
              simp only [Except.ok.injEq, Prod.mk.injEq] at hs
              obtain ⟨rfl, rfl⟩ := hs
              obtain ⟨g1, g2⟩ := stampSources_get hn hf
              have hkeys : Dict.keys (if metadata.isEmpty then data.map (writeBack md2) else data) = data.keys := by
                split
                · unfold Dict.keys
                  rw [List.map_map]
                  exact List.map_congr_left (fun x _ => writeBack_fst md2 x)
                · rfl
              have hmbad : ∀ s ∈ data.keys, ∀ m, md2.get? s = some m → (∃ y ∈ m, env.packable y.2 = false) →
                  Unpackable env data metadata := by
                rintro s hs m hm ⟨y, hy, hb⟩
                obtain ⟨m0, e1, e2⟩ := g1 s hs
                rw [e2] at hm
                obtain rfl := Option.some.inj hm
                obtain ⟨z, hz, hzb⟩ := addStamps_bad hpst hy hb
                rw [hmd] at e1
                exact Or.inr (Or.inl ⟨s, m0, z, e1, hz, hzb⟩)
              rcases packAll_error he with ⟨h2, s, hs, hnone⟩ | ⟨h2, ⟨s, hs, m, hm, hb⟩ | ⟨x, hx, y, hy, hb⟩⟩
              · rw [hkeys] at hs
                obtain ⟨m0, e1, e2⟩ := g1 s hs
                rw [e2] at hnone
                simp at hnone
              · rw [hkeys] at hs
                exact Or.inr (Or.inl ⟨h2, hmbad s hs m hm hb⟩)
              · refine Or.inr (Or.inl ⟨h2, ?_⟩)
                split at hx
                · obtain ⟨x0, hx0, rfl⟩ := List.mem_map.1 hx
                  rcases writeBack_item hy with hy | ⟨m, d, e1, e2, e3⟩
                  · exact Or.inl (hbad x0 hx0 y hy hb)
                  · rw [e3] at hb
                    obtain ⟨z, hz, hb⟩ := hb
                    obtain rfl := Option.some.inj hz
                    refine hmbad x0.1 (List.mem_map.2 ⟨_, hx0, rfl⟩) m e2 ?_
                    simpa [Packed.ok, packableDict] using hb
                · exact Or.inl (hbad x hx y hy hb)
        · simp at h

/-- A source without metadata, and a value which msgpack does not know. -/
example : serialize exEnv false true exData [(ch! "zz", [])] = .error .key ∧
    serialize (O := ExObj) { exEnv with packable := fun _ => false } false false exData [] = .error .type ∧
    serialize { exEnv with nowStr := ch! "12" } false true exData [] = .error .value := by decide

end KD
