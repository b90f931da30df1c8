/- Decoding what `packAll` makes. -/
import Verif.Spec.Stream
import Verif.Lemmas.Basic
import Verif.Lemmas.Strings
import Mathlib.Data.List.Sort
import Mathlib.Data.List.Lex

set_option linter.unusedSimpArgs false

namespace KD

variable {E N O : Type}

/-- The parts for one array. -/
theorem arrayParts_ok (src : Str) (x : Str × NpArr E) :
    arrayParts (N := N) (O := O) src x = .ok [.arrayHeader src x.1 x.2.dtype x.2.shape, .bytes x.2.elems] := by
  unfold arrayParts NpArr.buffer NpArr.asContiguous
  cases h : x.2.contiguous <;> simp [h]

theorem decode_arrays (src : Str) (rest : List (Part E N O)) : ∀ (as : List (Str × NpArr E)) (g : Spec.Got E O)
    (d : Dict Str (Spec.Seen E O)), (as.map Prod.fst).Nodup → (∀ x ∈ as, x.2.elems.length = x.2.shape.prod) → g.data.get? src = some d →
    ∃ g' d', Spec.decode g (as.flatMap (fun x => [.arrayHeader src x.1 x.2.dtype x.2.shape, .bytes x.2.elems]) ++ rest) = Spec.decode g' rest ∧
      g'.metadata = g.metadata ∧ g'.data.get? src = some d' ∧ (∀ s, s ≠ src → g'.data.get? s = g.data.get? s) ∧
      (∀ k a, (k, a) ∈ as → d'.get? k = some (.array a.dtype a.shape a.elems)) ∧
      (∀ k, k ∉ as.map Prod.fst → d'.get? k = d.get? k)
  | [], g, d, _, _, hg => ⟨g, d, rfl, rfl, hg, fun _ _ => rfl, by simp, fun _ _ => rfl⟩
  | (k, a) :: as, g, d, hn, hw, hg => by
    simp only [List.map_cons, List.nodup_cons] at hn
    obtain ⟨g', d', h1, h2, h3, h4, h5, h6⟩ := decode_arrays src rest as
      ⟨g.data.set src (d.set k (.array a.dtype a.shape a.elems)), g.metadata⟩ (d.set k (.array a.dtype a.shape a.elems)) hn.2
      (fun x hx => hw x (by simp [hx])) (by rw [Dict.get?_set]; simp)
    refine ⟨g', d', ?_, h2, h3, ?_, ?_, ?_⟩
    · have := hw (k, a) (by simp)
      simp only at this
      simp only [List.flatMap_cons, List.cons_append, List.nil_append, Spec.decode, hg, this, if_true]
      exact h1
    · intro s hs
      rw [h4 s hs]
      show (g.data.set src _).get? s = _
      rw [Dict.get?_set, if_neg (fun e => hs e.symm)]
    · intro k' a' hm
      rw [List.mem_cons] at hm
      rcases hm with e | hm
      · obtain ⟨rfl, rfl⟩ := Prod.mk.inj e
        rw [h6 _ hn.1, Dict.get?_set]
        simp
      · exact h5 k' a' hm
    · intro k' hk
      simp only [List.map_cons, List.mem_cons, not_or] at hk
      rw [h6 k' hk.2, Dict.get?_set, if_neg (fun e => hk.1 e.symm)]

theorem splitProps_arrays (env : PyEnv N O) (k : Str) (a : NpArr E) : ∀ props : Dict Str (TVal E N O),
    (k, a) ∈ (splitProps env props).2 ↔ (k, .array a) ∈ props
  | [] => by simp [splitProps]
  | (k', v) :: rest => by
    have ih := splitProps_arrays env k a rest
    cases v <;> simp [splitProps, ih]

/-- What is packed for a value. -/
def packedOf (env : PyEnv N O) : TVal E N O → Option (Packed O)
  | .array _ => none
  | .number n => some (.obj (env.item n))
  | .dict d => some (.dict d)
  | .object o => some (.obj o)

theorem splitProps_main (env : PyEnv N O) (k : Str) (p : Packed O) : ∀ props : Dict Str (TVal E N O),
    (k, p) ∈ (splitProps env props).1 ↔ ∃ v, (k, v) ∈ props ∧ packedOf env v = some p
  | [] => by simp [splitProps]
  | (k', v) :: rest => by
    have ih := splitProps_main env k p rest
    cases v with
    | array a => 
      simp only [splitProps, List.mem_cons, Prod.mk.injEq, ih]
      constructor
      · rintro ⟨w, h1, h2⟩; exact ⟨w, Or.inr h1, h2⟩
      · rintro ⟨w, ⟨-, rfl⟩ | h1, h2⟩
        · simp [packedOf] at h2
        · exact ⟨w, h1, h2⟩
    | number n =>
      simp only [splitProps, List.mem_cons, Prod.mk.injEq, ih]
      constructor
      · rintro (⟨rfl, rfl⟩ | ⟨w, h1, h2⟩)
        · exact ⟨_, Or.inl ⟨rfl, rfl⟩, rfl⟩
        · exact ⟨w, Or.inr h1, h2⟩
      · rintro ⟨w, ⟨rfl, rfl⟩ | h1, h2⟩
        · simp only [packedOf, Option.some.injEq] at h2; exact Or.inl ⟨rfl, h2.symm⟩
        · exact Or.inr ⟨w, h1, h2⟩
    | dict n =>
      simp only [splitProps, List.mem_cons, Prod.mk.injEq, ih]
      constructor
      · rintro (⟨rfl, rfl⟩ | ⟨w, h1, h2⟩)
        · exact ⟨_, Or.inl ⟨rfl, rfl⟩, rfl⟩
        · exact ⟨w, Or.inr h1, h2⟩
      · rintro ⟨w, ⟨rfl, rfl⟩ | h1, h2⟩
        · simp only [packedOf, Option.some.injEq] at h2; exact Or.inl ⟨rfl, h2.symm⟩
        · exact Or.inr ⟨w, h1, h2⟩
    | object n =>
      simp only [splitProps, List.mem_cons, Prod.mk.injEq, ih]
      constructor
      · rintro (⟨rfl, rfl⟩ | ⟨w, h1, h2⟩)
        · exact ⟨_, Or.inl ⟨rfl, rfl⟩, rfl⟩
        · exact ⟨w, Or.inr h1, h2⟩
      · rintro ⟨w, ⟨rfl, rfl⟩ | h1, h2⟩
        · simp only [packedOf, Option.some.injEq] at h2; exact Or.inl ⟨rfl, h2.symm⟩
        · exact Or.inr ⟨w, h1, h2⟩

theorem splitProps_sublist (env : PyEnv N O) : ∀ props : Dict Str (TVal E N O),
    ((splitProps env props).1.map Prod.fst).Sublist (props.map Prod.fst) ∧
    ((splitProps env props).2.map Prod.fst).Sublist (props.map Prod.fst)
  | [] => by simp [splitProps]
  | (k', v) :: rest => by
    have ih := splitProps_sublist env rest
    cases v <;> simp [splitProps, ih.1, ih.2, List.Sublist.cons]

theorem Dict.get?_map {K V W : Type _} [DecidableEq K] (f : V → W) (d : Dict K V) (k : K) :
    Dict.get? (d.map (fun x => (x.1, f x.2))) k = (d.get? k).map f := by
  induction d with
  | nil => rfl
  | cons x d ih =>
    obtain ⟨a, b⟩ := x
    rw [List.map_cons, Dict.get?_cons, Dict.get?_cons, ih]
    split <;> rfl

/-- Decoding the parts for one source. -/
theorem decode_source {env : PyEnv N O} {md : TMeta O} {src : Str} {props : Dict Str (TVal E N O)} {parts : List (Part E N O)}
    (h : sourceParts env md (src, props) = .ok parts) (hn : props.keys.Nodup)
    (hw : ∀ k a, (k, .array a) ∈ props → a.elems.length = a.shape.prod) (g : Spec.Got E O) (rest : List (Part E N O)) :
    ∃ g' d m, Spec.decode g (parts ++ rest) = Spec.decode g' rest ∧ md.get? src = some m ∧ g'.metadata = g.metadata.set src m ∧
      g'.data.get? src = some d ∧ (∀ k, d.get? k = (props.get? k).map (Spec.seen env)) ∧
      (∀ s, s ≠ src → g'.data.get? s = g.data.get? s) := by
  unfold sourceParts at h
  split at h
  · simp at h
  · rename_i m hm
    simp only at h hm
    split at h
    · split at h
      · simp at h
      · rename_i l hl
        obtain rfl := Except.ok.inj h
        have hl' : l = (splitProps env props).2.map (fun x => [.arrayHeader src x.1 x.2.dtype x.2.shape, .bytes x.2.elems]) := by
          have := mapE_ok_of_forall (f := arrayParts (N := N) (O := O) src) (l := (splitProps env props).2)
            (fun a _ => arrayParts_ok (N := N) (O := O) src a)
          rw [this] at hl
          exact (Except.ok.inj hl).symm
        obtain ⟨g', d', h1, h2, h3, h4, h5, h6⟩ := decode_arrays (N := N) src rest (splitProps env props).2
          ⟨g.data.set src ((splitProps env props).1.map (fun x => (x.1, Spec.unpacked x.2))), g.metadata.set src m⟩
          ((splitProps env props).1.map (fun x => (x.1, Spec.unpacked x.2)))
          (hn.sublist (splitProps_sublist env props).2) (fun x hx => hw x.1 x.2 ((splitProps_arrays env x.1 x.2 props).1 hx))
          (by rw [Dict.get?_set]; simp)
        refine ⟨g', d', m, ?_, hm, h2, h3, ?_, ?_⟩
        · simp only [List.cons_append, Spec.decode, hl', ← List.flatMap_def]
          exact h1
        · intro k
          by_cases hk : k ∈ (splitProps env props).2.map Prod.fst
          · obtain ⟨⟨k', a⟩, hin, rfl⟩ := List.mem_map.1 hk
            rw [h5 k' a hin, (Dict.get?_eq_some_iff hn).2 ((splitProps_arrays env k' a props).1 hin)]
            rfl
          · rw [h6 k hk, Dict.get?_map]
            cases hp : props.get? k with
            | none =>
              have : (splitProps env props).1.get? k = none := by
                rw [Dict.get?_none_iff]
                intro hin
                obtain ⟨p, hp'⟩ := Dict.mem_keys_iff.1 hin
                obtain ⟨v, hv, -⟩ := (splitProps_main env k p props).1 (Dict.mem_of_get? hp')
                rw [(Dict.get?_eq_some_iff hn).2 hv] at hp
                simp at hp
              rw [this]; rfl
            | some v =>
              have hv := Dict.mem_of_get? hp
              have hnd : ((splitProps env props).1).keys.Nodup := hn.sublist (splitProps_sublist env props).1
              cases v with
              | array a => exact absurd (List.mem_map.2 ⟨(k, a), (splitProps_arrays env k a props).2 hv, rfl⟩) hk
              | number n => rw [(Dict.get?_eq_some_iff hnd).2 ((splitProps_main env k _ props).2 ⟨_, hv, rfl⟩)]; rfl
              | dict n => rw [(Dict.get?_eq_some_iff hnd).2 ((splitProps_main env k _ props).2 ⟨_, hv, rfl⟩)]; rfl
              | object n => rw [(Dict.get?_eq_some_iff hnd).2 ((splitProps_main env k _ props).2 ⟨_, hv, rfl⟩)]; rfl
        · intro s hs
          rw [h4 s hs]
          show (g.data.set src _).get? s = _
          rw [Dict.get?_set, if_neg (fun e => hs e.symm)]
    · simp at h

/-- Decoding the parts of all sources. -/
theorem decode_sources {env : PyEnv N O} {md : TMeta O} : ∀ {l : TData E N O} {ps : List (List (Part E N O))},
    mapE (sourceParts env md) l = .ok ps → Spec.WellFormed l → ∀ g : Spec.Got E O,
    ∃ g', Spec.decode g ps.flatten = some g' ∧
      (∀ s props, (s, props) ∈ l → ∃ d, g'.data.get? s = some d ∧ (∀ k, d.get? k = (props.get? k).map (Spec.seen env)) ∧
        (md.get? s).isSome = true ∧ g'.metadata.get? s = md.get? s) ∧
      (∀ s, s ∉ Dict.keys l → g'.data.get? s = g.data.get? s ∧ g'.metadata.get? s = g.metadata.get? s)
  | [], ps, h, _, g => by
    obtain rfl := Except.ok.inj h
    exact ⟨g, rfl, by simp, fun _ _ => ⟨rfl, rfl⟩⟩
  | (s, props) :: l, ps, h, hw, g => by
    obtain ⟨b, bs, h1, h2, rfl⟩ := mapE_cons_ok.1 h
    have hnd : s ∉ Dict.keys l ∧ (Dict.keys l).Nodup := by
      have := hw.1
      rwa [show Dict.keys ((s, props) :: l) = s :: Dict.keys l from rfl, List.nodup_cons] at this
    have hw1 := hw.2 s props (by simp)
    obtain ⟨g1, d, m, e1, e2, e3, e4, e5, e6⟩ := decode_source h1 hw1.1 hw1.2 g bs.flatten
    obtain ⟨g', f1, f2, f3⟩ := decode_sources h2 ⟨hnd.2, fun s p hsp => hw.2 s p (by simp [hsp])⟩ g1
    refine ⟨g', ?_, ?_, ?_⟩
    · rw [List.flatten_cons, e1, f1]
    · intro s' p hsp
      rw [List.mem_cons] at hsp
      rcases hsp with e | hsp
      · obtain ⟨rfl, rfl⟩ := Prod.mk.inj e
        refine ⟨d, by rw [(f3 _ hnd.1).1, e4], e5, by rw [e2]; rfl, ?_⟩
        rw [(f3 _ hnd.1).2, e3, Dict.get?_set, e2]
        simp
      · exact f2 s' p hsp
    · intro s' hs'
      have hs2 : s' ≠ s ∧ s' ∉ Dict.keys l := by
        rw [show Dict.keys ((s, props) :: l) = s :: Dict.keys l from rfl, List.mem_cons, not_or] at hs'
        exact hs'
      rw [(f3 s' hs2.2).1, (f3 s' hs2.2).2, e3, Dict.get?_set, if_neg (fun e => hs2.1 e.symm)]
      exact ⟨e6 s' hs2.1, rfl⟩

theorem sortData_perm (data : TData E N O) : (sortData data).Perm data := List.perm_insertionSort _ _

theorem sortData_wf {data : TData E N O} (h : Spec.WellFormed data) : Spec.WellFormed (sortData data) := by
  have hp := sortData_perm data
  exact ⟨(hp.map Prod.fst).nodup_iff.2 h.1, fun s p hsp => h.2 s p (hp.mem_iff.1 hsp)⟩

end KD
