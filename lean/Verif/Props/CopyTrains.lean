/-
C127: trains read one at a time from copies.
-/
import Verif.Props.Copies
import Verif.Props.History
import Verif.Props.Iterate

set_option linter.unusedSimpArgs false

namespace KD
open Spec

variable {V : Type}

/-- What is shown, taking an empty array for nothing. -/
def Spec.orEmpty : Option (Entry V) → Option (Entry V)
  | some (.many []) => none
  | x => x

theorem copy_cases {c e : DC V} (hc : Copyable c) (h : CopyOf c e) :
    e = c ∨ ∃ d f, CopyOf c d ∧ Copyable d ∧ FullCopy d f ∧ e = DC.single f := by
  cases h with
  | self => exact Or.inl rfl
  | @copy d _ kind hh name hd hw hs ho =>
    obtain ⟨k1, -⟩ := copies_same hc hd
    obtain ⟨f, hf1, hf⟩ := written_full k1 hw hs name
    rw [hf1] at ho
    exact Or.inr ⟨d, f, hd, k1, hf, fromPath_eq.1 ho⟩

theorem field_holds_all {c : DC V} {f : FileAccess V} (hf : FullCopy c f) {s : Str} (hs : s ∈ c.allSources) : Holds f s := by
  rcases mem_all.1 hs with h | h
  · exact Or.inl ((hf.control s).2 h)
  · exact Or.inr ((hf.instrument s).2 h)

theorem copy_field {c e : DC V} (hc : Copyable c) (h : CopyOf c e) (b : Bool) (s k : Str) : HasField e b s k ↔ HasField c b s k := by
  induction h with
  | self => rfl
  | @copy d e kind hh name hd hw hs ho ih =>
    obtain ⟨k1, -⟩ := copies_same hc hd
    obtain ⟨f, hf1, hf⟩ := written_full k1 hw hs name
    rw [hf1] at ho
    have he : e = DC.single f := fromPath_eq.1 ho
    subst he
    rw [single_field hf, ih]

theorem copy_all {c e : DC V} (hc : Copyable c) (h : CopyOf c e) (s : Str) : s ∈ e.allSources ↔ s ∈ c.allSources := by
  obtain ⟨-, -, k3, k4, -⟩ := copies_same hc h
  rw [mem_all, mem_all, k3, k4]

/-- Where the original has a source in a train, copies have. -/
theorem copy_covered {c e : DC V} (hc : Copyable c) (h : CopyOf c e) {s : Str} (hs : s ∈ c.allSources) {t : Nat}
    (ht : t ∈ c.trainIds) : (Covered c s t → Covered e s t) ∧ (¬ Covered c s t → e = c ∨ Covered e s t) := by
  rcases copy_cases hc h with rfl | ⟨d, f, hd, k1, hf, rfl⟩
  · exact ⟨id, fun _ => Or.inl rfl⟩
  · have : Covered (DC.single f) s t := by
      refine ⟨f, by simp [DC.single], field_holds_all hf ((copy_all hc hd s).2 hs), ?_⟩
      rw [hf.trains, (copies_same hc hd).2.1]
      exact ht
    exact ⟨fun _ => this, fun _ => Or.inr this⟩

/-- The entries of a field in a train are the same in files of a copy, and none if the original has none. -/
theorem copy_entries {c e : DC V} (hc : Copyable c) (h : CopyOf c e) {b : Bool} {s k : Str} (hF : HasField c b s k) {t : Nat}
    (ht : t ∈ c.trainIds) :
    (∀ g ∈ c.files, Holds g s → t ∈ g.trainIds → ∀ f ∈ e.files, Holds f s → t ∈ f.trainIds →
      fileEntries f b s k t = fileEntries g b s k t) ∧
    (¬ Covered c s t → ∀ f ∈ e.files, Holds f s → t ∈ f.trainIds → fileEntries f b s k t = []) := by
  induction h with
  | self =>
    constructor
    · intro g hg hh htg f hf hhf htf
      obtain ⟨p1, h1⟩ := findData_of_mem hc.writable.noConflict hg hh htg
      obtain ⟨p2, h2⟩ := findData_of_mem hc.writable.noConflict hf hhf htf
      rw [h1] at h2
      obtain ⟨rfl, -⟩ := Prod.mk.inj (Option.some.inj h2)
      rfl
    · intro hn f hf hh htf
      exact absurd ⟨f, hf, hh, htf⟩ hn
  | @copy d e kind hh name hd hw hs ho ih =>
    obtain ⟨k1, k2, -⟩ := copies_same hc hd
    obtain ⟨f, hf1, hf⟩ := written_full k1 hw hs name
    rw [hf1] at ho
    have he : e = DC.single f := fromPath_eq.1 ho
    subst he
    have hFd := (copy_field hc hd b s k).2 hF
    have htd : t ∈ d.trainIds := by rw [k2]; exact ht
    obtain ⟨j1, j2⟩ := (hf.fields b s k hFd).2.2 t htd
    have hsa : s ∈ c.allSources := (hasField_available hF).1
    constructor
    · intro g hg hhg htg f' hf' _ _
      have : f' = f := by simpa [DC.single] using hf'
      subst this
      obtain ⟨q, hq, hhq, htq⟩ := (copy_covered hc hd hsa ht).1 ⟨g, hg, hhg, htg⟩
      rw [j1 q hq hhq htq]
      exact ih.1 g hg hhg htg q hq hhq htq
    · intro hn f' hf' _ _
      have : f' = f := by simpa [DC.single] using hf'
      subst this
      by_cases hcov : Covered d s t
      · obtain ⟨q, hq, hhq, htq⟩ := hcov
        rw [j1 q hq hhq htq]
        exact ih.2 hn q hq hhq htq
      · exact j2 hcov

/-- Copies have one entry in each train if the original has. -/
theorem copy_oneEntry {c e : DC V} (hc : Copyable c) (h : CopyOf c e)
    (hone : ∀ s k, HasField c false s k → ∀ t ∈ c.trainIds, OneEntry c false s k t) :
    ∀ s k, HasField e false s k → ∀ t ∈ e.trainIds, OneEntry e false s k t := by
  induction h with
  | self => exact hone
  | @copy d e kind hh name hd hw hs ho ih =>
    obtain ⟨k1, k2, -⟩ := copies_same hc hd
    obtain ⟨f, hf1, hf⟩ := written_full k1 hw hs name
    rw [hf1] at ho
    have he : e = DC.single f := fromPath_eq.1 ho
    subst he
    intro s k hF t ht
    rw [single_trains k1.writable hf] at ht
    have hF' := (single_field hf false s k).1 hF
    exact single_oneEntry hf hF' ht (ih s k hF' t ht)

/-- Written control data has one entry per train. -/
theorem full_onePerTrain {c : DC V} {f : FileAccess V} (hf : FullCopy c f) {s k : Str} (hF : HasField c false s k)
    (hone : ∀ t ∈ c.trainIds, OneEntry c false s k t) : OnePerTrain f s := by
  obtain ⟨hv, -, -⟩ := hf.fields false s k hF
  obtain ⟨firsts', counts', s1, s2⟩ := hf.start false s k hF
  obtain ⟨firsts, counts, ds, h1, h2, h3, h4, h5, h6⟩ := hv.data
  rw [h1] at s1
  obtain ⟨rfl, rfl⟩ := Prod.mk.inj (Except.ok.inj s1)
  have hcount : ∀ i, i < f.trainIds.length → counts[i]? = some 1 := by
    intro i hi
    have ha : firsts[i]? = some firsts[i] := List.getElem?_eq_getElem (by omega)
    have hn : counts[i]? = some counts[i] := List.getElem?_eq_getElem (by omega)
    have ht : f.trainIds[i]? = some f.trainIds[i] := List.getElem?_eq_getElem hi
    have htc : f.trainIds[i] ∈ c.trainIds := by
      have : f.trainIds[i] ∈ f.trainIds := List.getElem_mem hi
      rw [← hf.trains]; exact this
    obtain ⟨g, hg, hh, v, hgv⟩ := hone _ htc
    have he := full_entries hf hF htc hg hh (by rw [hgv]; simp)
    rw [hgv] at he
    obtain ⟨fs, ns, d2, a, n, e1, e2, e3, e4, e5, e6⟩ := fileEntries_at hv.indexed ht
    rw [h1] at e1
    obtain ⟨rfl, rfl⟩ := Prod.mk.inj (Except.ok.inj e1)
    rw [e6] at he
    have hlen : (slice d2.rows a n).length = n := by unfold slice; simp; omega
    rw [he] at hlen
    simp at hlen
    rw [e4, ← hlen]
  have hfirst : ∀ i, i < f.trainIds.length → firsts[i]? = some i := by
    intro i
    induction i with
    | zero =>
      intro _
      rw [← List.head?_eq_getElem?]; exact s2
    | succ i ih =>
      intro hi
      have hb : firsts[i + 1]? = some firsts[i + 1] := List.getElem?_eq_getElem (by omega)
      rw [h5 i _ _ _ (ih (by omega)) (hcount i (by omega)) hb] at hb
      exact hb
  unfold OnePerTrain
  rw [show f.getIndex s [] = .ok (firsts, counts) from h1]
  congr 2
  · apply List.ext_getElem?
    intro i
    by_cases hi : i < f.trainIds.length
    · rw [hfirst i hi, List.getElem?_range hi]
    · rw [List.getElem?_eq_none (by omega), List.getElem?_eq_none (by simpa using hi)]
  · apply List.ext_getElem?
    intro i
    by_cases hi : i < f.trainIds.length
    · rw [hcount i hi, List.getElem?_replicate, if_pos hi]
    · rw [List.getElem?_eq_none (by omega), List.getElem?_eq_none (by simpa using hi)]

theorem copyable_field_valid {c : DC V} (hc : Copyable c) {s k : Str} (hav : Available c s k) :
    (s ∈ c.instrumentSources → IndexedIn c true s k ∧ s ∉ c.controlSources) ∧
    (s ∈ c.controlSources → IndexedIn c false s k ∧ s ∉ c.instrumentSources) := by
  constructor
  · intro hs
    have hv := hc.writable.valid true s k ⟨by simpa using hs, hav.2⟩
    refine ⟨fun f hf hh => (hv f hf hh).2.2.1, fun hi => ?_⟩
    obtain ⟨-, g, hg, hgi⟩ := mem_controlSources.1 hi
    have := (hv g hg (Or.inl hgi)).2.2.1.category
    simp at this
    exact this.2 hgi
  · intro hs
    have hv := hc.writable.valid false s k ⟨by simpa using hs, hav.2⟩
    refine ⟨fun f hf hh => (hv f hf hh).2.2.1, fun hi => ?_⟩
    obtain ⟨-, g, hg, hgi⟩ := mem_instrumentSources.1 hi
    have := (hv g hg (Or.inr hgi)).2.2.1.category
    simp at this
    exact this.2 hgi

/-- All copies are in good order if the original is, and has one entry in each train for all control data. -/
theorem copy_good {c e : DC V} (hc : Copyable c) (h : CopyOf c e)
    (hone : ∀ s k, HasField c false s k → ∀ t ∈ c.trainIds, OneEntry c false s k t) (hg : GoodData c) : GoodData e := by
  rcases copy_cases hc h with rfl | ⟨d, f, hd, k1, hf, he⟩
  · exact hg
  · obtain ⟨e1, -⟩ := copies_same hc h
    have hkeys : KeysReadable e := by
      intro s hs
      obtain ⟨k, -, ks, hks, -⟩ := e1.keys s hs
      exact ⟨ks, hks⟩
    refine ⟨hkeys, fun s hs k hk => ((copyable_field_valid e1 hk).1 hs).1, fun s hs => ?_⟩
    obtain ⟨k0, hk0⟩ := e1.keys s (mem_all.2 (Or.inl hs))
    refine ⟨((copyable_field_valid e1 hk0).2 hs).2, fun k hk => ⟨((copyable_field_valid e1 hk).2 hs).1, ?_⟩⟩
    subst he
    intro g hg' _
    have : g = f := by simpa [DC.single] using hg'
    subst this
    have hF : HasField d false s k := (single_field hf false s k).1 ⟨by simpa using hs, hk.2⟩
    exact full_onePerTrain hf hF (copy_oneEntry hc hd hone s k hF)

/-- Nothing is shown for keys which are not available. -/
theorem shownAt_unavailable {c : DC V} (hc : NoConflict c.files) {t t' : Nat} {m : Dict Str (SourceData V)}
    (h : c.trainFromId t = .ok (t', m)) {s k : Str} (hn : ¬ Available c s k) : shownAt m s k = none := by
  obtain ⟨-, -, -, hk, -⟩ := train_from_id_sources h
  unfold shownAt
  cases hsd : m.get? s with
  | none => rfl
  | some sd =>
    have hs : s ∈ c.allSources := (hk s).1 (Dict.mem_keys_iff.2 ⟨_, hsd⟩)
    by_cases hi : s ∈ c.instrumentSources
    · exact (train_from_id_instrument hc h hi hsd k).2 (Or.inl hn)
    · have hcs : s ∈ c.controlSources := by rcases mem_all.1 hs with h | h; exact h; exact absurd h hi
      exact (train_from_id_control_partial hc h hcs hi hsd k).2 (Or.inl hn)

/-- C127. `train_from_id` works for each train of a copy and shows the same sources, and the same data for each key, as for the
original. -/
theorem copy_train {c e : DC V} (hc : Copyable c) (h : CopyOf c e)
    (hone : ∀ s k, HasField c false s k → ∀ t ∈ c.trainIds, OneEntry c false s k t) (hg : GoodData c) {t : Nat}
    (ht : t ∈ c.trainIds) :
    ∃ m m', c.trainFromId t = .ok (t, m) ∧ e.trainFromId t = .ok (t, m') ∧ (∀ s, s ∈ m'.keys ↔ s ∈ m.keys) ∧
      ∀ s k, shownAt m' s k = shownAt m s k := by
  obtain ⟨k1, k2, k3, k4, k5, -⟩ := copies_same hc h
  have hge := copy_good hc h hone hg
  have hcn := hc.writable.noConflict
  have hen := k1.writable.noConflict
  have hte : t ∈ e.trainIds := by rw [k2]; exact ht
  obtain ⟨m, hm⟩ := train_from_id_succeeds hg ht
  obtain ⟨m', hm'⟩ := train_from_id_succeeds hge hte
  refine ⟨m, m', hm, hm', fun s => ?_, fun s k => ?_⟩
  · rw [(train_from_id_sources hm).2.2.2.1, (train_from_id_sources hm').2.2.2.1, copy_all hc h]
  · by_cases hav : Available c s k
    · have have' := (k5 s k).2 hav
      have key : ∀ b, HasField c b s k → IndexedIn c b s k → IndexedIn e b s k →
          (b = false → (∀ f ∈ c.files, Holds f s → OnePerTrain f s) ∧ ∀ f ∈ e.files, Holds f s → OnePerTrain f s) →
          shownAt m' s k = shownAt m s k := by
        intro b hF hv hv' h1
        obtain ⟨x1, x2⟩ := trainFromId_shown hcn hv (fun hb => (h1 hb).1) hav hm
        obtain ⟨y1, y2⟩ := trainFromId_shown hen hv' (fun hb => (h1 hb).2) have' hm'
        obtain ⟨z1, z2⟩ := copy_entries hc h hF ht
        obtain ⟨w1, w2⟩ := copy_covered hc h hav.1 ht
        by_cases hcov : Covered c s t
        · obtain ⟨f, hf, hhf, htf⟩ := w1 hcov
          obtain ⟨g, hg, hhg, htg⟩ := hcov
          rw [x1 g hg hhg htg, y1 f hf hhf htf, z1 g hg hhg htg f hf hhf htf]
        · rw [x2 hcov]
          by_cases hcov' : Covered e s t
          · obtain ⟨f, hf, hhf, htf⟩ := hcov'
            rw [y1 f hf hhf htf, z2 hcov f hf hhf htf]
            rfl
          · exact y2 hcov'
      rcases mem_all.1 hav.1 with hs | hs
      · refine key false ⟨by simpa using hs, hav.2⟩ ((copyable_field_valid hc hav).2 hs).1
          ((copyable_field_valid k1 have').2 ((k3 s).2 hs)).1 (fun _ => ⟨((hg.ctrl s hs).2 k hav).2, ((hge.ctrl s ((k3 s).2 hs)).2 k have').2⟩)
      · exact key true ⟨by simpa using hs, hav.2⟩ ((copyable_field_valid hc hav).1 hs).1
          ((copyable_field_valid k1 have').1 ((k4 s).2 hs)).1 (by simp)
    · rw [shownAt_unavailable hcn hm hav, shownAt_unavailable hen hm' (fun h => hav ((k5 s k).1 h))]

/-- Copies have data for everything in the same trains. -/
theorem copy_complete {c e : DC V} (hc : Copyable c) (h : CopyOf c e)
    (hone : ∀ s k, HasField c false s k → ∀ t ∈ c.trainIds, OneEntry c false s k t) {t : Nat} (ht : t ∈ c.trainIds) :
    Complete e t ↔ Complete c t := by
  obtain ⟨k1, k2, k3, k4, k5, -⟩ := copies_same hc h
  constructor
  · rintro ⟨h1, h2⟩
    have hcov : ∀ s ∈ c.allSources, Covered c s t := by
      intro s hs
      by_contra hn
      obtain ⟨k, hk⟩ := hc.keys s hs
      rcases mem_all.1 hs with hsc | hsi
      · obtain ⟨g, hg, hh, v, hv⟩ := hone s k ⟨by simpa using hsc, hk.2⟩ t ht
        refine hn ⟨g, hg, hh, ?_⟩
        by_contra hnt
        rw [fileEntries_notMem hnt] at hv
        simp at hv
      · obtain ⟨f, hf, hhf, htf⟩ := h1 s ((copy_all hc h s).2 hs)
        exact h2 s ((k4 s).2 hsi) k ((k5 s k).2 hk) f hf hhf htf
          ((copy_entries hc h (b := true) ⟨by simpa using hsi, hk.2⟩ ht).2 hn f hf hhf htf)
    refine ⟨hcov, fun s hs k hk g hg hhg htg => ?_⟩
    obtain ⟨f, hf, hhf, htf⟩ := h1 s ((copy_all hc h s).2 hk.1)
    rw [← (copy_entries hc h (b := true) ⟨by simpa using hs, hk.2⟩ ht).1 g hg hhg htg f hf hhf htf]
    exact h2 s ((k4 s).2 hs) k ((k5 s k).2 hk) f hf hhf htf
  · rintro ⟨h1, h2⟩
    refine ⟨fun s hs => (copy_covered hc h ((copy_all hc h s).1 hs) ht).1 (h1 s ((copy_all hc h s).1 hs)), ?_⟩
    intro s hs k hk f hf hhf htf
    have hs' := (k4 s).1 hs
    have hk' := (k5 s k).1 hk
    obtain ⟨g, hg, hhg, htg⟩ := h1 s hk'.1
    rw [(copy_entries hc h (b := true) ⟨by simpa using hs', hk'.2⟩ ht).1 g hg hhg htg f hf hhf htf]
    exact h2 s hs' k hk' g hg hhg htg

theorem iterate_shown {c : DC V} (hc : NoConflict c.files) (hg : GoodData c) {req : Bool} {l : List (Nat × Dict Str (SourceData V))}
    (h : c.trains none none req = .ok l) {t : Nat} {x : Dict Str (SourceData V)} (hx : (t, x) ∈ l) {m : Dict Str (SourceData V)}
    (hm : c.trainFromId t = .ok (t, m)) : (∀ s, s ∈ x.keys ↔ s ∈ m.keys) ∧ ∀ s k, orEmpty (shownAt x s k) = orEmpty (shownAt m s k) := by
  obtain ⟨-, h2⟩ := trains_agree hc (goodData_cat hg) h
  obtain ⟨-, m', hm', hk, hs⟩ := h2 t x hx
  rw [hm] at hm'
  obtain rfl := (Prod.mk.inj (Except.ok.inj hm')).2
  refine ⟨fun s => by rw [hk], fun s k => ?_⟩
  unfold shownAt
  cases hsx : x.get? s with
  | none =>
    have : m.get? s = none := by rw [Dict.get?_none_iff, ← hk, ← Dict.get?_none_iff]; exact hsx
    rw [this]
  | some sd =>
    obtain ⟨sd', h1, -, -, h4⟩ := hs s sd hsx
    rw [h1]
    rcases h4 k with h5 | ⟨h5, h6⟩
    · simp only [h5]
    · simp only [h5, h6]; rfl

/-- C127. Iterating over a copy takes the same trains as iterating over the original, with and without `require_all`, and shows
the same sources and data, except that one may show an empty array where the other shows nothing. -/
theorem copy_trains {c e : DC V} (hc : Copyable c) (h : CopyOf c e)
    (hone : ∀ s k, HasField c false s k → ∀ t ∈ c.trainIds, OneEntry c false s k t) (hg : GoodData c) (req : Bool) :
    ∃ l l', c.trains none none req = .ok l ∧ e.trains none none req = .ok l' ∧ l'.map Prod.fst = l.map Prod.fst ∧
      ∀ t x x', (t, x) ∈ l → (t, x') ∈ l' → (∀ s, s ∈ x'.keys ↔ s ∈ x.keys) ∧
        ∀ s k, orEmpty (shownAt x' s k) = orEmpty (shownAt x s k) := by
  classical
  obtain ⟨k1, k2, k3, k4, k5, -⟩ := copies_same hc h
  have hge := copy_good hc h hone hg
  have hcn := hc.writable.noConflict
  have hen := k1.writable.noConflict
  obtain ⟨l, hl⟩ := trains_succeeds hcn hg req
  obtain ⟨l', hl'⟩ := trains_succeeds hen hge req
  refine ⟨l, l', hl, hl', ?_, ?_⟩
  · cases req with
    | false => rw [(trains_agree hcn (goodData_cat hg) hl).1 rfl, (trains_agree hen (goodData_cat hge) hl').1 rfl, k2]
    | true =>
      rw [trains_require_all hcn hg (P := fun t => decide (Complete c t)) (by simp) hl,
        trains_require_all hen hge (P := fun t => decide (Complete e t)) (by simp) hl', k2]
      apply List.filter_congr
      intro t ht
      simp only [copy_complete hc h hone ht]
  · intro t x x' hx hx'
    obtain ⟨ht, -⟩ := (trains_agree hcn (goodData_cat hg) hl).2 t x hx
    obtain ⟨m, m', hm, hm', hk, hs⟩ := copy_train hc h hone hg ht
    obtain ⟨a1, a2⟩ := iterate_shown hcn hg hl hx hm
    obtain ⟨b1, b2⟩ := iterate_shown hen hge hl' hx' hm'
    exact ⟨fun s => by rw [a1, b1, hk], fun s k => by rw [a2, b2, hs]⟩

/-- The shape of entries is kept. -/
theorem copy_shape {c e : DC V} (hc : Copyable c) (h : CopyOf c e) {b : Bool} {s k : Str} (hF : HasField c b s k)
    {P : List Nat → Prop} (hsh : ∀ f ∈ c.files, Holds f s → ∀ ds, f.dataset (sectionName b) s k = .ok ds → P ds.rowShape) :
    ∀ f ∈ e.files, Holds f s → ∀ ds, f.dataset (sectionName b) s k = .ok ds → P ds.rowShape := by
  induction h with
  | self => exact hsh
  | @copy d0 e kind hh name' hd0 hw hs ho ih =>
    obtain ⟨m1, -⟩ := copies_same hc hd0
    obtain ⟨f, hf1, hf⟩ := written_full m1 hw hs name'
    rw [hf1] at ho
    have he : e = DC.single f := fromPath_eq.1 ho
    subst he
    have hFd := (copy_field hc hd0 b s k).2 hF
    intro g hg _ ds hds
    have : g = f := by simpa [DC.single] using hg
    subst this
    obtain ⟨-, ⟨d, hd, hall⟩, -⟩ := hf.fields b s k hFd
    rw [hd] at hds
    obtain rfl := Except.ok.inj hds
    obtain ⟨t, -, q, hq, hh, -⟩ := m1.data b s k hFd
    obtain ⟨y, hy, hy1, -⟩ := hall q hq hh
    rw [hy1]
    exact ih q hq hh y hy

/-- Some selected train has several entries for the field. -/
def Spec.SeveralSelected (c : DC V) (instr : Bool) (source key : Str) : Prop :=
  ∃ t ∈ c.trainIds, ∃ g ∈ c.files, Holds g source ∧ 1 < (fileEntries g instr source key t).length

theorem full_several {c d : DC V} {f : FileAccess V} (hc : Copyable c) (hd : CopyOf c d) (hf : FullCopy d f) (he : CopyOf c (DC.single f))
    {b : Bool} {s k : Str} (hF : HasField c b s k) : Several f b s k ↔ SeveralSelected c b s k := by
  have hk2 := (copies_same hc hd).2.1
  have hsa : s ∈ c.allSources := (hasField_available hF).1
  have hhf : Holds f s := field_holds_all hf ((copy_all hc hd s).2 hsa)
  have hfm : f ∈ (DC.single f).files := by simp [DC.single]
  constructor
  · rintro ⟨t, ht⟩
    have htf : t ∈ f.trainIds := by
      by_contra hn
      rw [fileEntries_notMem hn] at ht
      simp at ht
    have htc : t ∈ c.trainIds := by rw [← hk2, ← hf.trains]; exact htf
    by_cases hcov : Covered c s t
    · obtain ⟨g, hg, hh, htg⟩ := hcov
      refine ⟨t, htc, g, hg, hh, ?_⟩
      rw [← (copy_entries hc he hF htc).1 g hg hh htg f hfm hhf htf]
      exact ht
    · rw [(copy_entries hc he hF htc).2 hcov f hfm hhf htf] at ht
      simp at ht
  · rintro ⟨t, htc, g, hg, hh, ht⟩
    refine ⟨t, ?_⟩
    have htg : t ∈ g.trainIds := by
      by_contra hn
      rw [fileEntries_notMem hn] at ht
      simp at ht
    rw [(copy_entries hc he hF htc).1 g hg hh htg f hfm hhf (by rw [hf.trains, hk2]; exact htc)]
    exact ht

/-- C128. The series read from a copy has the rows of the original, with their pulse IDs, if a field with several entries for some
train of a file has several for some selected train, and if the pulse IDs are selected too. -/
theorem copy_series_partial {c e : DC V} (hc : Copyable c) (h : CopyOf c e)
    (hone : ∀ s k, HasField c false s k → ∀ t ∈ c.trainIds, OneEntry c false s k t) {b : Bool} {s k : Str} (hF : HasField c b s k)
    (hs : SeriesIn c b s k) (hsev : (∃ g ∈ c.files, Holds g s ∧ Several g b s k) → SeveralSelected c b s k)
    (hpulse : b = true → SeveralSelected c b s k → HasField c true s (pulseIdKey k)) {l : List (SeriesRow V)} (hl : c.getSeries s k = .ok l) :
    ∃ l', e.getSeries s k = .ok l' ∧ ∀ t, l'.filter (fun r => r.tid = t) = l.filter (fun r => r.tid = t) := by
  rcases copy_cases hc h with rfl | ⟨d, f, hd, k1, hf, rfl⟩
  · exact ⟨l, hl, fun _ => rfl⟩
  have hsa : Available c s k := hasField_available hF
  obtain ⟨q1, q2, -, -, q5, -⟩ := copies_same hc h
  have hse := full_several hc hd hf h hF
  have hFd := (copy_field hc hd b s k).2 hF
  have hhf : Holds f s := field_holds_all hf ((copy_all hc hd s).2 hsa.1)
  have hfm : f ∈ (DC.single f).files := by simp [DC.single]
  have hsf : SeriesField f b s k := by
    refine ⟨(hf.fields b s k hFd).1, hf.start b s k hFd, ?_, ?_⟩
    · rintro rfl
      exact full_onePerTrain hf hFd (copy_oneEntry hc hd hone s k hFd)
    · intro hb hsv
      exact (hf.fields true s _ ((copy_field hc hd true s _).2 (hpulse hb (hse.1 hsv)))).1
  have hse' : SeriesIn (DC.single f) b s k := by
    intro g hg _
    have : g = f := by simpa [DC.single] using hg
    subst this
    exact hsf
  obtain ⟨s1, s2, s3⟩ := (get_series_succeeds hs hsa).1 ⟨l, hl⟩
  have hallsev : SeveralSelected c b s k → ∀ g ∈ c.files, Holds g s → Several g b s k := by
    rintro ⟨t, -, g, hg, hh, hlt⟩
    rcases s3 with h3 | h3
    · exact h3
    · exact absurd ⟨t, hlt⟩ (h3 g hg hh)
  have hnosev : ¬ SeveralSelected c b s k → ∀ g ∈ c.files, Holds g s → ¬ Several g b s k :=
    fun hn g hg hh hsv => hn (hsev ⟨g, hg, hh, hsv⟩)
  have hdim : OneDim f b s k := by
    constructor
    · intro hns
      exact copy_shape hc h (P := fun sh => sh = []) hF
        (fun g hg hh ds hds => (s1 g hg hh).1 (hnosev (fun hx => hns (hse.2 hx)) g hg hh) ds hds) f hfm hhf
    · intro hsv
      have hall := hallsev (hse.1 hsv)
      refine ⟨copy_shape hc h (P := fun sh => sh = [1]) hF
        (fun g hg hh ds hds => ((s1 g hg hh).2 (hall g hg hh)).1 ds hds) f hfm hhf, ?_⟩
      cases b with
      | false =>
        obtain ⟨t, htc, g, hg, hh, hlt⟩ := hse.1 hsv
        obtain ⟨g', hg', hh', v, hv⟩ := hone s k hF t htc
        have htg : t ∈ g.trainIds := by
          by_contra hn
          rw [fileEntries_notMem hn] at hlt
          simp at hlt
        have htg' : t ∈ g'.trainIds := by
          by_contra hn
          rw [fileEntries_notMem hn] at hv
          simp at hv
        have := (copy_entries hc CopyOf.self hF htc).1 g hg hh htg g' hg' hh' htg'
        rw [← this, hv] at hlt
        simp at hlt
      | true =>
        exact copy_shape hc h (b := true) (P := fun sh => ∃ n, sh = [n + 1]) (hpulse rfl (hse.1 hsv))
          (fun g hg hh ds hds => ((s1 g hg hh).2 (hall g hg hh)).2 ds hds) f hfm hhf
  have hent : SomeEntry f b s k := by
    obtain ⟨t, htd, g, hg, hh, hne⟩ := k1.data b s k hFd
    exact ⟨t, by rw [full_entries hf hFd htd hg hh hne]; exact hne⟩
  have hfiles : ∀ {P : FileAccess V → Prop}, P f → ∀ g ∈ (DC.single f).files, Holds g s → P g := by
    intro P hP g hg _
    have : g = f := by simpa [DC.single] using hg
    subst this
    exact hP
  obtain ⟨l', hl'⟩ := (get_series_succeeds hse' ((q5 s k).2 hsa)).2 ⟨hfiles hdim, hfiles hent, by
    by_cases hx : Several f b s k
    · exact Or.inl (hfiles hx)
    · exact Or.inr (hfiles (P := fun g => ¬ Several g b s k) hx)⟩
  refine ⟨l', hl', fun t => ?_⟩
  obtain ⟨c1, c2⟩ := get_series_exact hc.writable.noConflict hs hl
  obtain ⟨d1, d2⟩ := get_series_exact q1.writable.noConflict hse' hl'
  have hnil : ∀ {l : List (SeriesRow V)}, (∀ r ∈ l, r.tid ≠ t) → l.filter (fun r => r.tid = t) = [] := by
    intro l h
    rw [List.filter_eq_nil_iff]
    intro r hr; simpa using h r hr
  by_cases htc : t ∈ c.trainIds
  · have htf : t ∈ f.trainIds := by rw [hf.trains, (copies_same hc hd).2.1]; exact htc
    obtain ⟨v2, p2, n2⟩ := d1 t (by rw [q2]; exact htc) f hfm hhf htf
    by_cases hcov : Covered c s t
    · obtain ⟨g, hg, hh, htg⟩ := hcov
      obtain ⟨v1, p1, n1⟩ := c1 t htc g hg hh htg
      refine seriesRows_ext (t := t) (fun r hr => by simpa using (List.mem_filter.1 hr).2)
        (fun r hr => by simpa using (List.mem_filter.1 hr).2)
        (by rw [v1, v2, (copy_entries hc h hF htc).1 g hg hh htg f hfm hhf htf]) ?_
      by_cases hsv : SeveralSelected c b s k
      · rw [p1 (hallsev hsv g hg hh), p2 (hse.2 hsv)]
        cases b with
        | true => rw [(copy_entries hc h (hpulse rfl hsv) htc).1 g hg hh htg f hfm hhf htf]
        | false =>
          obtain ⟨t', htc', g', hg', hh', hlt⟩ := hsv
          obtain ⟨g'', hg'', hh'', v, hv⟩ := hone s k hF t' htc'
          have ht1 : t' ∈ g'.trainIds := by
            by_contra hn
            rw [fileEntries_notMem hn] at hlt
            simp at hlt
          have ht2 : t' ∈ g''.trainIds := by
            by_contra hn
            rw [fileEntries_notMem hn] at hv
            simp at hv
          have := (copy_entries hc CopyOf.self hF htc').1 g' hg' hh' ht1 g'' hg'' hh'' ht2
          rw [← this, hv] at hlt
          simp at hlt
      · have e1 : ∀ {l : List (SeriesRow V)}, (∀ r ∈ l, r.tid = t → r.pulse = none) →
            (l.filter (fun r => r.tid = t)).map SeriesRow.pulse =
              List.replicate ((l.filter (fun r => r.tid = t)).map SeriesRow.val).length none := by
          intro l hl
          rw [List.eq_replicate_iff]
          refine ⟨by simp, fun b hb => ?_⟩
          obtain ⟨r, hr, rfl⟩ := List.mem_map.1 hb
          exact hl r (List.mem_filter.1 hr).1 (by simpa using (List.mem_filter.1 hr).2)
        rw [e1 (n1 (hnosev hsv g hg hh)), e1 (n2 (fun hx => hsv (hse.1 hx))), v1, v2,
          (copy_entries hc h hF htc).1 g hg hh htg f hfm hhf htf]
    · rw [hnil (c2 t (Or.inr (fun g hg hh htg => hcov ⟨g, hg, hh, htg⟩)))]
      rw [(copy_entries hc h hF htc).2 hcov f hfm hhf htf] at v2
      exact List.map_eq_nil_iff.1 v2
  · rw [hnil (c2 t (Or.inl htc)), hnil (d2 t (Or.inl (by rw [q2]; exact htc)))]

/-- C127. The numbers of entries per train, where not 0, are the same. -/
theorem copy_counts {c e : DC V} (hc : Copyable c) (h : CopyOf c e) {s k : Str} (hF : HasField c true s k) :
    ∃ l l', c.getDataCounts s k = .ok l ∧ e.getDataCounts s k = .ok l' ∧ (l.map Prod.fst).Nodup ∧ (l'.map Prod.fst).Nodup ∧
      ∀ t n, 0 < n → ((t, n) ∈ l' ↔ (t, n) ∈ l) := by
  obtain ⟨q1, q2, -⟩ := copies_same hc h
  have hF' := (copy_field hc h true s k).2 hF
  obtain ⟨l, h1, h2, h3⟩ := get_data_counts_indexed hc.writable.noConflict (fun f hf hh => (hc.writable.valid _ _ _ hF f hf hh).2.2.1)
    (fun f hf hh => (hc.writable.valid _ _ _ hF f hf hh).2.1) (hasField_available hF)
  obtain ⟨l', i1, i2, i3⟩ := get_data_counts_indexed q1.writable.noConflict (fun f hf hh => (q1.writable.valid _ _ _ hF' f hf hh).2.2.1)
    (fun f hf hh => (q1.writable.valid _ _ _ hF' f hf hh).2.1) (hasField_available hF')
  refine ⟨l, l', h1, i1, h2, i2, fun t n hn => ?_⟩
  rw [h3, i3, q2]
  constructor
  · rintro ⟨ht, f, hf, hh, htf, rfl⟩
    refine ⟨ht, ?_⟩
    by_cases hcov : Covered c s t
    · obtain ⟨g, hg, hhg, htg⟩ := hcov
      exact ⟨g, hg, hhg, htg, by rw [(copy_entries hc h hF ht).1 g hg hhg htg f hf hh htf]⟩
    · rw [(copy_entries hc h hF ht).2 hcov f hf hh htf] at hn
      simp at hn
  · rintro ⟨ht, g, hg, hhg, htg, rfl⟩
    obtain ⟨f, hf, hh, htf⟩ := (copy_covered hc h (hasField_available hF).1 ht).1 ⟨g, hg, hhg, htg⟩
    exact ⟨ht, f, hf, hh, htf, by rw [(copy_entries hc h hF ht).1 g hg hhg htg f hf hh htf]⟩

/-- Reading a series from a copy made by `write`. -/
def copySeries (c : DC V) (source key : Str) : R (List (SeriesRow V)) :=
  match readBack c with
  | .error e => .error e
  | .ok f => (DC.single f).getSeries source key

theorem copySeries_copy {c : DC V} {source key : Str} {r : R (List (SeriesRow V))} (h : copySeries c source key = r)
    (hr : (readBack c).toBool = true) (hsz : ∀ h, c.write = .ok h → ∀ p ∈ h.datasets, p.2.rows.length < 2 ^ 64) :
    ∃ e, CopyOf c e ∧ e.getSeries source key = r := by
  unfold copySeries at h
  unfold readBack at h hr
  cases hw : c.write with
  | error x => rw [hw] at hr; simp [Except.toBool] at hr
  | ok x =>
    rw [hw] at h hr
    simp only at h hr
    cases hi : FileAccess.init (ch! "new.h5") x none with
    | error y => rw [hi] at hr; simp [Except.toBool] at hr
    | ok f =>
      rw [hi] at h
      simp only at h
      exact ⟨DC.single f, CopyOf.copy (kind := .copy) (name := ch! "new.h5") CopyOf.self hw (hsz x hw) (by rw [hi]; exact fromPath_eq.2 rfl), h⟩

/-- C128 is false without the conditions. In the file train 1 has two entries and train 3 has one. With only train 3 selected, its
series has its pulse ID; in a copy, `get_series` fails, as no train has several entries there, and the second dimension is left. With
train 1 selected, but not the pulse IDs, the series has them all the same, but not in a copy: reading it fails. -/
theorem copy_series_wrong :
    (∃ c : DC Nat, c.getSeries (ch! "D:o") (ch! "data.y") = .ok [⟨3, some 8, 12⟩] ∧
      ∃ e, CopyOf c e ∧ e.getSeries (ch! "D:o") (ch! "data.y") = .error .generic) ∧
    ∃ c : DC Nat, c.getSeries (ch! "D:o") (ch! "data.y") = .ok [⟨1, some 0, 10⟩, ⟨1, some 4, 11⟩] ∧
      ∃ e, CopyOf c e ∧ e.getSeries (ch! "D:o") (ch! "data.y") = .error .key := by
  have hsz : ∀ c : DC Nat, (match c.write with
      | .ok h => decide (∀ p ∈ h.datasets, p.2.rows.length < 2 ^ 64)
      | .error _ => true) = true → ∀ h, c.write = .ok h → ∀ p ∈ h.datasets, p.2.rows.length < 2 ^ 64 := by
    intro c e h hw
    rw [hw] at e
    simpa using e
  refine ⟨⟨⟨[exPulse], [(ch! "D:o", none)], [3], true⟩, by decide, ?_⟩, ⟨exSeries, by decide, ?_⟩⟩
  · exact copySeries_copy (by decide +kernel) (by decide +kernel) (hsz _ (by decide +kernel))
  · exact copySeries_copy (by decide +kernel) (by decide +kernel) (hsz _ (by decide +kernel))

theorem exWrite_good : GoodData exWrite := by
  refine ⟨?_, ?_, ?_⟩
  · exact exWrite_keys
  · intro s hs k hk f hf hh
    exact (exWrite_valid (b := true) ⟨by simpa using hs, hk.2⟩ f hf hh).indexed
  · intro s hs
    have e : exWrite.controlSources = [ch! "C"] := by decide
    have hs' := hs
    rw [e] at hs'
    obtain rfl := List.mem_singleton.1 hs'
    refine ⟨by decide, fun k hk => ⟨fun f hf hh => (exWrite_valid (b := false) ⟨by simpa using hs, hk.2⟩ f hf hh).indexed, ?_⟩⟩
    intro f hf hh
    rcases List.mem_cons.1 hf with rfl | hf
    · exact absurd hh (by unfold Holds; decide)
    rcases List.mem_cons.1 hf with rfl | hf
    · exact absurd hh (by unfold Holds; decide)
    · obtain rfl := List.mem_singleton.1 hf
      exact (exCtrl_valid (tids := [1, 2, 3, 4]) (rows := [31, 32, 33, 34]) (by decide) (by decide) (by decide)).2

theorem exWrite_copyable : Copyable exWrite ∧ ∀ s k, HasField exWrite false s k → ∀ t ∈ exWrite.trainIds, OneEntry exWrite false s k t := by
  have hb : (exWrite.write).toBool = true := by decide
  cases hw : exWrite.write with
  | error e => rw [hw] at hb; simp [Except.toBool] at hb
  | ok x =>
    refine copyable_of_write exWrite_writable exWrite_apart ?_ hw
    have e : exWrite.allSources = [ch! "C", ch! "D:o"] := by decide
    intro s hs
    have hs' := hs
    rw [e] at hs'
    simp only [List.mem_cons, List.not_mem_nil, or_false] at hs'
    rcases hs' with rfl | rfl
    · exact ⟨ch! "x.value", hs, [ch! "x.value"], by decide, by decide⟩
    · exact ⟨ch! "data.y", hs, [ch! "data.y"], by decide, by decide⟩

/-- The example of Props/Writer.lean meets the hypotheses: all its copies show the same for train 1, iterate over the same trains,
and have the same control data as a series. -/
example {e : DC Nat} (he : CopyOf exWrite e) :
    (∃ m, e.trainFromId 1 = .ok (1, m) ∧ shownAt m (ch! "D:o") (ch! "data.y") = some (.many [10, 11]) ∧
      shownAt m (ch! "C") (ch! "x.value") = some (.one 31)) ∧
    (∃ l, e.trains none none true = .ok l ∧ l.map Prod.fst = [1, 2, 3]) ∧
    (∃ l, e.getSeries (ch! "C") (ch! "x.value") = .ok l ∧ l.filter (fun r => r.tid = 2) = [⟨2, none, 32⟩]) ∧
    ∃ l, e.getDataCounts (ch! "D:o") (ch! "data.y") = .ok l ∧ (1, 2) ∈ l := by
  obtain ⟨hc, hone⟩ := exWrite_copyable
  have hF : HasField exWrite true (ch! "D:o") (ch! "data.y") := ⟨by decide, [ch! "data.y"], by decide, by decide⟩
  have hFc : HasField exWrite false (ch! "C") (ch! "x.value") := ⟨by decide, [ch! "x.value"], by decide, by decide⟩
  refine ⟨?_, ?_, ?_, ?_⟩
  · obtain ⟨m, m', h1, h2, -, h4⟩ := copy_train hc he hone exWrite_good (t := 1) (by decide)
    refine ⟨m', h2, ?_⟩
    have : exWrite.trainFromId 1 = .ok (1, [(ch! "C", ⟨ch! "C", 1, [(ch! "x.value", .one 31)]⟩),
      (ch! "D:o", ⟨ch! "D:o", 1, [(ch! "data.y", .many [10, 11])]⟩)]) := by decide
    rw [this] at h1
    obtain rfl := (Prod.mk.inj (Except.ok.inj h1)).2
    rw [h4, h4]
    decide
  · obtain ⟨l, l', h1, h2, h3, -⟩ := copy_trains hc he hone exWrite_good true
    refine ⟨l', h2, ?_⟩
    have : (exWrite.trains none none true).map (fun l => l.map Prod.fst) = .ok [1, 2, 3] := by decide
    rw [h1] at this
    rw [h3]
    exact Except.ok.inj this
  · obtain ⟨l', h1, h2⟩ := copy_series_partial hc he hone hFc (l := [⟨1, none, 31⟩, ⟨2, none, 32⟩, ⟨3, none, 33⟩]) (by
      intro f hf hh
      refine ⟨exWrite_valid hFc f hf hh, ?_, fun _ => ((exWrite_good.ctrl _ (by decide)).2 _ (hasField_available hFc)).2 f hf hh, by simp⟩
      refine ⟨_, _, ((exWrite_good.ctrl _ (by decide)).2 _ (hasField_available hFc)).2 f hf hh, ?_⟩
      have := (exWrite_valid hFc f hf hh).someTrain
      cases hx : f.trainIds with
      | nil => exact absurd hx this
      | cons a l => simp [List.range_succ_eq_map]) (by
      rintro ⟨g, hg, hh, t, ht⟩
      exfalso
      rcases List.mem_cons.1 hg with rfl | hg
      · exact absurd hh (by unfold Holds; decide)
      rcases List.mem_cons.1 hg with rfl | hg
      · exact absurd hh (by unfold Holds; decide)
      · obtain rfl := List.mem_singleton.1 hg
        by_cases htm : t ∈ [1, 2, 3, 4]
        · have : ∀ t ∈ [1, 2, 3, 4], (fileEntries (exCtrl (ch! "c") [1, 2, 3, 4] [0, 1, 2, 3] [1, 1, 1, 1] [31, 32, 33, 34]) false
              (ch! "C") (ch! "x.value") t).length ≤ 1 := by decide
          have := this t htm
          omega
        · rw [fileEntries_notMem (by exact htm)] at ht
          simp at ht) (by simp) (by decide)
    exact ⟨l', h1, by rw [h2]; decide⟩
  · obtain ⟨l, l', h1, h2, -, -, h5⟩ := copy_counts hc he hF
    refine ⟨l', h2, (h5 1 2 (by decide)).2 ?_⟩
    have : exWrite.getDataCounts (ch! "D:o") (ch! "data.y") = .ok [(1, 2), (2, 1), (3, 1)] := by decide
    rw [this] at h1
    obtain rfl := Except.ok.inj h1
    decide

end KD
