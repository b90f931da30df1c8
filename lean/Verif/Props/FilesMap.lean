/- Properties C44, C45 (without other processes), C47 and C48: the files map. -/
import Verif.Model.FilesMap
import Verif.Spec.FilesMap
import Verif.Lemmas.Collection
import Verif.Lemmas.Writer
import Verif.Lemmas.Strings

set_option linter.unusedSimpArgs false

namespace KD
open Spec

variable {V : Type}

/-! ### Loading -/

theorem loadCandidates_first {cands : List CacheFile} {infos : List MapInfo} (h : FirstDocument cands infos) :
    ∀ pos, ∃ p, loadCandidates pos cands = .ok (infos, some p) := by
  obtain ⟨before, after, rfl, hb⟩ := h
  induction before with
  | nil => intro pos; exact ⟨pos, rfl⟩
  | cons c before ih =>
    intro pos
    obtain ⟨p, hp⟩ := ih (fun c hc => hb c (by simp [hc])) (pos + 1)
    refine ⟨p, ?_⟩
    rcases hb c (by simp) with rfl | rfl <;> exact hp

theorem loadCandidates_ok {cands : List CacheFile} {infos : List MapInfo} {p : Option Nat} : ∀ {pos},
    loadCandidates pos cands = .ok (infos, p) →
      FirstDocument cands infos ∨ (infos = [] ∧ p = none ∧ ∀ c ∈ cands, c = .missing ∨ c = .garbled) := by
  induction cands with
  | nil =>
    intro pos h
    obtain ⟨rfl, rfl⟩ := Prod.mk.inj (Except.ok.inj h)
    exact Or.inr ⟨rfl, rfl, by simp⟩
  | cons c cands ih =>
    intro pos h
    have hrec : (c = .missing ∨ c = .garbled) → loadCandidates (pos + 1) cands = .ok (infos, p) →
        FirstDocument (c :: cands) infos ∨ (infos = [] ∧ p = none ∧ ∀ d ∈ c :: cands, d = .missing ∨ d = .garbled) := by
      intro hc h
      rcases ih h with ⟨b, a, e, hb⟩ | ⟨h1, h2, h3⟩
      · left
        refine ⟨c :: b, a, by rw [e]; rfl, ?_⟩
        intro d hd
        rcases List.mem_cons.1 hd with rfl | hd
        · exact hc
        · exact hb d hd
      · right
        refine ⟨h1, h2, ?_⟩
        intro d hd
        rcases List.mem_cons.1 hd with rfl | hd
        · exact hc
        · exact h3 d hd
    cases c with
    | missing => exact hrec (Or.inl rfl) h
    | garbled => exact hrec (Or.inr rfl) h
    | unreadable e => simp [loadCandidates] at h
    | document is =>
      obtain ⟨rfl, rfl⟩ := Prod.mk.inj (Except.ok.inj h)
      exact Or.inl ⟨[], cands, rfl, by simp⟩

/-- The entry is recorded for the name and what `stat` says now. -/
def validFor (stat : Str → Option Stat) (name : Str) (info : MapInfo) : Bool :=
  info.filename == some name &&
    (match stat name with
    | none => false
    | some st => info.mtime == some st.mtime && info.size == some st.size)

theorem validFor_iff {stat : Str → Option Stat} {name : Str} {info : MapInfo} :
    validFor stat name info = true ↔ ∃ st, stat name = some st ∧ RecordedFor info name st := by
  unfold validFor RecordedFor
  cases stat name with
  | none => simp
  | some st => simp

theorem loadEntry_ok {stat : Str → Option Stat} {d d' : Dict Str MapInfo} {info : MapInfo}
    (h : loadEntry stat d info = .ok d') (name : Str) :
    d'.get? name = if validFor stat name info then some info else d.get? name := by
  unfold loadEntry at h
  split at h
  · simp at h
  next fname hf =>
  have hno : ∀ {x : Dict Str MapInfo}, x = d → (∀ st, stat fname = some st → ¬ RecordedFor info fname st) →
      x.get? name = if validFor stat name info then some info else d.get? name := by
    intro x hx hn
    subst hx
    rw [if_neg]
    intro hv
    obtain ⟨st, h1, h2⟩ := validFor_iff.1 hv
    have := h2.1
    rw [hf] at this
    obtain rfl := Option.some.inj this
    exact hn st h1 h2
  split at h
  next hs => exact hno (Except.ok.inj h).symm (fun st h1 => by rw [hs] at h1; simp at h1)
  next st hs =>
  split at h
  · simp at h
  next mt hm =>
  split at h
  next hmt =>
    split at h
    · simp at h
    next sz hsz =>
    split at h
    next hsz' =>
      obtain rfl := Except.ok.inj h
      rw [Dict.get?_set]
      have hrec : RecordedFor info fname st := ⟨hf, by rw [hm, hmt], by rw [hsz, hsz']⟩
      by_cases hn : fname = name
      · subst hn
        rw [if_pos rfl, if_pos (validFor_iff.2 ⟨st, hs, hrec⟩)]
      · rw [if_neg hn, if_neg]
        intro hv
        obtain ⟨st', -, h2⟩ := validFor_iff.1 hv
        have := h2.1
        rw [hf] at this
        exact hn (Option.some.inj this)
    next hsz' =>
      refine hno (Except.ok.inj h).symm (fun st' h1 h2 => ?_)
      rw [hs] at h1
      obtain rfl := Option.some.inj h1
      have := h2.2.2
      rw [hsz] at this
      exact hsz' (Option.some.inj this).symm
  next hmt =>
    refine hno (Except.ok.inj h).symm (fun st' h1 h2 => ?_)
    rw [hs] at h1
    obtain rfl := Option.some.inj h1
    have := h2.2.1
    rw [hm] at this
    exact hmt (Option.some.inj this).symm

theorem loadEntries_ok {stat : Str → Option Stat} {infos : List MapInfo} : ∀ {d d' : Dict Str MapInfo},
    foldE (loadEntry stat) d infos = .ok d' → ∀ name, d'.get? name =
      match (infos.filter (validFor stat name)).getLast? with
      | some info => some info
      | none => d.get? name := by
  induction infos with
  | nil => intro d d' h name; obtain rfl := Except.ok.inj h; rfl
  | cons info infos ih =>
    intro d d' h name
    obtain ⟨d1, h1, h2⟩ := foldE_cons_ok.1 h
    rw [ih h2 name, loadEntry_ok h1 name]
    by_cases hv : validFor stat name info = true
    · rw [if_pos hv, List.filter_cons_of_pos hv, List.getLast?_cons]
      cases (infos.filter (validFor stat name)).getLast? <;> rfl
    · rw [if_neg hv, List.filter_cons_of_neg hv]

theorem loadEntries_succeeds {stat : Str → Option Stat} {infos : List MapInfo} (h : ∀ info ∈ infos, CompleteInfo info) :
    ∀ d, ∃ d', foldE (loadEntry stat) d infos = .ok d' := by
  induction infos with
  | nil => intro d; exact ⟨d, rfl⟩
  | cons info infos ih =>
    intro d
    have : ∃ d1, loadEntry stat d info = .ok d1 := by
      obtain ⟨h1, h2, h3, -⟩ := h info (by simp)
      obtain ⟨n, hn⟩ := Option.isSome_iff_exists.1 h1
      obtain ⟨m, hm⟩ := Option.isSome_iff_exists.1 h2
      obtain ⟨z, hz⟩ := Option.isSome_iff_exists.1 h3
      unfold loadEntry
      rw [hn]
      simp only
      split
      · exact ⟨_, rfl⟩
      · rw [hm, hz]
        simp only
        split
        · split <;> exact ⟨_, rfl⟩
        · exact ⟨_, rfl⟩
    obtain ⟨d1, h1⟩ := this
    obtain ⟨d2, h2⟩ := ih (fun i hi => h i (by simp [hi])) d1
    exact ⟨d2, foldE_cons_ok.2 ⟨d1, h1, h2⟩⟩

theorem infoOf_ok {info : MapInfo} {ci : CacheInfo} (h : infoOf info = .ok ci) : Describes info ci := by
  unfold infoOf at h
  split at h
  next t c i h1 h2 h3 =>
    obtain rfl := Except.ok.inj h
    exact ⟨h1, ⟨c, h2, by simp⟩, i, h3, by simp⟩
  · simp at h

theorem infoOf_complete {info : MapInfo} (h : CompleteInfo info) : ∃ ci, infoOf info = .ok ci := by
  obtain ⟨-, -, -, h1, h2, h3⟩ := h
  obtain ⟨a, ha⟩ := Option.isSome_iff_exists.1 h1
  obtain ⟨b, hb⟩ := Option.isSome_iff_exists.1 h2
  obtain ⟨c, hc⟩ := Option.isSome_iff_exists.1 h3
  unfold infoOf
  rw [ha, hb, hc]
  exact ⟨_, rfl⟩

/-! ### C44 -/

/-- C44. A description of a file is taken from the cache only if it comes from an entry of the first readable cache
file, recorded with the name of the file and with the modification time and size it had when the cache was loaded. -/
theorem cache_entry_valid {candidates : List CacheFile} {stat : Str → Option Stat} {m : FilesMap} {mine : Bool}
    {fname : Str} {ci : CacheInfo} (hl : FilesMap.load candidates stat = .ok m)
    (hg : getInfo m.filesData mine fname = .ok (some ci)) :
    mine = true ∧ ∃ infos info st, FirstDocument candidates infos ∧ info ∈ infos ∧ stat fname = some st ∧
      RecordedFor info fname st ∧ Describes info ci := by
  unfold FilesMap.load at hl
  split at hl
  · simp at hl
  next infos cf hc =>
  split at hl
  · simp at hl
  next d hd =>
  obtain rfl := Except.ok.inj hl
  unfold getInfo at hg
  split at hg
  next hm =>
    refine ⟨hm, ?_⟩
    split at hg
    · simp at hg
    next info hi =>
    split at hg
    · simp at hg
    next ci' hci =>
    obtain rfl := Option.some.inj (Except.ok.inj hg)
    have := loadEntries_ok hd fname
    simp only at hi
    rw [hi] at this
    split at this
    next info' hlast =>
      obtain rfl := Option.some.inj this
      have hmem := List.mem_of_getLast? hlast
      obtain ⟨hm1, hm2⟩ := List.mem_filter.1 hmem
      obtain ⟨st, h1, h2⟩ := validFor_iff.1 hm2
      refine ⟨infos, info, st, ?_, hm1, h1, h2, infoOf_ok hci⟩
      rcases loadCandidates_ok hc with h | ⟨rfl, -, -⟩
      · exact h
      · simp at hm1
    · simp at this
  · simp at hg

/-- C44. An entry which is recorded with the current modification time and size is used (the last one, should there be
several with the same name). -/
theorem cache_entry_used {candidates : List CacheFile} {stat : Str → Option Stat} {m : FilesMap} {fname : Str}
    {before after : List MapInfo} {info : MapInfo} {st : Stat} (hl : FilesMap.load candidates stat = .ok m)
    (hf : FirstDocument candidates (before ++ info :: after)) (hst : stat fname = some st)
    (hr : RecordedFor info fname st) (hc : CompleteInfo info) (hlast : ∀ i ∈ after, i.filename ≠ some fname) :
    ∃ ci, getInfo m.filesData true fname = .ok (some ci) ∧ Describes info ci := by
  obtain ⟨p, hp⟩ := loadCandidates_first hf 0
  unfold FilesMap.load at hl
  rw [hp] at hl
  simp only at hl
  split at hl
  · simp at hl
  next d hd =>
  obtain rfl := Except.ok.inj hl
  have h1 := loadEntries_ok hd fname
  have hafter : after.filter (validFor stat fname) = [] := by
    rw [List.filter_eq_nil_iff]
    intro i hi hv
    obtain ⟨st', -, h2⟩ := validFor_iff.1 hv
    exact hlast i hi h2.1
  rw [List.filter_append, List.filter_cons_of_pos (validFor_iff.2 ⟨st, hst, hr⟩), hafter, List.getLast?_append] at h1
  simp at h1
  obtain ⟨ci, hci⟩ := infoOf_complete hc
  refine ⟨ci, ?_, infoOf_ok hci⟩
  unfold getInfo
  simp only [if_true]
  rw [h1]
  simp only
  rw [hci]

/-- Loading fails exactly when it comes to a cache file which cannot be read, other than for being missing or no JSON
document, if the entries of the document are complete. -/
theorem load_succeeds {candidates : List CacheFile} {stat : Str → Option Stat}
    (hr : ∀ e, .unreadable e ∉ candidates) (hc : ∀ infos, FirstDocument candidates infos → ∀ i ∈ infos, CompleteInfo i) :
    ∃ m, FilesMap.load candidates stat = .ok m := by
  have : ∀ pos (cs : List CacheFile), (∀ e, .unreadable e ∉ cs) → ∃ infos p, loadCandidates pos cs = .ok (infos, p) := by
    intro pos cs
    induction cs generalizing pos with
    | nil => intro _; exact ⟨_, _, rfl⟩
    | cons c cs ih =>
      intro h
      cases c with
      | missing => exact ih (pos + 1) (fun e he => h e (by simp [he]))
      | garbled => exact ih (pos + 1) (fun e he => h e (by simp [he]))
      | unreadable e => exact absurd (by simp) (h e)
      | document is => exact ⟨_, _, rfl⟩
  obtain ⟨infos, p, h1⟩ := this 0 candidates hr
  have h2 : ∀ i ∈ infos, CompleteInfo i := by
    rcases loadCandidates_ok h1 with h | ⟨rfl, -, -⟩
    · exact hc infos h
    · simp
  obtain ⟨d, h3⟩ := loadEntries_succeeds (stat := stat) h2 []
  unfold FilesMap.load
  rw [h1]
  simp only
  rw [h3]
  exact ⟨_, rfl⟩

/-- An entry used in the examples. -/
def exInfo (name : Str) (mtime size : Nat) (tids : List Nat) : MapInfo :=
  ⟨some name, some mtime, some size, some tids, some [], some [ch! "D:o"]⟩

/-- Of two entries, the one with the old modification time is not used. A cache file which may not be read makes opening
the run fail, although the second one could be used. -/
example :
    let stat : Str → Option Stat := fun f => if f = ch! "a.h5" then some ⟨7, 100⟩ else if f = ch! "b.h5" then some ⟨8, 50⟩ else none
    let doc := CacheFile.document [exInfo (ch! "a.h5") 7 100 [1], exInfo (ch! "b.h5") 7 50 [2], exInfo (ch! "c.h5") 7 5 [3]]
    (FilesMap.load [.missing, doc] stat).map (fun m => (getInfo m.filesData true (ch! "a.h5"),
      getInfo m.filesData true (ch! "b.h5"), getInfo m.filesData false (ch! "a.h5"))) =
      .ok (.ok (some ⟨[1], [], [ch! "D:o"]⟩), .ok none, .ok none) ∧
    FilesMap.load [.unreadable .permission, doc] stat = .error .permission := ⟨by decide, by decide⟩

/-! ### C47 -/

theorem saveEntry_cases {s s' : Dict Str MapInfo × Bool} {f : SaveFile} (h : saveEntry s f = .ok s') :
    (s' = s ∧ (f.mine = true → f.fname ∈ s.1.keys)) ∨ (f.mine = true ∧ f.fname ∉ s.1.keys ∧ ∃ st, f.stat = .ok st ∧
      s' = (s.1.set f.fname (newInfo f.fname st f.info), true)) := by
  unfold saveEntry at h
  split at h
  next hc =>
    split at h
    · simp at h
    next st hst => exact Or.inr ⟨hc.1, hc.2, st, hst, (Except.ok.inj h).symm⟩
  next hc =>
    left
    refine ⟨(Except.ok.inj h).symm, fun hm => ?_⟩
    by_contra hn
    exact hc ⟨hm, hn⟩

/-- C47. Nothing is written when all the files of the directory already have entries. -/
theorem save_nothing_new {m : FilesMap} {n : Nat} {attempt : Nat → R Unit} {files : List SaveFile}
    (h : ∀ f ∈ files, f.mine = true → f.fname ∈ m.filesData.keys) :
    m.save n attempt files = .ok (m, none) := by
  have : ∀ (fs : List SaveFile), (∀ f ∈ fs, f.mine = true → f.fname ∈ m.filesData.keys) →
      foldE saveEntry (m.filesData, false) fs = .ok (m.filesData, false) := by
    intro fs
    induction fs with
    | nil => intro _; rfl
    | cons f fs ih =>
      intro h
      refine foldE_cons_ok.2 ⟨(m.filesData, false), ?_, ih (fun g hg => h g (by simp [hg]))⟩
      unfold saveEntry
      rw [if_neg]
      rintro ⟨h1, h2⟩
      exact h2 (h f (by simp) h1)
  unfold FilesMap.save
  rw [this files h]
  rfl

/-- The state after the loop: old entries are kept, and each file of the directory has one. -/
theorem saveEntries_ok {files : List SaveFile} : ∀ {s s' : Dict Str MapInfo × Bool}, s.1.keys.Nodup →
    foldE saveEntry s files = .ok s' →
    s'.1.keys.Nodup ∧ (∀ n i, s.1.get? n = some i → s'.1.get? n = some i) ∧
    (∀ n i, s'.1.get? n = some i → s.1.get? n = some i ∨ ∃ f ∈ files, f.mine = true ∧ f.fname = n ∧ ∃ st,
      f.stat = .ok st ∧ i = newInfo n st f.info) ∧
    (∀ f ∈ files, f.mine = true → f.fname ∈ s'.1.keys) ∧
    (s'.2 = false → s' = s) ∧ (s'.2 = true → s.2 = true ∨ ∃ f ∈ files, f.mine = true ∧ f.fname ∉ s.1.keys) := by
  induction files with
  | nil =>
    intro s s' hn h
    obtain rfl := Except.ok.inj h
    exact ⟨hn, fun _ _ h => h, fun _ _ h => Or.inl h, by simp, fun _ => rfl, Or.inl⟩
  | cons f files ih =>
    intro s s' hn h
    obtain ⟨s1, h1, h2⟩ := foldE_cons_ok.1 h
    rcases saveEntry_cases h1 with ⟨rfl, hmine⟩ | ⟨hm, hnot, st, hst, rfl⟩
    · obtain ⟨a1, a2, a3, a4, a5, a6⟩ := ih hn h2
      refine ⟨a1, a2, ?_, ?_, a5, ?_⟩
      · intro n i hi
        rcases a3 n i hi with h | ⟨g, hg, hh⟩
        · exact Or.inl h
        · exact Or.inr ⟨g, by simp [hg], hh⟩
      · intro g hg hgm
        rcases List.mem_cons.1 hg with rfl | hg
        · obtain ⟨v, hv⟩ := Dict.mem_keys_iff.1 (hmine hgm)
          exact Dict.mem_keys_iff.2 ⟨v, a2 _ _ hv⟩
        · exact a4 g hg hgm
      · intro ht
        rcases a6 ht with h | ⟨g, hg, hh⟩
        · exact Or.inl h
        · exact Or.inr ⟨g, by simp [hg], hh⟩
    · obtain ⟨a1, a2, a3, a4, a5, a6⟩ := ih (Dict.nodup_set hn _ _) h2
      simp only at a1 a2 a3 a4 a5 a6
      refine ⟨a1, ?_, ?_, ?_, ?_, ?_⟩
      · intro n i hi
        apply a2
        rw [Dict.get?_set]
        split
        next e =>
          subst e
          exact absurd (Dict.mem_keys_iff.2 ⟨i, hi⟩) hnot
        · exact hi
      · intro n i hi
        rcases a3 n i hi with h | ⟨g, hg, hh⟩
        · rw [Dict.get?_set] at h
          split at h
          next e =>
            subst e
            exact Or.inr ⟨f, by simp, hm, rfl, st, hst, (Option.some.inj h).symm⟩
          · exact Or.inl h
        · exact Or.inr ⟨g, by simp [hg], hh⟩
      · intro g hg hgm
        rcases List.mem_cons.1 hg with rfl | hg
        · exact Dict.mem_keys_iff.2 ⟨_, a2 _ (newInfo g.fname st g.info) (by rw [Dict.get?_set]; simp)⟩
        · exact a4 g hg hgm
      · intro hf
        have := a5 hf
        rw [this] at hf
        simp at hf
      · intro _
        exact Or.inr ⟨f, by simp, hm, hnot⟩

theorem trySave_ok {attempt : Nat → R Unit} {l : List Nat} : ∀ {r}, trySave attempt l = .ok r →
    (∃ pos before after, r = some pos ∧ l = before ++ pos :: after ∧ attempt pos = .ok () ∧
      ∀ p ∈ before, attempt p = .error .permission) ∨
    (r = none ∧ ∀ p ∈ l, attempt p = .error .permission) := by
  induction l with
  | nil => intro r h; obtain rfl := Except.ok.inj h; exact Or.inr ⟨rfl, by simp⟩
  | cons pos l ih =>
    intro r h
    unfold trySave at h
    split at h
    next ha => exact Or.inl ⟨pos, [], l, (Except.ok.inj h).symm, rfl, ha, by simp⟩
    next ha =>
      rcases ih h with ⟨p, b, a, h1, h2, h3, h4⟩ | ⟨h1, h2⟩
      · left
        refine ⟨p, pos :: b, a, h1, by rw [h2]; rfl, h3, ?_⟩
        intro q hq
        rcases List.mem_cons.1 hq with rfl | hq
        · exact ha
        · exact h4 q hq
      · right
        refine ⟨h1, ?_⟩
        intro q hq
        rcases List.mem_cons.1 hq with rfl | hq
        · exact ha
        · exact h2 q hq
    · simp at h

theorem trySave_permission {attempt : Nat → R Unit} {l : List Nat}
    (h : ∀ p ∈ l, attempt p = .ok () ∨ attempt p = .error .permission) : ∃ r, trySave attempt l = .ok r := by
  induction l with
  | nil => exact ⟨none, rfl⟩
  | cons p l ih =>
    unfold trySave
    rcases h p (by simp) with e | e <;> rw [e]
    · exact ⟨_, rfl⟩
    · exact ih (fun q hq => h q (by simp [hq]))

/-- C47. Which place is written to: the first one where writing succeeds, all places before being refused for
permissions. Nothing is written if all are refused. If writing fails only for permissions, and the files can be looked
at, saving raises no exception. -/
theorem save_place {m : FilesMap} {n : Nat} {attempt : Nat → R Unit} {files : List SaveFile}
    (hst : ∀ f ∈ files, ∃ st, f.stat = .ok st)
    (ha : ∀ p < n, attempt p = .ok () ∨ attempt p = .error .permission)
    (hnew : ∃ f ∈ files, f.mine = true ∧ f.fname ∉ m.filesData.keys) (hn : m.filesData.keys.Nodup) :
    ∃ m' w, m.save n attempt files = .ok (m', w) ∧
      (w = none → ∀ p < n, attempt p = .error .permission) ∧
      (∀ pos doc, w = some (pos, doc) → pos < n ∧ attempt pos = .ok () ∧ ∀ p < pos, attempt p = .error .permission) := by
  have hfold : ∀ (fs : List SaveFile) s, (∀ f ∈ fs, ∃ st, f.stat = .ok st) → ∃ s', foldE saveEntry s fs = .ok s' := by
    intro fs
    induction fs with
    | nil => intro s _; exact ⟨s, rfl⟩
    | cons f fs ih =>
      intro s hs
      have : ∃ s1, saveEntry s f = .ok s1 := by
        obtain ⟨st, h⟩ := hs f (by simp)
        unfold saveEntry
        split
        · rw [h]; exact ⟨_, rfl⟩
        · exact ⟨_, rfl⟩
      obtain ⟨s1, h1⟩ := this
      obtain ⟨s2, h2⟩ := ih s1 (fun g hg => hs g (by simp [hg]))
      exact ⟨s2, foldE_cons_ok.2 ⟨s1, h1, h2⟩⟩
  obtain ⟨s', hs'⟩ := hfold files (m.filesData, false) hst
  obtain ⟨-, a2, a3, a4, a5, -⟩ := saveEntries_ok hn hs'
  have hneed : s'.2 = true := by
    by_contra hc
    obtain ⟨f, hf, h1, h2⟩ := hnew
    have := a4 f hf h1
    rw [a5 (by simpa using hc)] at this
    exact h2 this
  obtain ⟨r, hr⟩ := trySave_permission (attempt := attempt) (l := List.range n) (fun p hp => ha p (by simpa using hp))
  obtain ⟨d, b⟩ := s'
  simp only at hneed
  subst hneed
  unfold FilesMap.save
  rw [hs']
  simp only [if_true]
  rw [hr]
  rcases trySave_ok hr with ⟨pos, before, after, rfl, h2, h3, h4⟩ | ⟨rfl, h2⟩
  · refine ⟨_, _, rfl, by simp, ?_⟩
    intro pos' doc he
    obtain ⟨rfl, -⟩ := Prod.mk.inj (Option.some.inj he)
    have hlen : before = List.range pos := by
      have hb : before = (List.range n).take before.length := by rw [h2]; simp
      have hp : (List.range n)[before.length]? = some pos := by rw [h2]; simp
      have hlt := (List.getElem?_eq_some_iff.1 hp).1
      simp at hlt
      rw [List.getElem?_range hlt] at hp
      obtain rfl := Option.some.inj hp
      rw [List.take_range, Nat.min_eq_left (by omega)] at hb
      exact hb
    have hmem : pos ∈ List.range n := by rw [h2]; simp
    refine ⟨by simpa using hmem, h3, fun p hp => h4 p (by rw [hlen]; simpa using hp)⟩
  · refine ⟨_, _, rfl, fun _ p hp => h2 p (by simpa using hp), by simp⟩

theorem saveDoc_mem {d : Dict Str MapInfo} {i : MapInfo} : i ∈ saveDoc d ↔ ∃ n, (n, i) ∈ d := by
  unfold saveDoc
  rw [List.mem_map]
  constructor
  · rintro ⟨⟨n, i'⟩, h, rfl⟩
    exact ⟨n, ((List.perm_insertionSort _ d).mem_iff).1 h⟩
  · rintro ⟨n, h⟩
    exact ⟨(n, i), ((List.perm_insertionSort _ d).mem_iff).2 h, rfl⟩

/-- The entries of a files map are complete, and recorded with their names: so it is after loading complete entries. -/
def WellFormedMap (d : Dict Str MapInfo) : Prop :=
  d.keys.Nodup ∧ ∀ n i, d.get? n = some i → CompleteInfo i ∧ i.filename = some n

/-- C47. After a save, loading the document gives entries for all files that were opened, if their modification times
and sizes are unchanged, and the places before hold no document: the entry they had, or a new one with the train IDs and
sources of the file as opened. -/
theorem save_then_load_partial {m m' : FilesMap} {n pos : Nat} {attempt : Nat → R Unit} {files : List SaveFile}
    {doc : List MapInfo} {candidates : List CacheFile} {stat : Str → Option Stat}
    (hm : WellFormedMap m.filesData)
    (hold : ∀ n i, m.filesData.get? n = some i → ∃ st, stat n = some st ∧ RecordedFor i n st)
    (hs : m.save n attempt files = .ok (m', some (pos, doc)))
    (hfirst : FirstDocument candidates doc)
    (hstat : ∀ f ∈ files, f.mine = true → ∃ st, stat f.fname = some st ∧ f.stat = .ok st) :
    ∃ m2, FilesMap.load candidates stat = .ok m2 ∧ ∀ f ∈ files, f.mine = true → ∃ ci,
      getInfo m2.filesData true f.fname = .ok (some ci) ∧
      ((∃ i, m.filesData.get? f.fname = some i ∧ Describes i ci) ∨
        (f.fname ∉ m.filesData.keys ∧ ∃ g ∈ files, g.mine = true ∧ g.fname = f.fname ∧ SameInfo ci g.info)) := by
  unfold FilesMap.save at hs
  split at hs
  · simp at hs
  next d needSave hfold =>
  obtain ⟨a1, a2, a3, a4, a5, -⟩ := saveEntries_ok (s := (m.filesData, false)) hm.1 hfold
  simp only at a1 a2 a3 a4
  have hdoc : doc = saveDoc d := by
    split at hs
    · split at hs
      · simp at hs
      · simp at hs
      · obtain ⟨-, h2⟩ := Prod.mk.inj (Except.ok.inj hs)
        exact (Prod.mk.inj (Option.some.inj h2)).2.symm
    · simp at hs
  subst hdoc
  -- every entry is complete, recorded with its own name, and valid
  have hall : ∀ n i, d.get? n = some i → CompleteInfo i ∧ i.filename = some n ∧
      ∃ st, stat n = some st ∧ RecordedFor i n st := by
    intro n i hi
    rcases a3 n i hi with h | ⟨f, hf, h1, rfl, st, h2, rfl⟩
    · exact ⟨(hm.2 n i h).1, (hm.2 n i h).2, hold n i h⟩
    · obtain ⟨st', s1, s2⟩ := hstat f hf h1
      rw [h2] at s2
      obtain rfl := Except.ok.inj s2
      refine ⟨?_, rfl, st, s1, rfl, rfl, rfl⟩
      simp [CompleteInfo, newInfo]
  have hdocs : ∀ i, i ∈ saveDoc d ↔ ∃ n, d.get? n = some i := by
    intro i
    rw [saveDoc_mem]
    simp only [Dict.get?_eq_some_iff a1]
  obtain ⟨p, hp⟩ := loadCandidates_first hfirst 0
  obtain ⟨d2, hd2⟩ := loadEntries_succeeds (stat := stat) (infos := saveDoc d)
    (fun i hi => by obtain ⟨n, hn⟩ := (hdocs i).1 hi; exact (hall n i hn).1) []
  refine ⟨⟨d2, some p⟩, ?_, ?_⟩
  · unfold FilesMap.load
    rw [hp]
    simp only
    rw [hd2]
  intro f hf hmine
  obtain ⟨i, hi⟩ := Dict.mem_keys_iff.1 (a4 f hf hmine)
  obtain ⟨hc, -, st, hst, hrec⟩ := hall f.fname i hi
  -- the entries valid for this name are all equal to it
  have hlast : ((saveDoc d).filter (validFor stat f.fname)).getLast? = some i := by
    have hall' : ∀ j ∈ (saveDoc d).filter (validFor stat f.fname), j = i := by
      intro j hj
      obtain ⟨j1, j2⟩ := List.mem_filter.1 hj
      obtain ⟨k, hk⟩ := (hdocs j).1 j1
      obtain ⟨st', -, j3⟩ := validFor_iff.1 j2
      have := (hall k j hk).2.1
      rw [j3.1] at this
      obtain rfl := Option.some.inj this
      rw [hi] at hk
      exact (Option.some.inj hk).symm
    cases hl : ((saveDoc d).filter (validFor stat f.fname)).getLast? with
    | none =>
      rw [List.getLast?_eq_none_iff] at hl
      have : i ∈ (saveDoc d).filter (validFor stat f.fname) :=
        List.mem_filter.2 ⟨(hdocs i).2 ⟨_, hi⟩, validFor_iff.2 ⟨st, hst, hrec⟩⟩
      rw [hl] at this
      simp at this
    | some j => rw [hall' j (List.mem_of_getLast? hl)]
  have hget := loadEntries_ok hd2 f.fname
  rw [hlast] at hget
  obtain ⟨ci, hci⟩ := infoOf_complete hc
  refine ⟨ci, ?_, ?_⟩
  · unfold getInfo
    simp only [if_true]
    rw [hget]
    simp only
    rw [hci]
  · have hdesc := infoOf_ok hci
    rcases a3 _ i hi with h | ⟨g, hg, h1, h2, st', h3, rfl⟩
    · exact Or.inl ⟨i, h, hdesc⟩
    · by_cases hk : f.fname ∈ m.filesData.keys
      · obtain ⟨i', hi'⟩ := Dict.mem_keys_iff.1 hk
        have := a2 _ _ hi'
        rw [hi] at this
        obtain rfl := Option.some.inj this
        exact Or.inl ⟨_, hi', hdesc⟩
      · refine Or.inr ⟨hk, g, hg, h1, h2, ?_⟩
        obtain ⟨t1, ⟨cs, t2, t3⟩, is, t4, t5⟩ := hdesc
        simp only [newInfo] at t1 t2 t4
        obtain rfl := Option.some.inj t2
        obtain rfl := Option.some.inj t4
        have hsort : ∀ (l : List Str) x, x ∈ sortStrs l ↔ x ∈ l := fun l x =>
          (List.perm_insertionSort _ l).mem_iff
        exact ⟨(Option.some.inj t1).symm, fun s => by rw [t3, hsort], fun s => by rw [t5, hsort]⟩

/-- C47 is false when an older document in the first place can be read but not replaced: the new one goes to the second
place, loading still finds the first one, and the file opened has no entry. -/
theorem save_shadowed_wrong :
    let stat : Str → Option Stat := fun _ => some ⟨7, 100⟩
    let m : FilesMap := ⟨[], some 0⟩
    let attempt : Nat → R Unit := fun p => if p = 0 then .error .permission else .ok ()
    let doc := [exInfo (ch! "a.h5") 7 100 [1]]
    FilesMap.load [.document [exInfo (ch! "a.h5") 6 90 [1]], .missing] stat = .ok m ∧
    m.save 2 attempt [⟨true, ch! "a.h5", .ok ⟨7, 100⟩, ⟨[1], [], [ch! "D:o"]⟩⟩] =
      .ok (⟨[(ch! "a.h5", exInfo (ch! "a.h5") 7 100 [1])], some 0⟩, some (1, doc)) ∧
    FilesMap.load [.document [exInfo (ch! "a.h5") 6 90 [1]], .document doc] stat = .ok m ∧
    getInfo m.filesData true (ch! "a.h5") = .ok none := ⟨by decide, by decide, by decide, by decide⟩

/-- Errors other than about permissions, such as a read-only file system, are raised to the caller. -/
theorem save_other_error :
    (⟨[], none⟩ : FilesMap).save 2 (fun _ => .error .os) [⟨true, ch! "a.h5", .ok ⟨7, 100⟩, ⟨[1], [], []⟩⟩] =
      .error .os := by decide

/-- The conditions of `save_then_load_partial` and `save_place` hold in this case. -/
example :
    let stat : Str → Option Stat := fun _ => some ⟨7, 100⟩
    let files : List SaveFile := [⟨true, ch! "b.h5", .ok ⟨7, 100⟩, ⟨[2], [ch! "S", ch! "C"], []⟩⟩,
      ⟨true, ch! "a.h5", .ok ⟨7, 100⟩, ⟨[1], [], [ch! "D:o"]⟩⟩]
    let m : FilesMap := ⟨[(ch! "a.h5", exInfo (ch! "a.h5") 7 100 [1])], some 0⟩
    let doc := [exInfo (ch! "a.h5") 7 100 [1],
      ⟨some (ch! "b.h5"), some 7, some 100, some [2], some [ch! "C", ch! "S"], some []⟩]
    (m.save 1 (fun _ => .ok ()) files).map Prod.snd = .ok (some (0, doc)) ∧
    (FilesMap.load [.document doc] stat).map (fun m => getInfo m.filesData true (ch! "b.h5")) =
      .ok (.ok (some ⟨[2], [ch! "C", ch! "S"], []⟩)) := ⟨by decide, by decide⟩

/-! ### C48 -/

theorem someOf_iff {cls : Char → Bool} {s : Str} : someOf cls s = true ↔ s ≠ [] ∧ ∀ c ∈ s, cls c = true := by
  unfold someOf
  cases s <;> simp

theorem endsWith_single {s : Str} {c : Char} : endsWith s [c] = true ↔ ∃ t, s = t ++ [c] := by
  unfold endsWith
  rw [List.isSuffixOf_iff_suffix]
  constructor
  · rintro ⟨t, h⟩; exact ⟨t, h.symm⟩
  · rintro ⟨t, h⟩; exact ⟨t, h.symm⟩

theorem endsWith_snoc {s : Str} {c d : Char} : endsWith (s ++ [d]) [c] = decide (d = c) := by
  by_cases h : d = c
  · subst h
    rw [endsWith_single.2 ⟨s, rfl⟩]; simp
  · rw [decide_eq_false h]
    by_contra hc
    obtain ⟨t, ht⟩ := endsWith_single.1 (by simpa using hc)
    have := congrArg List.getLast? ht
    simp at this
    exact h this

theorem joinCh_splitCh (sep : Char) (s : Str) : joinCh sep (splitCh sep s) = s := by
  induction s with
  | nil => rfl
  | cons c s ih =>
    simp only [splitCh]
    split
    next h =>
      subst h
      have := splitCh_ne_nil c s
      cases hs : splitCh c s with
      | nil => exact absurd hs this
      | cons a l => rw [hs] at ih; simp [joinCh, ih]
    next h =>
      cases hs : splitCh sep s with
      | nil => exact absurd hs (splitCh_ne_nil sep s)
      | cons a l =>
        rw [hs] at ih
        simp only
        cases l with
        | nil => simp [joinCh] at ih ⊢; exact ih
        | cons b l => simp [joinCh] at ih ⊢; exact ih

theorem joinCh_append {sep : Char} {a b : List Str} (ha : a ≠ []) (hb : b ≠ []) :
    joinCh sep (a ++ b) = joinCh sep a ++ sep :: joinCh sep b := by
  induction a with
  | nil => exact absurd rfl ha
  | cons x a ih =>
    cases a with
    | nil =>
      cases b with
      | nil => exact absurd rfl hb
      | cons y b => rfl
    | cons y a =>
      have := ih (by simp)
      simp only [List.cons_append] at this ⊢
      simp only [joinCh]
      rw [this]
      simp

/-- The components at the end of a string with one of the allowed endings. -/
theorem endComponents_eq {t ending : Str} (hend : ending = [] ∨ ending = ['/'] ∨ ending = ['\n'] ∨ ending = ['/', '\n'])
    (h1 : endsWith t ['/'] = false) (h2 : endsWith t ['\n'] = false) :
    endComponents (t ++ ending) = (splitCh '/' t).reverse := by
  unfold endComponents
  rcases hend with rfl | rfl | rfl | rfl
  · simp [h1, h2]
  · simp [endsWith_snoc]
  · rw [if_pos (by simp [endsWith_snoc])]
    simp [h1]
  · have : t ++ ['/', '\n'] = (t ++ ['/']) ++ ['\n'] := by simp
    rw [this, if_pos (by rw [endsWith_snoc]; simp), List.dropLast_concat]
    dsimp only
    rw [if_pos (by rw [endsWith_snoc]; simp), List.dropLast_concat]

theorem endComponents_split (s : Str) : ∃ t ending, s = t ++ ending ∧
    (ending = [] ∨ ending = ['/'] ∨ ending = ['\n'] ∨ ending = ['/', '\n']) ∧
    endComponents s = (splitCh '/' t).reverse := by
  unfold endComponents
  by_cases h : endsWith s ['\n'] = true
  · obtain ⟨u, rfl⟩ := endsWith_single.1 h
    rw [if_pos h]
    by_cases h' : endsWith u ['/'] = true
    · obtain ⟨v, rfl⟩ := endsWith_single.1 h'
      refine ⟨v, ['/', '\n'], by simp, by simp, ?_⟩
      simp [h']
    · refine ⟨u, ['\n'], rfl, by simp, ?_⟩
      simp [h']
  · rw [if_neg h]
    by_cases h' : endsWith s ['/'] = true
    · obtain ⟨v, rfl⟩ := endsWith_single.1 h'
      refine ⟨v, ['/'], rfl, by simp, ?_⟩
      simp [h']
    · refine ⟨s, [], by simp, by simp, ?_⟩
      simp [h']

/-- The regular expression matches exactly the paths of runs, with these groups. -/
theorem matchRunPath_iff {word digit : Char → Bool} (hw : word '/' = false) (hd : digit '/' = false)
    (hd' : digit '\n' = false) {path rawProc instr cycle prop run : Str} :
    matchRunPath word digit path = some (rawProc, instr, cycle, prop, run) ↔
      RunPath word digit path rawProc instr cycle prop run := by
  constructor
  · intro h
    obtain ⟨t, ending, rfl, hend, he⟩ := endComponents_split path
    unfold matchRunPath at h
    rw [he] at h
    split at h
    next run' prop' cycle' instr' rawProc' before hrev =>
      simp only at h
      split at h
      next hc =>
        obtain ⟨hc1, hc2, hc3, ⟨hc4, hc4'⟩, ⟨hc5, hc5'⟩, hc6, hc7⟩ := hc
        simp only [Option.some.injEq, Prod.mk.injEq] at h
        obtain ⟨rfl, rfl, rfl, rfl, rfl⟩ := h
        have hsplit : splitCh '/' t = before.reverse ++ [rawProc', instr', cycle', prop', run'] := by
          have := congrArg List.reverse hrev
          simpa using this
        have hne : before.reverse ≠ [] := by
          intro h0
          rw [h0] at hc6
          exact hc6 rfl
        have ht : t = joinCh '/' before.reverse ++ '/' :: (rawProc' ++ '/' :: (instr' ++ '/' :: (cycle' ++ '/' ::
            (prop' ++ '/' :: run')))) := by
          rw [← joinCh_splitCh '/' t, hsplit, joinCh_append hne (by simp)]
          rfl
        have hstart : ∀ (c : Char) (s : Str), startsWith s [c] = true → ∃ r, s = c :: r := by
          intro c s hs
          unfold startsWith at hs
          rw [List.isPrefixOf_iff_prefix] at hs
          obtain ⟨r, hr⟩ := hs
          exact ⟨r, hr.symm⟩
        obtain ⟨pd, rfl⟩ := hstart _ _ hc4
        obtain ⟨rd, rfl⟩ := hstart _ _ hc5
        refine ⟨joinCh '/' before.reverse, ending, pd, rd, ?_, hc6, hc7, hc1, someOf_iff.1 hc2, someOf_iff.1 hc3,
          ⟨rfl, someOf_iff.1 hc4'⟩, ⟨rfl, someOf_iff.1 hc5'⟩, hend⟩
        rw [ht]
        simp
      · simp at h
    · simp at h
  · rintro ⟨before, ending, pd, rd, rfl, h1, h2, h3, h4, h5, ⟨rfl, h6⟩, ⟨rfl, h7⟩, hend⟩
    have hnot : ∀ {cls : Char → Bool} {s : Str} {c : Char}, cls c = false → (∀ x ∈ s, cls x = true) → c ∉ s := by
      intro cls s c hc hs hm
      rw [hs c hm] at hc
      simp at hc
    have n1 : '/' ∉ rawProc := by rcases h3 with rfl | rfl <;> decide
    have n2 := hnot hw h4.2
    have n3 := hnot hw h5.2
    have n4 : '/' ∉ 'p' :: pd := by
      intro hm
      rcases List.mem_cons.1 hm with h | h
      · exact absurd h (by decide)
      · exact hnot hd h6.2 h
    have n5 : '/' ∉ 'r' :: rd := by
      intro hm
      rcases List.mem_cons.1 hm with h | h
      · exact absurd h (by decide)
      · exact hnot hd h7.2 h
    have hcore : before ++ '/' :: (rawProc ++ '/' :: (instr ++ '/' :: (cycle ++ '/' :: ('p' :: pd ++ '/' :: ('r' :: rd ++ ending))))) =
        (before ++ '/' :: (rawProc ++ '/' :: (instr ++ '/' :: (cycle ++ '/' :: ('p' :: pd ++ '/' :: ('r' :: rd)))))) ++ ending := by
      simp
    obtain ⟨rd', x, hrd⟩ : ∃ l x, rd = l ++ [x] := by
      rcases List.eq_nil_or_concat rd with h | ⟨l, x, h⟩
      · exact absurd h h7.1
      · exact ⟨l, x, by simpa using h⟩
    have hx := h7.2 x (by rw [hrd]; simp)
    have hlast : ∀ c, digit c = false → endsWith (before ++ '/' :: (rawProc ++ '/' :: (instr ++ '/' :: (cycle ++ '/' :: ('p' :: pd ++ '/' :: ('r' :: rd)))))) [c] = false := by
      intro c hc
      have : before ++ '/' :: (rawProc ++ '/' :: (instr ++ '/' :: (cycle ++ '/' :: ('p' :: pd ++ '/' :: ('r' :: rd))))) =
          (before ++ '/' :: (rawProc ++ '/' :: (instr ++ '/' :: (cycle ++ '/' :: ('p' :: pd ++ '/' :: ('r' :: rd')))))) ++ [x] := by
        rw [hrd]; simp
      rw [this, endsWith_snoc, decide_eq_false_iff_not]
      rintro rfl
      rw [hx] at hc
      simp at hc
    have hsp : splitCh '/' (before ++ '/' :: (rawProc ++ '/' :: (instr ++ '/' :: (cycle ++ '/' :: ('p' :: pd ++ '/' :: ('r' :: rd)))))) =
        splitCh '/' before ++ [rawProc, instr, cycle, 'p' :: pd, 'r' :: rd] := by
      rw [splitCh_append, splitCh_append, splitCh_append, splitCh_append, splitCh_append, splitCh_notMem n1,
        splitCh_notMem n2, splitCh_notMem n3, splitCh_notMem n4, splitCh_notMem n5]
      rfl
    unfold matchRunPath
    rw [hcore, endComponents_eq hend (hlast _ hd) (hlast _ hd'), hsp]
    simp only [List.reverse_append, List.reverse_cons, List.reverse_nil, List.nil_append, List.cons_append,
      List.reverse_reverse]
    rw [if_pos]
    rw [joinCh_splitCh]
    exact ⟨h3, someOf_iff.2 h4, someOf_iff.2 h5, ⟨by simp [startsWith], someOf_iff.2 h6⟩,
      ⟨by simp [startsWith], someOf_iff.2 h7⟩, h1, h2⟩

/-- The groups of a run's path are determined by it. -/
theorem runPath_unique {word digit : Char → Bool} (hw : word '/' = false) (hd : digit '/' = false)
    (hd' : digit '\n' = false) {path a b c d e a' b' c' d' e' : Str} (h : RunPath word digit path a b c d e)
    (h' : RunPath word digit path a' b' c' d' e') : (a, b, c, d, e) = (a', b', c', d', e') := by
  have h1 := (matchRunPath_iff hw hd hd').2 h
  rw [(matchRunPath_iff hw hd hd').2 h'] at h1
  exact (Option.some.inj h1).symm

/-- C48. The first place for the cache is always in the run directory. The proposal's scratch directory is the second
one exactly if the real path is that of a run and the scratch directory exists. -/
theorem cache_places {word digit : Char → Bool} (hw : word '/' = false) (hd : digit '/' = false)
    (hd' : digit '\n' = false) (isdir : Str → Bool) (directory realpath : Str) :
    (∀ rawProc instr cycle prop run, RunPath word digit realpath rawProc instr cycle prop run →
      isdir (ch! "/gpfs/exfel/exp/" ++ instr ++ ch! "/" ++ cycle ++ ch! "/" ++ prop ++ ch! "/scratch") = true →
      mapPathsForRun word digit isdir directory realpath = [pathJoin directory (ch! "karabo_data_map.json"),
        ch! "/gpfs/exfel/exp/" ++ instr ++ ch! "/" ++ cycle ++ ch! "/" ++ prop ++ ch! "/scratch/.karabo_data_maps/" ++
          rawProc ++ ch! "_" ++ run ++ ch! ".json"]) ∧
    ((¬ ∃ rawProc instr cycle prop run, RunPath word digit realpath rawProc instr cycle prop run ∧
      isdir (ch! "/gpfs/exfel/exp/" ++ instr ++ ch! "/" ++ cycle ++ ch! "/" ++ prop ++ ch! "/scratch") = true) →
      mapPathsForRun word digit isdir directory realpath = [pathJoin directory (ch! "karabo_data_map.json")]) := by
  have hjoin : ∀ (a b : Str), '/' ∉ b → b ≠ [] → ∀ c, pathJoin (a ++ b) c = a ++ b ++ '/' :: c := by
    intro a b hb hne c
    unfold pathJoin
    have h1 : (a ++ b).isEmpty = false := by cases a <;> cases b <;> simp_all
    have h2 : endsWith (a ++ b) ['/'] = false := by
      rcases List.eq_nil_or_concat b with h | ⟨l, x, h⟩
      · exact absurd h hne
      · subst h
        rw [List.concat_eq_append, ← List.append_assoc, endsWith_snoc, decide_eq_false_iff_not]
        rintro rfl
        exact hb (by simp)
    rw [h1, h2]
    simp
  have hnot : ∀ {cls : Char → Bool} {s : Str} {c : Char}, cls c = false → (∀ x ∈ s, cls x = true) → c ∉ s := by
    intro cls s c hc hs hm
    rw [hs c hm] at hc
    simp at hc
  have hscratch : ∀ {rawProc instr cycle prop run}, RunPath word digit realpath rawProc instr cycle prop run →
      pathJoin (pathJoin (pathJoin (pathJoin (ch! "/gpfs/exfel/exp/") instr) cycle) prop) (ch! "scratch") =
        ch! "/gpfs/exfel/exp/" ++ instr ++ ch! "/" ++ cycle ++ ch! "/" ++ prop ++ ch! "/scratch" := by
    rintro rawProc instr cycle prop run ⟨before, ending, pd, rd, -, -, -, -, h4, h5, ⟨rfl, h6⟩, -, -⟩
    have e1 : pathJoin (ch! "/gpfs/exfel/exp/") instr = ch! "/gpfs/exfel/exp/" ++ instr := rfl
    have np : '/' ∉ 'p' :: pd := by
      intro hm
      rcases List.mem_cons.1 hm with h | h
      · exact absurd h (by decide)
      · exact hnot hd h6.2 h
    rw [e1, hjoin _ _ (hnot hw h4.2) h4.1]
    have e2 : ∀ (x y : Str), x ++ '/' :: y = (x ++ ['/']) ++ y := by intro x y; simp
    rw [e2, hjoin _ _ (hnot hw h5.2) h5.1, e2, hjoin _ _ np (by simp)]
  constructor
  · intro rawProc instr cycle prop run hr hdir
    unfold mapPathsForRun
    rw [(matchRunPath_iff hw hd hd').2 hr]
    simp only
    rw [hscratch hr, if_pos hdir]
    have e3 : ∀ (x : Str), x ++ ch! "/scratch" = (x ++ ['/']) ++ ch! "scratch" := by intro x; simp
    rw [e3, hjoin _ (ch! "scratch") (by decide) (by decide)]
    have e4 : ∀ (x : Str) (y : Str), x ++ '/' :: y = (x ++ ['/']) ++ y := by intro x y; simp
    rw [e4 _ (ch! ".karabo_data_maps"), hjoin _ (ch! ".karabo_data_maps") (by decide) (by decide)]
    simp
  · intro hno
    unfold mapPathsForRun
    cases hm : matchRunPath word digit realpath with
    | none => rfl
    | some g =>
      obtain ⟨rawProc, instr, cycle, prop, run⟩ := g
      have hr := (matchRunPath_iff hw hd hd').1 hm
      simp only
      rw [hscratch hr, if_neg]
      intro hdir
      exact hno ⟨rawProc, instr, cycle, prop, run, hr, hdir⟩

example : mapPathsForRun Char.isAlphanum Char.isDigit (fun _ => true) (ch! "/x/r0001")
    (ch! "/gpfs/exfel/d/proc/SCS/201901/p002212/r0001") =
    [ch! "/x/r0001/karabo_data_map.json",
      ch! "/gpfs/exfel/exp/SCS/201901/p002212/scratch/.karabo_data_maps/proc_r0001.json"] ∧
  mapPathsForRun Char.isAlphanum Char.isDigit (fun _ => true) (ch! "d") (ch! "/raw/SCS/201901/p002212/r0001") =
    [ch! "d/karabo_data_map.json"] := ⟨by decide, by decide⟩

/-! ### C45, when nothing changes while a run is opened -/

theorem init_readInfo {name : Str} {h : H5File V} :
    FileAccess.init name h none = match readInfo h with
      | .error e => .error e
      | .ok ci => .ok ⟨name, ci.trainIds, ci.controlSources, ci.instrumentSources, h⟩ := by
  unfold readInfo FileAccess.init
  simp only
  cases need h.trainId with
  | error e => rfl
  | ok tids =>
    simp only
    cases readDataSources h with
    | error e => rfl
    | ok cs => rfl

/-- Two outcomes of opening the same file: both fail the same way, or both give the same train IDs and sources. -/
def SameOutcome (a b : R (FileAccess V)) : Prop :=
  (∃ e, a = .error e ∧ b = .error e) ∨ ∃ f g, a = .ok f ∧ b = .ok g ∧ SameFile f g

theorem describes_same {info : MapInfo} {a b : CacheInfo} (ha : Describes info a) (hb : Describes info b) :
    SameInfo a b := by
  obtain ⟨a1, ⟨cs, a2, a3⟩, is, a4, a5⟩ := ha
  obtain ⟨b1, ⟨cs', b2, b3⟩, is', b4, b5⟩ := hb
  rw [a1] at b1
  rw [a2] at b2
  rw [a4] at b4
  obtain rfl := Option.some.inj b2
  obtain rfl := Option.some.inj b4
  exact ⟨Option.some.inj b1, fun s => by rw [a3, b3], fun s => by rw [a5, b5]⟩

theorem sameFile_holds {f g : FileAccess V} (h : SameFile f g) (s : Str) : Holds f s ↔ Holds g s := by
  unfold Holds; rw [h.2.2.2.1, h.2.2.2.2]

theorem noConflict_same {fs gs : List (FileAccess V)} (h : List.Forall₂ SameFile fs gs) :
    NoConflict fs ↔ NoConflict gs := by
  have hc : ∀ {f g f' g' : FileAccess V}, SameFile f f' → SameFile g g' → (Compatible f g ↔ Compatible f' g') := by
    intro f g f' g' h1 h2
    unfold Compatible
    simp only [sameFile_holds h1, sameFile_holds h2, h1.2.2.1, h2.2.2.1]
  unfold NoConflict
  induction h with
  | nil => simp
  | @cons f g fs gs hfg hrest ih =>
    rw [List.pairwise_cons, List.pairwise_cons]
    refine and_congr ?_ ih
    constructor
    · intro hall g' hg'
      obtain ⟨i, hi⟩ := List.mem_iff_getElem?.1 hg'
      have hlen := hrest.length_eq
      have hi' := (List.getElem?_eq_some_iff.1 hi).1
      have hs := (List.forall₂_iff_get.1 hrest).2 i (by omega) hi'
      have hg : gs.get ⟨i, hi'⟩ = g' := by simpa using (List.getElem?_eq_some_iff.1 hi).2
      rw [hg] at hs
      exact (hc hfg hs).1 (hall _ (List.get_mem _ _))
    · intro hall f' hf'
      obtain ⟨i, hi⟩ := List.mem_iff_getElem?.1 hf'
      have hlen := hrest.length_eq
      have hi' := (List.getElem?_eq_some_iff.1 hi).1
      have hs := (List.forall₂_iff_get.1 hrest).2 i hi' (by omega)
      have hg : fs.get ⟨i, hi'⟩ = f' := by simpa using (List.getElem?_eq_some_iff.1 hi).2
      rw [hg] at hs
      exact (hc hfg hs).2 (hall _ (List.get_mem _ _))

theorem fromPaths_same {as bs : List (R (FileAccess V))} (h : List.Forall₂ SameOutcome as bs) :
    (∃ e, DC.fromPaths as = .error e ∧ DC.fromPaths bs = .error e) ∨
    ∃ c d, DC.fromPaths as = .ok c ∧ DC.fromPaths bs = .ok d ∧ List.Forall₂ SameFile c.files d.files ∧
      c.trainIds = d.trainIds ∧ c.ctxCloses = d.ctxCloses := by
  have hf : List.Forall₂ SameFile (as.filterMap Except.toOption) (bs.filterMap Except.toOption) := by
    induction h with
    | nil => exact .nil
    | cons hab _ ih =>
      rcases hab with ⟨e, rfl, rfl⟩ | ⟨f, g, rfl, rfl, hs⟩
      · rw [List.filterMap_cons_none rfl, List.filterMap_cons_none rfl]; exact ih
      · exact List.Forall₂.cons hs ih
  have ht : (as.filterMap Except.toOption).flatMap (fun f => f.trainIds) =
      (bs.filterMap Except.toOption).flatMap (fun f => f.trainIds) := by
    generalize as.filterMap Except.toOption = fs at hf
    generalize bs.filterMap Except.toOption = gs at hf
    induction hf with
    | nil => rfl
    | cons hab _ ih => rw [List.flatMap_cons, List.flatMap_cons, ih, hab.2.2.1]
  unfold DC.fromPaths
  simp only
  have he : (as.filterMap Except.toOption).isEmpty = (bs.filterMap Except.toOption).isEmpty := by
    rw [Bool.eq_iff_iff, List.isEmpty_iff_length_eq_zero, List.isEmpty_iff_length_eq_zero, hf.length_eq]
  rw [he]
  split
  · exact Or.inl ⟨_, rfl, rfl⟩
  · by_cases hc : NoConflict (as.filterMap Except.toOption)
    · right
      refine ⟨_, _, make_ok_iff.2 ⟨hc, rfl⟩, make_ok_iff.2 ⟨(noConflict_same hf).1 hc, rfl⟩, hf, ?_, rfl⟩
      simp only
      rw [ht]
    · left
      refine ⟨.value, ?_, ?_⟩
      · unfold DC.make; rw [if_pos (hasConflicts_true.2 hc)]
      · unfold DC.make; rw [if_pos (hasConflicts_true.2 (fun h => hc ((noConflict_same hf).2 h)))]

/-- C45, when nothing changes while the run is opened. Opening a run with a cache whose entries are right about the
files now on disk gives, for each file, the same train IDs and sources as opening it without a cache: both succeed with
the same files and train IDs, or both fail with the same exception. -/
theorem run_directory_cache {disk : Str → Option (DiskFile V)} {candidates : List CacheFile} {path include_ : Str}
    {listing : List Str} (hr : ∀ e, .unreadable e ∉ candidates)
    (hinfos : ∀ infos, FirstDocument candidates infos → ∀ i ∈ infos, CompleteInfo i ∧ TrueOnDisk disk i) :
    (∃ e, runDirectory disk candidates path listing include_ = .error e ∧
      runDirectory disk [] path listing include_ = .error e) ∨
    ∃ m m' c d, runDirectory disk candidates path listing include_ = .ok (m, c) ∧
      runDirectory disk [] path listing include_ = .ok (m', d) ∧ List.Forall₂ SameFile c.files d.files ∧
      c.trainIds = d.trainIds ∧ c.ctxCloses = d.ctxCloses := by
  unfold runDirectory
  simp only
  by_cases hempty : (runFiles listing include_).isEmpty = true
  · rw [if_pos hempty, if_pos hempty]; exact Or.inl ⟨_, rfl, rfl⟩
  rw [if_neg hempty, if_neg hempty]
  obtain ⟨m, hm⟩ := load_succeeds (stat := fun f => (disk f).map DiskFile.stat) hr
    (fun infos h i hi => (hinfos infos h i hi).1)
  rw [hm]
  have hm0 : FilesMap.load [] (fun f => (disk f).map DiskFile.stat) = .ok ⟨[], none⟩ := rfl
  rw [hm0]
  simp only
  have hopen : ∀ names : List Str, ∃ as bs, openAll disk path m.filesData names = .ok as ∧
      openAll disk path [] names = .ok bs ∧ List.Forall₂ SameOutcome as bs := by
    intro names
    induction names with
    | nil => exact ⟨[], [], rfl, rfl, .nil⟩
    | cons n names ih =>
      obtain ⟨as, bs, h1, h2, h3⟩ := ih
      have hcomplete : ∀ i, m.filesData.get? n = some i → CompleteInfo i := by
        intro i hi
        have hl := hm
        unfold FilesMap.load at hl
        split at hl
        · simp at hl
        next infos cf hc =>
        split at hl
        · simp at hl
        next d hd =>
        obtain rfl := Except.ok.inj hl
        have := loadEntries_ok hd n
        simp only at hi
        rw [hi] at this
        split at this
        next info' hlast =>
          obtain rfl := Option.some.inj this
          have hmem := (List.mem_filter.1 (List.mem_of_getLast? hlast)).1
          rcases loadCandidates_ok hc with h | ⟨rfl, -, -⟩
          · exact (hinfos infos h i hmem).1
          · simp at hmem
        · simp at this
      have hget : ∃ ci, getInfo m.filesData true n = .ok ci := by
        unfold getInfo
        simp only [if_true]
        split
        · exact ⟨_, rfl⟩
        next info hi =>
          obtain ⟨ci, hci⟩ := infoOf_complete (hcomplete info hi)
          rw [hci]; exact ⟨_, rfl⟩
      obtain ⟨ci, hci⟩ := hget
      refine ⟨openFile disk (pathJoin path n) n ci :: as, openFile disk (pathJoin path n) n none :: bs, ?_, ?_, ?_⟩
      · simp only [openAll, hci, h1]
      · have : getInfo ([] : Dict Str MapInfo) true n = .ok none := rfl
        simp only [openAll, this, h2]
      · refine .cons ?_ h3
        cases ci with
        | none =>
          cases ho : openFile disk (pathJoin path n) n none with
          | error e => exact Or.inl ⟨e, rfl, rfl⟩
          | ok f => exact Or.inr ⟨f, f, rfl, rfl, rfl, rfl, rfl, fun _ => Iff.rfl, fun _ => Iff.rfl⟩
        | some ci =>
          obtain ⟨-, infos, info, st, g1, g2, g3, g4, g5⟩ := cache_entry_valid hm hci
          cases hdisk : disk n with
          | none => rw [hdisk] at g3; simp at g3
          | some file =>
            rw [hdisk] at g3
            obtain rfl := Option.some.inj g3
            obtain ⟨h, ci', c1, c2, c3⟩ := (hinfos infos g1 info g2).2 n file hdisk g4
            obtain ⟨st, content⟩ := file
            simp only at c1
            subst c1
            right
            have hs := describes_same g5 c3
            refine ⟨⟨pathJoin path n, ci.trainIds, ci.controlSources, ci.instrumentSources, h⟩,
              ⟨pathJoin path n, ci'.trainIds, ci'.controlSources, ci'.instrumentSources, h⟩, ?_, ?_, rfl, rfl, hs.1,
              hs.2.1, hs.2.2⟩
            · unfold openFile; rw [hdisk]; rfl
            · unfold openFile
              rw [hdisk]
              simp only
              rw [init_readInfo, c2]
  obtain ⟨as, bs, h1, h2, h3⟩ := hopen (runFiles listing include_)
  rw [h1, h2]
  simp only
  rcases fromPaths_same h3 with ⟨e, e1, e2⟩ | ⟨c, d, e1, e2, e3⟩
  · rw [e1, e2]; exact Or.inl ⟨e, rfl, rfl⟩
  · rw [e1, e2]; exact Or.inr ⟨m, ⟨[], none⟩, c, d, rfl, rfl, e3⟩

/-- Which files of a directory belong to a run: those with names ending in `.h5` and matching the pattern. -/
theorem run_files_exact (listing : List Str) (include_ name : Str) :
    name ∈ runFiles listing include_ ↔ name ∈ listing ∧ (∃ base, name = base ++ ch! ".h5") ∧
      globMatch include_ name = true := by
  unfold runFiles
  rw [List.mem_filter, List.mem_filter]
  have : endsWith name (ch! ".h5") = true ↔ ∃ base, name = base ++ ch! ".h5" := by
    unfold endsWith
    rw [List.isSuffixOf_iff_suffix]
    constructor
    · rintro ⟨t, h⟩; exact ⟨t, h.symm⟩
    · rintro ⟨t, h⟩; exact ⟨t, h.symm⟩
  rw [this, and_assoc]

end KD
