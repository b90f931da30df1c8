/- Property C45: any history of file changes, opens and saves by any number of processes. -/
import Verif.Model.FilesMapHistory
import Verif.Spec.FilesMapHistory
import Verif.Props.FilesMap

set_option linter.unusedSimpArgs false

namespace KD
open Spec

variable {V : Type}

/-! ### Invariants -/

section
variable (ncand : Nat) (w0 : World V) (evs : List (Event V))

/-- An entry which is right about every file of the history. -/
def GoodInfo (info : MapInfo) : Prop :=
  ∀ name file, Occurs w0 evs name file → RecordedFor info name file.stat →
    ∃ h ci, file.content = .ok h ∧ readInfo h = .ok ci ∧ Describes info ci

/-- The file had this content at some time after event number `start`. -/
def SeenFile (pre : List (Event V)) (start : Nat) (name : Str) (file : DiskFile V) : Prop :=
  ∃ k, start < k ∧ k ≤ pre.length ∧ (w0.run ncand (pre.take k)).fileAt name = some file

/-- The file could not be opened and read at some time after event number `start`. -/
def SeenBad (pre : List (Event V)) (start : Nat) (name : Str) : Prop :=
  ∃ k, start < k ∧ k ≤ pre.length ∧ ∀ file h ci, (w0.run ncand (pre.take k)).fileAt name = some file →
    file.content = .ok h → readInfo h ≠ .ok ci

def OpenedInv (w : World V) (pre : List (Event V)) (start : Nat) (f : Opened V) : Prop :=
  (∃ file, SeenFile ncand w0 pre start f.fname file ∧ Shows f.file file) ∧
  ∀ ino, f.handle = some ino → ino < w.nextIno ∧ Occurs w0 evs f.fname (w.inodes ino) ∧ Shows f.file (w.inodes ino)

def DictInv (pre : List (Event V)) (start : Nat) (d : Dict Str MapInfo) : Prop :=
  ∀ n i, (n, i) ∈ d → GoodInfo w0 evs i ∧ ∃ file, SeenFile ncand w0 pre start n file ∧ Occurs w0 evs n file ∧
    RecordedFor i n file.stat

def DoneInv (pre : List (Event V)) (start : Nat) (q : Proc V) (done : List Str) : Prop :=
  ∀ name ∈ done, (∃ f ∈ q.opened, f.fname = name) ∨ SeenBad ncand w0 pre start name

def PhaseInv (pre : List (Event V)) (start : Nat) (q : Proc V) : Prop :=
  match q.phase with
  | .loading _ => q.opened = []
  | .checking rest d => q.opened = [] ∧ (∀ i ∈ rest, GoodInfo w0 evs i) ∧ DictInv ncand w0 evs pre start d
  | .opening rest d => DictInv ncand w0 evs pre start d ∧ (∀ f ∈ q.opened, f.handle = none → f.fname ∈ d.keys) ∧
      ∃ done, q.names = done ++ rest ∧ DoneInv ncand w0 pre start q done
  | .saving _ d _ => (∀ n i, (n, i) ∈ d → GoodInfo w0 evs i) ∧ (∀ f ∈ q.opened, f.handle = none → f.fname ∈ d.keys) ∧
      DoneInv ncand w0 pre start q q.names
  | .writing _ doc => (∀ i ∈ doc, GoodInfo w0 evs i) ∧ DoneInv ncand w0 pre start q q.names
  | .finished => DoneInv ncand w0 pre start q q.names
  | _ => True

def ProcInv (w : World V) (pre : List (Event V)) (p : Nat) (q : Proc V) : Prop :=
  (q.opened = [] ∧ (q.phase = .idle ∨ q.phase = .crashed)) ∨
  (q.phase ≠ .idle ∧ ∃ start, pre[start]? = some (.begin p q.names) ∧
    (∀ f ∈ q.opened, OpenedInv ncand w0 evs w pre start f) ∧ PhaseInv ncand w0 evs pre start q)

structure WorldInv (w : World V) (pre : List (Event V)) : Prop where
  files : ∀ name ino, w.names name = some ino → ino < w.nextIno ∧ Occurs w0 evs name (w.inodes ino)
  caches : ∀ pos infos, w.caches pos = .document infos → ∀ i ∈ infos, GoodInfo w0 evs i
  procs : ∀ p, ProcInv ncand w0 evs w pre p (w.procs p)

end

section
variable {ncand : Nat} {w0 : World V} {evs : List (Event V)}

theorem seenFile_mono {pre : List (Event V)} {start : Nat} {name : Str} {file : DiskFile V} (e : Event V)
    (h : SeenFile ncand w0 pre start name file) : SeenFile ncand w0 (pre ++ [e]) start name file := by
  obtain ⟨k, h1, h2, h3⟩ := h
  refine ⟨k, h1, by rw [List.length_append]; omega, ?_⟩
  rw [List.take_append_of_le_length h2]; exact h3

theorem seenBad_mono {pre : List (Event V)} {start : Nat} {name : Str} (e : Event V)
    (h : SeenBad ncand w0 pre start name) : SeenBad ncand w0 (pre ++ [e]) start name := by
  obtain ⟨k, h1, h2, h3⟩ := h
  refine ⟨k, h1, by rw [List.length_append]; omega, ?_⟩
  rw [List.take_append_of_le_length h2]; exact h3

theorem doneInv_mono {pre : List (Event V)} {start : Nat} {q q' : Proc V} {done : List Str} (e : Event V)
    (hq : ∀ f ∈ q.opened, f ∈ q'.opened)
    (h : DoneInv ncand w0 pre start q done) : DoneInv ncand w0 (pre ++ [e]) start q' done := by
  intro name hn
  rcases h name hn with ⟨f, h1, h2⟩ | h
  · exact Or.inl ⟨f, hq f h1, h2⟩
  · exact Or.inr (seenBad_mono e h)

theorem dictInv_mono {pre : List (Event V)} {start : Nat} {d : Dict Str MapInfo} (e : Event V)
    (h : DictInv ncand w0 evs pre start d) : DictInv ncand w0 evs (pre ++ [e]) start d := by
  intro n i hi
  obtain ⟨h1, file, h2, h3⟩ := h n i hi
  exact ⟨h1, file, seenFile_mono e h2, h3⟩

/-- The world keeps its old inodes. -/
def Keeps (w w' : World V) : Prop := w.nextIno ≤ w'.nextIno ∧ ∀ i, i < w.nextIno → w'.inodes i = w.inodes i

theorem openedInv_mono {w w' : World V} {pre : List (Event V)} {start : Nat} {f : Opened V} (e : Event V)
    (hk : Keeps w w') (h : OpenedInv ncand w0 evs w pre start f) :
    OpenedInv ncand w0 evs w' (pre ++ [e]) start f := by
  obtain ⟨⟨file, h1, h2⟩, h3⟩ := h
  refine ⟨⟨file, seenFile_mono e h1, h2⟩, fun ino hi => ?_⟩
  obtain ⟨g1, g2, g3⟩ := h3 ino hi
  rw [hk.2 ino g1]
  exact ⟨lt_of_lt_of_le g1 hk.1, g2, g3⟩

theorem phaseInv_mono {pre : List (Event V)} {start : Nat} {q : Proc V} (e : Event V)
    (h : PhaseInv ncand w0 evs pre start q) : PhaseInv ncand w0 evs (pre ++ [e]) start q := by
  obtain ⟨phase, names, opened⟩ := q
  cases phase with
  | loading _ => exact h
  | checking rest d => exact ⟨h.1, h.2.1, dictInv_mono e h.2.2⟩
  | opening rest d =>
    obtain ⟨h1, h2, done, h3, h4⟩ := h
    exact ⟨dictInv_mono e h1, h2, done, h3, doneInv_mono e (fun f hf => hf) h4⟩
  | saving _ d _ => exact ⟨h.1, h.2.1, doneInv_mono e (fun f hf => hf) h.2.2⟩
  | writing _ doc => exact ⟨h.1, doneInv_mono e (fun f hf => hf) h.2⟩
  | finished => exact doneInv_mono e (fun f hf => hf) h
  | _ => trivial

theorem getElem?_append_some {α : Type} {l : List α} {i : Nat} {a : α} (b : List α) (h : l[i]? = some a) :
    (l ++ b)[i]? = some a := by
  rw [List.getElem?_append_left (List.getElem?_eq_some_iff.1 h).1]; exact h

theorem procInv_mono {w w' : World V} {pre : List (Event V)} {p : Nat} {q : Proc V} (e : Event V) (hk : Keeps w w')
    (h : ProcInv ncand w0 evs w pre p q) : ProcInv ncand w0 evs w' (pre ++ [e]) p q := by
  rcases h with h | ⟨h0, start, h1, h2, h3⟩
  · exact Or.inl h
  · exact Or.inr ⟨h0, start, getElem?_append_some _ h1, fun f hf => openedInv_mono e hk (h2 f hf), phaseInv_mono e h3⟩

theorem mem_set {K W : Type} [DecidableEq K] {d : Dict K W} {k n : K} {v i : W} (h : (n, i) ∈ d.set k v) :
    (n, i) ∈ d ∨ (n = k ∧ i = v) := by
  induction d with
  | nil =>
    rw [Dict.set, List.mem_singleton] at h
    exact Or.inr (Prod.mk.inj h)
  | cons kv d ih =>
    obtain ⟨a, b⟩ := kv
    rw [Dict.set] at h
    split at h
    next hak =>
      rcases List.mem_cons.1 h with h | h
      · obtain ⟨rfl, rfl⟩ := Prod.mk.inj h
        exact Or.inr ⟨hak, rfl⟩
      · exact Or.inl (List.mem_cons_of_mem _ h)
    · rcases List.mem_cons.1 h with h | h
      · exact Or.inl (by rw [h]; exact List.mem_cons_self)
      · rcases ih h with h | h
        · exact Or.inl (List.mem_cons_of_mem _ h)
        · exact Or.inr h

theorem loadEntry_cases {stat : Str → Option Stat} {d d' : Dict Str MapInfo} {info : MapInfo}
    (h : loadEntry stat d info = .ok d') : d' = d ∨ ∃ name st, stat name = some st ∧ RecordedFor info name st ∧
      d' = d.set name info := by
  unfold loadEntry at h
  split at h
  · simp at h
  next name hname =>
  split at h
  · exact Or.inl (Except.ok.inj h).symm
  next st hst =>
  split at h
  · simp at h
  next m hm =>
  split at h
  next hmt =>
    split at h
    · simp at h
    next sz hsz =>
      split at h
      next hs => exact Or.inr ⟨name, st, hst, ⟨hname, by rw [hm, hmt], by rw [hsz, hs]⟩, (Except.ok.inj h).symm⟩
      · exact Or.inl (Except.ok.inj h).symm
  · exact Or.inl (Except.ok.inj h).symm

theorem newInfo_describes {fname : Str} {st : Stat} {a b : CacheInfo} (h : SameInfo a b) :
    Describes (newInfo fname st a) b := by
  refine ⟨by rw [← h.1]; rfl, ⟨_, rfl, fun s => ?_⟩, _, rfl, fun s => ?_⟩
  · rw [← h.2.1]; simp [sortStrs]
  · rw [← h.2.2]; simp [sortStrs]

/-- A step of one process. -/
theorem procStep_inv {w : World V} {pre : List (Event V)} {p : Nat} {q : Proc V} {outcome : R Unit} {e : Event V}
    (hid : StatIdentifies w0 evs) (hw : w = w0.run ncand pre) (hfiles : ∀ name ino, w.names name = some ino →
      ino < w.nextIno ∧ Occurs w0 evs name (w.inodes ino))
    (hcaches : ∀ pos infos, w.caches pos = .document infos → ∀ i ∈ infos, GoodInfo w0 evs i)
    (hp : ProcInv ncand w0 evs w pre p q) :
    ProcInv ncand w0 evs w (pre ++ [e]) p (w.procStep ncand q false outcome).1 ∧
      ∀ pos doc, (w.procStep ncand q false outcome).2 = some (pos, doc) → ∀ i ∈ doc, GoodInfo w0 evs i := by
  have hkeep : Keeps w w := ⟨le_refl _, fun _ _ => rfl⟩
  rcases hp with ⟨h1, h2⟩ | ⟨h0, start, h1, h2, h3⟩
  · have : w.procStep ncand q false outcome = (q, none) := by
      unfold World.procStep
      rcases h2 with h2 | h2 <;> rw [h2]
    rw [this]
    exact ⟨Or.inl ⟨h1, h2⟩, by simp⟩
  have hstart : start < pre.length := (List.getElem?_eq_some_iff.1 h1).1
  have hnow : w0.run ncand (pre.take pre.length) = w := by rw [List.take_length, hw]
  have hopened : ∀ f ∈ q.opened, OpenedInv ncand w0 evs w (pre ++ [e]) start f :=
    fun f hf => openedInv_mono e hkeep (h2 f hf)
  have hb := getElem?_append_some [e] h1
  have hfail : ∀ {er : PyErr}, ProcInv ncand w0 evs w (pre ++ [e]) p { q with phase := .failed er } :=
    Or.inr ⟨by simp, start, hb, hopened, trivial⟩
  obtain ⟨phase, names, opened⟩ := q
  unfold World.procStep
  cases phase with
  | idle => exact absurd rfl h0
  | loading pos =>
    simp only
    split
    · split
      · exact ⟨Or.inr ⟨by simp, start, hb, hopened, h3⟩, by simp⟩
      · exact ⟨Or.inr ⟨by simp, start, hb, hopened, h3⟩, by simp⟩
      · exact ⟨hfail, by simp⟩
      next infos hc =>
        refine ⟨Or.inr ⟨by simp, start, hb, hopened, h3, hcaches pos infos hc, ?_⟩, by simp⟩
        intro n i hi; simp at hi
    · refine ⟨Or.inr ⟨by simp, start, hb, hopened, h3, by simp, ?_⟩, by simp⟩
      intro n i hi; simp at hi
  | checking rest d =>
    obtain ⟨g1, g2, g3⟩ := h3
    simp only at g1
    subst g1
    cases rest with
    | nil =>
      refine ⟨Or.inr ⟨by simp, start, hb, hopened, dictInv_mono e g3, by simp, [], rfl, ?_⟩, by simp⟩
      intro name hn; simp at hn
    | cons info rest =>
      simp only
      split
      · exact ⟨hfail, by simp⟩
      next d' hd =>
        refine ⟨Or.inr ⟨by simp, start, hb, hopened, rfl, fun i hi => g2 i (List.mem_cons_of_mem _ hi), ?_⟩, by simp⟩
        rcases loadEntry_cases hd with rfl | ⟨name, st, s1, s2, rfl⟩
        · exact dictInv_mono e g3
        · intro n i hi
          rcases mem_set hi with hi | ⟨rfl, rfl⟩
          · exact dictInv_mono e g3 n i hi
          · refine ⟨g2 _ List.mem_cons_self, ?_⟩
            unfold World.statAt World.fileAt at s1
            cases hino : w.names n with
            | none => rw [hino] at s1; simp at s1
            | some ino =>
              rw [hino] at s1
              have hst : (w.inodes ino).stat = st := Option.some.inj s1
              refine ⟨w.inodes ino, seenFile_mono e ⟨pre.length, hstart, le_refl _, ?_⟩, (hfiles n ino hino).2, ?_⟩
              · rw [hnow]; unfold World.fileAt; rw [hino]; rfl
              · rw [hst]; exact s2
  | opening rest d =>
    obtain ⟨g1, g2, done, g3, g4⟩ := h3
    simp only at g2 g3
    cases rest with
    | nil =>
      simp only
      split
      · exact ⟨hfail, by simp⟩
      · refine ⟨Or.inr ⟨by simp, start, hb, hopened, fun n i hi => (g1 n i hi).1, g2, ?_⟩, by simp⟩
        rw [List.append_nil] at g3
        simp only
        rw [g3]
        exact doneInv_mono e (fun f hf => hf) g4
    | cons name rest =>
      simp only
      split
      · exact ⟨hfail, by simp⟩
      next ci hci =>
        have hopenOne : (∀ f ∈ w.openOne name ci, f.fname = name ∧ OpenedInv ncand w0 evs w (pre ++ [e]) start f ∧
              (f.handle = none → name ∈ d.keys)) ∧
            (w.openOne name ci ≠ [] ∨ SeenBad ncand w0 (pre ++ [e]) start name) := by
          unfold World.openOne
          cases ci with
          | some ci =>
            have hget : ∃ info, d.get? name = some info ∧ infoOf info = .ok ci := by
              unfold getInfo at hci
              simp only [if_true] at hci
              split at hci
              · simp at hci
              next info hi =>
                split at hci
                · simp at hci
                next ci' hci' =>
                  obtain rfl := Option.some.inj (Except.ok.inj hci)
                  exact ⟨info, hi, hci'⟩
            obtain ⟨info, i1, i2⟩ := hget
            obtain ⟨j1, file, j2, j3, j4⟩ := g1 name info (Dict.mem_of_get? i1)
            obtain ⟨h, ci', k1, k2, k3⟩ := j1 name file j3 j4
            have hsame := describes_same (infoOf_ok i2) k3
            have : ∃ f : FileAccess V, openFile w.fileAt name name (some ci) = .ok f ∧ f.info = ci := by
              unfold openFile
              split
              · exact ⟨_, rfl, rfl⟩
              next hh => obtain rfl := Option.some.inj hh; exact ⟨_, rfl, rfl⟩
              next hh => obtain rfl := Option.some.inj hh; exact ⟨_, rfl, rfl⟩
              · simp_all
              · simp_all
            obtain ⟨f, f1, f2⟩ := this
            rw [f1]
            refine ⟨fun g hg => ?_, Or.inl (by simp)⟩
            rw [List.mem_singleton] at hg
            subst hg
            refine ⟨rfl, ⟨⟨file, seenFile_mono e j2, h, ci', k1, k2, by rw [f2]; exact hsame⟩, by simp⟩, fun _ => ?_⟩
            exact Dict.mem_keys_iff.2 ⟨info, i1⟩
          | none =>
            cases hino : w.names name with
            | none =>
              have : openFile w.fileAt name name none = .error .os := by
                unfold openFile World.fileAt; rw [hino]; rfl
              rw [this]
              refine ⟨by simp, Or.inr (seenBad_mono e ⟨pre.length, hstart, le_refl _, ?_⟩)⟩
              intro file h ci hf
              rw [hnow] at hf
              unfold World.fileAt at hf
              rw [hino] at hf
              simp at hf
            | some ino =>
              have hfa : w.fileAt name = some (w.inodes ino) := by unfold World.fileAt; rw [hino]; rfl
              cases hop : openFile w.fileAt name name none with
              | error er =>
                refine ⟨by simp, Or.inr (seenBad_mono e ⟨pre.length, hstart, le_refl _, ?_⟩)⟩
                intro file h ci hf hc hr
                rw [hnow, hfa] at hf
                obtain rfl := Option.some.inj hf
                unfold openFile at hop
                rw [hfa] at hop
                generalize w.inodes ino = file at hop hc
                obtain ⟨st, content⟩ := file
                simp only at hc
                subst hc
                simp only at hop
                rw [init_readInfo, hr] at hop
                simp at hop
              | ok f =>
                refine ⟨fun g hg => ?_, Or.inl (by simp)⟩
                rw [List.mem_singleton] at hg
                subst hg
                have hshow : Shows f (w.inodes ino) := by
                  unfold openFile at hop
                  rw [hfa] at hop
                  generalize w.inodes ino = file at hop
                  obtain ⟨st, content⟩ := file
                  cases content with
                  | error er => simp at hop
                  | ok h =>
                    simp only at hop
                    rw [init_readInfo] at hop
                    split at hop
                    · simp at hop
                    next ci hr =>
                      obtain rfl := Except.ok.inj hop
                      exact ⟨h, ci, rfl, hr, rfl, fun _ => Iff.rfl, fun _ => Iff.rfl⟩
                refine ⟨rfl, ⟨⟨w.inodes ino, seenFile_mono e ⟨pre.length, hstart, le_refl _, ?_⟩, hshow⟩, ?_⟩, by simp⟩
                · rw [hnow]; exact hfa
                · intro i hi
                  obtain rfl := Option.some.inj hi
                  exact ⟨(hfiles name ino hino).1, (hfiles name ino hino).2, hshow⟩
        refine ⟨Or.inr ⟨by simp, start, hb, ?_, dictInv_mono e g1, ?_, done ++ [name], ?_, ?_⟩, by simp⟩
        · intro f hf
          rcases List.mem_append.1 hf with hf | hf
          · exact hopened f hf
          · exact (hopenOne.1 f hf).2.1
        · intro f hf hn
          rcases List.mem_append.1 hf with hf | hf
          · exact g2 f hf hn
          · rw [(hopenOne.1 f hf).1]; exact (hopenOne.1 f hf).2.2 hn
        · simp only; rw [g3]; simp
        · intro n hn
          rcases List.mem_append.1 hn with hn | hn
          · exact doneInv_mono e (fun f hf => List.mem_append_left _ hf) g4 n hn
          · rw [List.mem_singleton] at hn
            subst hn
            rcases hopenOne.2 with h | h
            · obtain ⟨f, hf⟩ := List.exists_mem_of_ne_nil _ h
              exact Or.inl ⟨f, List.mem_append_right _ hf, (hopenOne.1 f hf).1⟩
            · exact Or.inr h
  | saving pos d need =>
    obtain ⟨g1, g2, g3⟩ := h3
    simp only at g2 g3
    simp only
    split
    next f hf =>
      have hmem := List.mem_of_getElem? hf
      split
      · exact ⟨hfail, by simp⟩
      next d' n' hd =>
        refine ⟨Or.inr ⟨by simp, start, hb, hopened, ?_⟩, by simp⟩
        rcases saveEntry_cases hd with ⟨hd, -⟩ | ⟨-, hnk, st, hst, hd⟩
        · obtain ⟨rfl, rfl⟩ := Prod.mk.inj hd
          exact ⟨g1, g2, doneInv_mono e (fun f hf => hf) g3⟩
        · obtain ⟨rfl, rfl⟩ := Prod.mk.inj hd
          refine ⟨?_, ?_, doneInv_mono e (fun f hf => hf) g3⟩
          · intro n i hi
            rcases mem_set hi with hi | ⟨rfl, rfl⟩
            · exact g1 n i hi
            · intro name file ho hr
              cases hh : f.handle with
              | none => exact absurd (g2 f hmem hh) hnk
              | some ino =>
                obtain ⟨-, q2, h, ci, q3, q4, q5⟩ := (h2 f hmem).2 ino hh
                unfold World.saveStat at hst
                rw [hh] at hst
                obtain rfl := Except.ok.inj hst
                obtain ⟨r1, r2, r3⟩ := hr
                have e1 : f.fname = name := Option.some.inj r1
                have e2 : (w.inodes ino).stat.mtime = file.stat.mtime := Option.some.inj r2
                have e3 : (w.inodes ino).stat.size = file.stat.size := Option.some.inj r3
                subst e1
                have hst : (w.inodes ino).stat = file.stat := by
                  revert e2 e3
                  generalize (w.inodes ino).stat = a
                  generalize file.stat = b
                  obtain ⟨a1, a2⟩ := a
                  obtain ⟨b1, b2⟩ := b
                  rintro rfl rfl
                  rfl
                have := hid f.fname _ _ q2 ho hst
                exact ⟨h, ci, by rw [← this]; exact q3, q4, newInfo_describes q5⟩
          · intro f' hf' hn
            rw [Dict.keys_set]
            split
            · exact g2 f' hf' hn
            · exact List.mem_append_left _ (g2 f' hf' hn)
    · split
      · refine ⟨Or.inr ⟨by simp, start, hb, hopened, ?_, doneInv_mono e (fun f hf => hf) g3⟩, by simp⟩
        intro i hi
        obtain ⟨n, hn⟩ := saveDoc_mem.1 hi
        exact g1 n i hn
      · exact ⟨Or.inr ⟨by simp, start, hb, hopened, doneInv_mono e (fun f hf => hf) g3⟩, by simp⟩
  | writing pos doc =>
    obtain ⟨g1, g2⟩ := h3
    simp only at g2
    simp only
    split
    · split
      · refine ⟨Or.inr ⟨by simp, start, hb, hopened, doneInv_mono e (fun f hf => hf) g2⟩, ?_⟩
        intro pos' doc' hd
        obtain ⟨rfl, rfl⟩ := Prod.mk.inj (Option.some.inj hd)
        exact g1
      · exact ⟨Or.inr ⟨by simp, start, hb, hopened, g1, doneInv_mono e (fun f hf => hf) g2⟩, by simp⟩
      · exact ⟨hfail, by simp⟩
    · exact ⟨Or.inr ⟨by simp, start, hb, hopened, doneInv_mono e (fun f hf => hf) g2⟩, by simp⟩
  | finished => exact ⟨Or.inr ⟨by simp, start, hb, hopened, phaseInv_mono e h3⟩, by simp⟩
  | failed er => exact ⟨Or.inr ⟨by simp, start, hb, hopened, trivial⟩, by simp⟩
  | crashed => exact ⟨Or.inr ⟨by simp, start, hb, hopened, trivial⟩, by simp⟩

theorem run_snoc (w : World V) (pre : List (Event V)) (e : Event V) :
    w.run ncand (pre ++ [e]) = (w.run ncand pre).step ncand e := by
  unfold World.run; rw [List.foldl_append]; rfl

/-- The invariant holds after every part of the history. -/
theorem history_inv (hs : Start w0 evs) (hid : StatIdentifies w0 evs) (ha : ∀ e ∈ evs, Allowed w0 evs e) :
    ∀ pre post, evs = pre ++ post → WorldInv ncand w0 evs (w0.run ncand pre) pre := by
  intro pre
  induction pre using List.reverseRecOn with
  | nil =>
    intro post _
    refine ⟨?_, ?_, ?_⟩
    · intro name ino h
      exact ⟨hs.2.2 name ino h, Or.inl (by unfold World.fileAt; rw [show (w0.run ncand []) = w0 from rfl] at *; rw [h]; rfl)⟩
    · intro pos infos h i hi
      exact hs.2.1 pos infos h i hi
    · intro p
      left
      have := hs.1 p
      rw [show (w0.run ncand []) = w0 from rfl, this]
      exact ⟨rfl, Or.inl rfl⟩
  | append_singleton pre e ih =>
    intro post hevs
    have ih := ih (e :: post) (by rw [hevs]; simp)
    have hmem : e ∈ evs := by rw [hevs]; simp
    have hall := ha e hmem
    obtain ⟨i1, i2, i3⟩ := ih
    rw [run_snoc]
    have hkeep : Keeps (w0.run ncand pre) (w0.run ncand pre) := ⟨le_refl _, fun _ _ => rfl⟩
    generalize hw : w0.run ncand pre = w at i1 i2 i3 hkeep
    cases e with
    | replace name file =>
      have hk : Keeps w (w.step ncand (.replace name file)) := by
        refine ⟨Nat.le_succ _, fun i hi => ?_⟩
        show (if i = w.nextIno then file else w.inodes i) = _
        rw [if_neg (by omega)]
      refine ⟨?_, i2, fun p => procInv_mono _ hk (i3 p)⟩
      intro n ino hn
      change (if n = name then some w.nextIno else w.names n) = some ino at hn
      show ino < w.nextIno + 1 ∧ Occurs w0 evs n (if ino = w.nextIno then file else w.inodes ino)
      split at hn
      next he =>
        obtain rfl := Option.some.inj hn
        rw [if_pos rfl, he]
        exact ⟨Nat.lt_succ_self _, Or.inr hmem⟩
      · obtain ⟨j1, j2⟩ := i1 n ino hn
        rw [if_neg (by omega)]
        exact ⟨by omega, j2⟩
    | remove name =>
      refine ⟨?_, i2, fun p => procInv_mono _ ⟨le_refl _, fun _ _ => rfl⟩ (i3 p)⟩
      intro n ino hn
      change (if n = name then none else w.names n) = some ino at hn
      split at hn
      · simp at hn
      · exact i1 n ino hn
    | modify name file => exact hall.elim
    | putCache pos c =>
      refine ⟨i1, ?_, fun p => procInv_mono _ ⟨le_refl _, fun _ _ => rfl⟩ (i3 p)⟩
      intro pos' infos hc
      change (if pos' = pos then c else w.caches pos') = .document infos at hc
      split at hc
      · exact hall infos hc
      · exact i2 pos' infos hc
    | begin p names =>
      show WorldInv ncand w0 evs (if (w.procs p).phase = .idle then _ else w) _
      split
      next hidle =>
        refine ⟨i1, i2, fun p' => ?_⟩
        show ProcInv ncand w0 evs _ _ p' (if p' = p then ⟨.loading 0, names, []⟩ else w.procs p')
        split
        next he =>
          subst he
          right
          refine ⟨by simp, pre.length, by simp, by simp, rfl⟩
        · exact procInv_mono _ ⟨le_refl _, fun _ _ => rfl⟩ (i3 p')
      · exact ⟨i1, i2, fun p' => procInv_mono _ hkeep (i3 p')⟩
    | act p byName outcome =>
      obtain rfl : byName = false := hall
      obtain ⟨k1, k2⟩ := procStep_inv (outcome := outcome) (e := .act p false outcome) hid hw.symm i1 i2 (i3 p)
      refine ⟨i1, ?_, fun p' => ?_⟩
      · intro pos infos hc
        change (match (w.procStep ncand (w.procs p) false outcome).2 with
          | some (pos', doc) => if pos = pos' then CacheFile.document doc else w.caches pos
          | none => w.caches pos) = .document infos at hc
        split at hc
        next pos' doc hd =>
          split at hc
          · obtain rfl := CacheFile.document.inj hc
            exact k2 pos' doc hd
          · exact i2 pos infos hc
        · exact i2 pos infos hc
      · show ProcInv ncand w0 evs _ _ p' (if p' = p then _ else w.procs p')
        split
        next he => subst he; exact k1
        · exact procInv_mono _ ⟨le_refl _, fun _ _ => rfl⟩ (i3 p')
    | crash p =>
      refine ⟨i1, i2, fun p' => ?_⟩
      show ProcInv ncand w0 evs _ _ p' (if p' = p then { w.procs p with phase := .crashed } else w.procs p')
      split
      next he =>
        subst he
        rcases i3 p' with h | ⟨h0, start, h1, h2, h3⟩
        · exact Or.inl ⟨h.1, Or.inr rfl⟩
        · exact Or.inr ⟨by simp, start, getElem?_append_some _ h1,
            fun f hf => openedInv_mono _ ⟨le_refl _, fun _ _ => rfl⟩ (h2 f hf), trivial⟩
      · exact procInv_mono _ ⟨le_refl _, fun _ _ => rfl⟩ (i3 p')

/-! ### C45 -/

/-- C45. In every history in which data files are replaced and removed, cache files damaged, and any number of processes
open the run, save the cache and crash: every file opened by a process, from the cache or not, shows the train IDs and
sources of a content which the file had at some time since the process began. It is assumed that modification time and
size identify a file's content. Missing for the full claim: files modified in place, and systems on which a file handle
cannot be had; the claim is false of these (`history_modified_wrong`, `history_byname_wrong`). -/
theorem cache_history_partial (hs : Start w0 evs) (hid : StatIdentifies w0 evs) (ha : ∀ e ∈ evs, Allowed w0 evs e)
    {p : Nat} {f : Opened V} (hf : f ∈ ((w0.run ncand evs).procs p).opened) :
    ∃ start names, evs[start]? = some (.begin p names) ∧ ∃ k file, start < k ∧ k ≤ evs.length ∧
      (w0.run ncand (evs.take k)).fileAt f.fname = some file ∧ Shows f.file file := by
  have := (history_inv (ncand := ncand) hs hid ha evs [] (by simp)).procs p
  rcases this with ⟨h, -⟩ | ⟨-, start, h1, h2, -⟩
  · rw [h] at hf; simp at hf
  · obtain ⟨⟨file, ⟨k, k1, k2, k3⟩, h4⟩, -⟩ := h2 f hf
    exact ⟨start, _, h1, k, file, k1, k2, k3, h4⟩

/-- If a file does not change while a process has the run open, the process shows what is in the file. -/
theorem cache_history_stable (hs : Start w0 evs) (hid : StatIdentifies w0 evs) (ha : ∀ e ∈ evs, Allowed w0 evs e)
    {p : Nat} {f : Opened V} (hf : f ∈ ((w0.run ncand evs).procs p).opened) {file : DiskFile V}
    (hstable : ∀ (start : Nat) names k, evs[start]? = some (.begin p names) → start < k → k ≤ evs.length →
      (w0.run ncand (evs.take k)).fileAt f.fname = some file) : Shows f.file file := by
  obtain ⟨start, names, h1, k, file', h2, h3, h4, h5⟩ := cache_history_partial hs hid ha hf
  rw [hstable start names k h1 h2 h3] at h4
  obtain rfl := Option.some.inj h4
  exact h5

/-- A process which gets to the end has opened every file of its listing, except files which could not be opened or read
at some time since it began. -/
theorem cache_history_complete (hs : Start w0 evs) (hid : StatIdentifies w0 evs) (ha : ∀ e ∈ evs, Allowed w0 evs e)
    {p : Nat} (hf : ((w0.run ncand evs).procs p).phase = .finished) :
    ∃ start names, evs[start]? = some (.begin p names) ∧ ∀ name ∈ names,
      (∃ f ∈ ((w0.run ncand evs).procs p).opened, f.fname = name) ∨
      ∃ k, start < k ∧ k ≤ evs.length ∧ ∀ file h ci, (w0.run ncand (evs.take k)).fileAt name = some file →
        file.content = .ok h → readInfo h ≠ .ok ci := by
  have := (history_inv (ncand := ncand) hs hid ha evs [] (by simp)).procs p
  rcases this with ⟨-, h | h⟩ | ⟨-, start, h1, h2, h3⟩
  · rw [hf] at h; simp at h
  · rw [hf] at h; simp at h
  · refine ⟨start, _, h1, ?_⟩
    unfold PhaseInv at h3
    rw [hf] at h3
    exact h3

/-- Every cache file is honest at the end of every such history. -/
theorem cache_history_honest (hs : Start w0 evs) (hid : StatIdentifies w0 evs) (ha : ∀ e ∈ evs, Allowed w0 evs e)
    (pos : Nat) : Honest w0 evs ((w0.run ncand evs).caches pos) :=
  fun infos h i hi => (history_inv (ncand := ncand) hs hid ha evs [] (by simp)).caches pos infos h i hi

end

/-! ### Concrete histories -/

/-- A file with one train and no sources. -/
def exVersion (st : Stat) (tid : Nat) : DiskFile Nat := ⟨st, .ok ⟨some [tid], none, some [], none, [], [], []⟩⟩

/-- A directory with one file and no cache. -/
def exWorld : World Nat :=
  ⟨fun n => if n = ch! "a.h5" then some 0 else none, fun _ => exVersion ⟨1, 5⟩ 10, 1, fun _ => .missing,
    fun _ => ⟨.idle, [], []⟩⟩

/-- Process p opens the run: so many steps. -/
def exSteps (p n : Nat) : List (Event Nat) := List.replicate n (.act p false (.ok ()))

/-- What the files of process p show in the end: the train IDs, and whether they come from the cache. -/
def exShown (evs : List (Event Nat)) (p : Nat) : List (List Nat × Bool) :=
  (((exWorld.run 1 evs).procs p).opened).map (fun f => (f.file.trainIds, f.handle.isNone))

/-- A history in which one process reads the file and saves the cache, a second one uses the cache, the file is
replaced, a third one starts before and ends after that (having checked the cache entry before), and a fourth one reads
the new file. -/
def exHistory : List (Event Nat) :=
  [.begin 0 [ch! "a.h5"]] ++ exSteps 0 10 ++ [.begin 1 [ch! "a.h5"]] ++ exSteps 1 8 ++ [.begin 2 [ch! "a.h5"]] ++
    exSteps 2 2 ++ [.replace (ch! "a.h5") (exVersion ⟨2, 5⟩ 20)] ++ exSteps 2 6 ++ [.begin 3 [ch! "a.h5"]] ++ exSteps 3 10

example : exShown exHistory 0 = [([10], false)] ∧ exShown exHistory 1 = [([10], true)] ∧
    exShown exHistory 2 = [([10], true)] ∧ exShown exHistory 3 = [([20], false)] ∧
    ∀ p < 4, ((exWorld.run 1 exHistory).procs p).phase = .finished := ⟨by decide, by decide, by decide, by decide, by decide⟩

/-- The assumptions hold of this history. -/
example : Start exWorld exHistory ∧ StatIdentifies exWorld exHistory ∧ ∀ e ∈ exHistory, Allowed exWorld exHistory e := by
  refine ⟨⟨fun _ => rfl, fun _ infos h => by simp [exWorld] at h, ?_⟩, ?_, ?_⟩
  · intro name ino h
    simp only [exWorld] at h
    split at h
    · obtain rfl := Option.some.inj h; decide
    · simp at h
  · have hocc : ∀ name v, Occurs exWorld exHistory name v → v = exVersion ⟨1, 5⟩ 10 ∨ v = exVersion ⟨2, 5⟩ 20 := by
      intro name v h
      rcases h with h | h
      · left
        simp only [World.fileAt, exWorld] at h
        split at h
        · exact (Option.some.inj h).symm
        · simp at h
      · right
        simp [exHistory, exSteps, List.mem_replicate] at h
        exact h.2
    intro name a b ha hb
    rcases hocc name a ha with rfl | rfl <;> rcases hocc name b hb with rfl | rfl <;> decide
  · intro e he
    simp only [exHistory, exSteps, List.mem_append, List.mem_replicate, List.mem_singleton] at he
    rcases he with ((((((((rfl | ⟨-, rfl⟩) | rfl) | ⟨-, rfl⟩) | rfl) | ⟨-, rfl⟩) | rfl) | ⟨-, rfl⟩) | rfl) | ⟨-, rfl⟩ <;>
      first | rfl | trivial

/-- A history in which a file is replaced between reading and saving, and its name is used to save. -/
def exByName : List (Event Nat) :=
  [.begin 0 [ch! "a.h5"]] ++ exSteps 0 4 ++ [.replace (ch! "a.h5") (exVersion ⟨2, 5⟩ 20)] ++
    List.replicate 4 (.act 0 true (.ok ())) ++ [.begin 1 [ch! "a.h5"]] ++ exSteps 1 8

/-- Why `act` with a missing file handle is excluded in `cache_history_partial`: the first process reads the file, the
file is replaced, and the first process saves the old description with the new time and size. The second process, begun
after that, finds the old train IDs, although time and size identify the contents (they differ). -/
theorem history_byname_wrong : exShown exByName 1 = [([10], true)] ∧
    (exWorld.run 1 exByName).fileAt (ch! "a.h5") = some (exVersion ⟨2, 5⟩ 20) ∧
    (∀ k ∈ List.range exByName.length, 7 < k →
      (exWorld.run 1 (exByName.take k)).fileAt (ch! "a.h5") = some (exVersion ⟨2, 5⟩ 20)) ∧
    exByName[10]? = some (.begin 1 [ch! "a.h5"]) := ⟨by decide, by decide, by decide, by decide⟩

/-- The same with a file which is modified in place while a process has it open. -/
def exModified : List (Event Nat) :=
  [.begin 0 [ch! "a.h5"]] ++ exSteps 0 4 ++ [.modify (ch! "a.h5") (exVersion ⟨2, 5⟩ 20)] ++ exSteps 0 4 ++
    [.begin 1 [ch! "a.h5"]] ++ exSteps 1 8

/-- Why modifying files in place is excluded in `cache_history_partial`: a file being written while it is opened for the
first time leaves a wrong cache entry, which is used by later processes. -/
theorem history_modified_wrong : exShown exModified 1 = [([10], true)] ∧
    (exWorld.run 1 exModified).fileAt (ch! "a.h5") = some (exVersion ⟨2, 5⟩ 20) ∧
    (∀ k ∈ List.range exModified.length, 7 < k →
      (exWorld.run 1 (exModified.take k)).fileAt (ch! "a.h5") = some (exVersion ⟨2, 5⟩ 20)) ∧
    exModified[10]? = some (.begin 1 [ch! "a.h5"]) := ⟨by decide, by decide, by decide, by decide⟩

end KD
