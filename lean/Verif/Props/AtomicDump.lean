/- Property C46: saving the cache file atomically. -/
import Verif.Model.AtomicDump
import Verif.Spec.AtomicDump
import Mathlib.Tactic.Common
import Mathlib.Data.List.Induction

set_option linter.unusedSimpArgs false

namespace KD
open Spec

/-- The file which a process is writing. -/
def Writer.file : Writer → Option Nat
  | .writing _ ino _ _ => some ino
  | .written _ ino _ => some ino
  | .failing _ ino => some ino
  | _ => none

/-- Invariant of a process which is writing. -/
def WriterInv (evs : List DumpEvent) (w : DumpFS) : Writer → Prop
  | .writing _ ino doc rest => w.data ino ++ rest = doc ∧ ∃ p suffix, .start p suffix doc ∈ evs
  | .written _ ino doc => w.data ino = doc ∧ ∃ p suffix, .start p suffix doc ∈ evs
  | _ => True

/-- Invariant of a process which is reading. -/
def ReaderInv (path : Str) (w0 : DumpFS) (evs : List DumpEvent) (w : DumpFS) : Reader → Prop
  | .reading ino got => ino < w.nextIno ∧ (∀ p, (w.writers p).file ≠ some ino) ∧ Whole path w0 evs (w.data ino) ∧
      got <+: w.data ino
  | .done got => Whole path w0 evs got
  | _ => True

structure DumpInv (path : Str) (w0 : DumpFS) (evs : List DumpEvent) (w : DumpFS) : Prop where
  bound : ∀ n ino, w.names n = some ino → ino < w.nextIno
  next : w0.nextIno ≤ w.nextIno
  mine : ∀ p ino, (w.writers p).file = some ino → w0.nextIno ≤ ino ∧ ∃ tmp, (w.writers p).tmp = some tmp ∧ tmp ≠ path ∧
    w.names tmp = some ino
  tmps : ∀ p tmp, (w.writers p).tmp = some tmp → ∃ ino, (w.writers p).file = some ino
  only : ∀ p n ino, (w.writers p).file = some ino → w.names n = some ino → (w.writers p).tmp = some n
  uniq : ∀ p p' ino, (w.writers p).file = some ino → (w.writers p').file = some ino → p = p'
  writers : ∀ p, WriterInv evs w (w.writers p)
  readers : ∀ r, ReaderInv path w0 evs w (w.readers r)
  visible : ∀ ino, w.names path = some ino → Whole path w0 evs (w.data ino)
  old : ∀ i, i < w0.nextIno → w.data i = w0.data i
  others : ∀ n ino, n ≠ path → w0.names n = some ino → w.names n = some ino
  left : ∀ n ino, w.names n = some ino → n = path ∨ w0.names n = some ino ∨ ∃ p, (w.writers p).tmp = some n ∨
    w.writers p = .crashed (some n)
  start : ∀ n ino, w0.names n = some ino → ino < w0.nextIno
  crashes : ∀ p t, w.writers p = .crashed t → .crash p ∈ evs ∨ .replaceFails p ∈ evs

theorem dumpInv_start {path : Str} {w0 : DumpFS} {evs : List DumpEvent} (h : DumpStart w0) : DumpInv path w0 evs w0 := by
  obtain ⟨h1, h2, h3⟩ := h
  constructor
  · exact h3
  · exact le_refl _
  · intro p ino hp; rw [h1] at hp; simp [Writer.file] at hp
  · intro p tmp hp; rw [h1] at hp; simp [Writer.tmp] at hp
  · intro p n ino hp; rw [h1] at hp; simp [Writer.file] at hp
  · intro p p' ino hp; rw [h1] at hp; simp [Writer.file] at hp
  · intro p; rw [h1]; trivial
  · intro r; rw [h2]; trivial
  · intro ino hi
    left
    unfold DumpFS.content
    rw [hi]; rfl
  · intro i _; rfl
  · intro n ino _ h; exact h
  · intro n ino h; exact Or.inr (Or.inl h)
  · exact h3
  · intro p t hp; rw [h1] at hp; simp at hp

theorem setWriter_writers (w : DumpFS) (p : Nat) (s : Writer) (q : Nat) :
    (w.setWriter p s).writers q = if q = p then s else w.writers q := rfl

/-- Steps which change the state of one writer only, keeping its file or letting it go. -/
theorem dumpInv_writer {path : Str} {w0 w : DumpFS} {evs : List DumpEvent} (h : DumpInv path w0 evs w) {p : Nat}
    {s : Writer} (h1 : (s.file = (w.writers p).file ∧ s.tmp = (w.writers p).tmp) ∨
      (s.file = none ∧ s.tmp = none ∧ ∀ n, (w.writers p).tmp = some n → s = .crashed (some n)))
    (h2 : WriterInv evs w s) (h3 : ∀ t, s = .crashed t → .crash p ∈ evs ∨ .replaceFails p ∈ evs)
    (h4 : ∀ n, w.writers p = .crashed (some n) → s = .crashed (some n) ∨ s.tmp = some n) :
    DumpInv path w0 evs (w.setWriter p s) := by
  have hfile : ∀ q ino, ((w.setWriter p s).writers q).file = some ino → (w.writers q).file = some ino := by
    intro q ino hq
    rw [setWriter_writers] at hq
    split at hq
    next he =>
      subst he
      rcases h1 with h1 | h1
      · rw [← h1.1]; exact hq
      · rw [h1.1] at hq; simp at hq
    · exact hq
  have htmp : ∀ q ino, ((w.setWriter p s).writers q).file = some ino →
      ((w.setWriter p s).writers q).tmp = (w.writers q).tmp := by
    intro q ino hq
    rw [setWriter_writers] at hq ⊢
    split at hq
    next he =>
      subst he
      rw [if_pos rfl]
      rcases h1 with h1 | h1
      · exact h1.2
      · rw [h1.1] at hq; simp at hq
    next he => rw [if_neg he]
  constructor
  · exact h.bound
  · exact h.next
  · intro q ino hq
    obtain ⟨g1, tmp, g2, g3⟩ := h.mine q ino (hfile q ino hq)
    exact ⟨g1, tmp, by rw [htmp q ino hq]; exact g2, g3⟩
  · intro q tmp hq
    rw [setWriter_writers] at hq ⊢
    split at hq
    next he =>
      subst he
      rw [if_pos rfl]
      rcases h1 with h1 | h1
      · rw [h1.2] at hq; rw [h1.1]; exact h.tmps _ _ hq
      · rw [h1.2.1] at hq; simp at hq
    next he => rw [if_neg he]; exact h.tmps _ _ hq
  · intro q n ino hq hn
    rw [htmp q ino hq]
    exact h.only q n ino (hfile q ino hq) hn
  · intro q q' ino hq hq'
    exact h.uniq q q' ino (hfile q ino hq) (hfile q' ino hq')
  · intro q
    rw [setWriter_writers]
    split
    · exact h2
    · exact h.writers q
  · intro r
    have := h.readers r
    show ReaderInv path w0 evs (w.setWriter p s) (w.readers r)
    cases hr : w.readers r with
    | reading ino got =>
      rw [hr] at this
      exact ⟨this.1, fun q hq => this.2.1 q (hfile q ino hq), this.2.2⟩
    | done got => rw [hr] at this; exact this
    | _ => trivial
  · exact h.visible
  · exact h.old
  · exact h.others
  · intro n ino hn
    rcases h.left n ino hn with g | g | ⟨q, g⟩
    · exact Or.inl g
    · exact Or.inr (Or.inl g)
    · right; right
      by_cases he : q = p
      · subst he
        refine ⟨q, ?_⟩
        rw [setWriter_writers, if_pos rfl]
        rcases g with g | g
        · rcases h1 with h1 | h1
          · left; rw [h1.2]; exact g
          · right; exact h1.2.2 n g
        · rcases h4 n g with g | g
          · exact Or.inr g
          · exact Or.inl g
      · refine ⟨q, ?_⟩
        rw [setWriter_writers, if_neg he]
        exact g
  · exact h.start
  · intro q t hq
    rw [setWriter_writers] at hq
    split at hq
    next he => subst he; exact h3 t hq
    · exact h.crashes q t hq

/-- Steps in which a writer lets go of its temporary file: deletes it, or puts it at the path (`pub`). -/
theorem dumpInv_release {path : Str} {w0 w : DumpFS} {evs : List DumpEvent} (h : DumpInv path w0 evs w) {p : Nat}
    {s : Writer} {tmp : Str} {ino : Nat} {pub : Bool} (hf : (w.writers p).file = some ino)
    (ht : (w.writers p).tmp = some tmp) (hs1 : s.file = none) (hs2 : s.tmp = none) (hs3 : ∀ t, s ≠ .crashed t)
    (hs4 : WriterInv evs w s) (hpub : pub = true → Whole path w0 evs (w.data ino)) :
    DumpInv path w0 evs { w.setWriter p s with
      names := fun n => if n = tmp then none else if pub = true ∧ n = path then some ino else w.names n } := by
  obtain ⟨m1, tmp', m2, m3, m4⟩ := h.mine p ino hf
  rw [ht] at m2
  obtain rfl := Option.some.inj m2
  have hfile : ∀ q i, (if q = p then s else w.writers q).file = some i → q ≠ p ∧ (w.writers q).file = some i := by
    intro q i hq
    split at hq
    · rw [hs1] at hq; simp at hq
    next hne => exact ⟨hne, hq⟩
  have hino : ∀ q i, q ≠ p → (w.writers q).file = some i → i ≠ ino := by
    rintro q i hq hqi rfl
    exact hq (h.uniq q p i hqi hf)
  constructor
  · intro n i hn
    simp only at hn
    split at hn
    · simp at hn
    · split at hn
      · obtain rfl := Option.some.inj hn; exact h.bound _ _ m4
      · exact h.bound _ _ hn
  · exact h.next
  · intro q i hq
    simp only [DumpFS.setWriter] at hq ⊢
    obtain ⟨hne, hq⟩ := hfile q i hq
    rw [if_neg hne]
    obtain ⟨g1, t, g2, g3, g4⟩ := h.mine q i hq
    refine ⟨g1, t, g2, g3, ?_⟩
    rw [if_neg ?_, if_neg (fun h => g3 h.2)]
    · exact g4
    · rintro rfl
      rw [m4] at g4
      exact hino q i hne hq (Option.some.inj g4).symm
  · intro q t hq
    simp only [DumpFS.setWriter] at hq ⊢
    split at hq
    · rw [hs2] at hq; simp at hq
    next hne => rw [if_neg hne]; exact h.tmps q t hq
  · intro q n i hq hn
    simp only [DumpFS.setWriter] at hq hn ⊢
    obtain ⟨hne, hq⟩ := hfile q i hq
    rw [if_neg hne]
    split at hn
    · simp at hn
    · split at hn
      · exact absurd (Option.some.inj hn).symm (hino q i hne hq)
      · exact h.only q n i hq hn
  · intro q q' i hq hq'
    simp only [DumpFS.setWriter] at hq hq'
    exact h.uniq q q' i (hfile q i hq).2 (hfile q' i hq').2
  · intro q
    simp only [DumpFS.setWriter]
    split
    · revert hs4; cases s <;> exact fun h => h
    · have := h.writers q
      revert this; cases w.writers q <;> exact fun h => h
  · intro r
    have := h.readers r
    simp only [DumpFS.setWriter]
    revert this
    cases w.readers r with
    | reading i got =>
      rintro ⟨g1, g2, g3⟩
      exact ⟨g1, fun q hq => g2 q (hfile q i hq).2, g3⟩
    | _ => exact fun h => h
  · intro i hi
    simp only at hi ⊢
    rw [if_neg (Ne.symm m3)] at hi
    split at hi
    next hp => obtain rfl := Option.some.inj hi; exact hpub hp.1
    · exact h.visible i hi
  · exact h.old
  · intro n i hn hi
    simp only
    have := h.others n i hn hi
    rw [if_neg ?_, if_neg (fun h => hn h.2)]
    · exact this
    · rintro rfl
      rw [m4] at this
      obtain rfl := Option.some.inj this
      have := h.start _ _ hi
      omega
  · intro n i hn
    simp only [DumpFS.setWriter] at hn ⊢
    split at hn
    · simp at hn
    next hnt =>
      split at hn
      next hp => exact Or.inl hp.2
      · rcases h.left n i hn with g | g | ⟨q, g⟩
        · exact Or.inl g
        · exact Or.inr (Or.inl g)
        · right; right
          refine ⟨q, ?_⟩
          have hqp : q ≠ p := by
            rintro rfl
            rcases g with g | g
            · rw [ht] at g; exact hnt (Option.some.inj g).symm
            · rw [g] at hf; simp [Writer.file] at hf
          rw [if_neg hqp]
          exact g
  · exact h.start
  · intro q t hq
    simp only [DumpFS.setWriter] at hq
    split at hq
    · exact absurd hq (hs3 t)
    · exact h.crashes q t hq

theorem dumpInv_reader {path : Str} {w0 w : DumpFS} {evs : List DumpEvent} (h : DumpInv path w0 evs w) {r : Nat}
    {s : Reader} (hs : ReaderInv path w0 evs w s) : DumpInv path w0 evs (w.setReader r s) := by
  have conv : ∀ s', ReaderInv path w0 evs w s' → ReaderInv path w0 evs (w.setReader r s) s' := by
    intro s'; cases s' <;> exact fun h => h
  have convw : ∀ s', WriterInv evs w s' → WriterInv evs (w.setReader r s) s' := by
    intro s'; cases s' <;> exact fun h => h
  refine ⟨h.bound, h.next, h.mine, h.tmps, h.only, h.uniq, fun p => convw _ (h.writers p), ?_, h.visible, h.old,
    h.others, h.left, h.start, h.crashes⟩
  intro q
  show ReaderInv path w0 evs _ (if q = r then s else w.readers q)
  split
  · exact conv _ hs
  · exact conv _ (h.readers q)

theorem dumpInv_step {path : Str} {w0 w : DumpFS} {evs : List DumpEvent} (h : DumpInv path w0 evs w)
    (e : DumpEvent) (he : e ∈ evs) : DumpInv path w0 evs (w.step path e) := by
  cases e with
  | start p suffix doc =>
    unfold DumpFS.step
    simp only
    split
    next hc =>
      obtain ⟨hs, hne, hnone⟩ := hc
      have hpf : (w.writers p).file = none ∧ (w.writers p).tmp = none ∧ ∀ t, w.writers p ≠ .crashed t := by
        revert hs
        cases w.writers p <;> simp [Writer.file, Writer.tmp, Writer.startable]
      have hpath : path ++ suffix ≠ path := by
        intro h
        exact hne (List.append_right_eq_self.1 h)
      have hw : ∀ q, (if q = p then Writer.writing (path ++ suffix) w.nextIno doc doc else w.writers q).file =
          if q = p then some w.nextIno else (w.writers q).file := by
        intro q; split <;> rfl
      have ht : ∀ q, (if q = p then Writer.writing (path ++ suffix) w.nextIno doc doc else w.writers q).tmp =
          if q = p then some (path ++ suffix) else (w.writers q).tmp := by
        intro q; split <;> rfl
      have hfb : ∀ q ino, (w.writers q).file = some ino → ino < w.nextIno := by
        intro q ino hq
        obtain ⟨-, tmp, -, -, g⟩ := h.mine q ino hq
        exact h.bound tmp ino g
      constructor
      · intro n ino hn
        simp only at hn
        split at hn
        · obtain rfl := Option.some.inj hn; exact Nat.lt_succ_self _
        · exact Nat.lt_succ_of_lt (h.bound n ino hn)
      · exact Nat.le_succ_of_le h.next
      · intro q ino hq
        simp only [DumpFS.setWriter] at hq ⊢
        rw [hw] at hq
        rw [ht]
        split at hq
        next hqp =>
          obtain rfl := Option.some.inj hq
          rw [if_pos hqp]
          exact ⟨h.next, _, rfl, hpath, by rw [if_pos rfl]⟩
        next hqp =>
          rw [if_neg hqp]
          obtain ⟨g1, tmp, g2, g3, g4⟩ := h.mine q ino hq
          refine ⟨g1, tmp, g2, g3, ?_⟩
          rw [if_neg (by rintro rfl; rw [hnone] at g4; simp at g4)]
          exact g4
      · intro q tmp hq
        simp only [DumpFS.setWriter] at hq ⊢
        rw [ht] at hq
        rw [hw]
        split at hq
        next hqp => rw [if_pos hqp]; exact ⟨_, rfl⟩
        next hqp => rw [if_neg hqp]; exact h.tmps q tmp hq
      · intro q n ino hq hn
        simp only [DumpFS.setWriter] at hq hn ⊢
        rw [hw] at hq
        rw [ht]
        split at hq
        next hqp =>
          obtain rfl := Option.some.inj hq
          rw [if_pos hqp]
          split at hn
          next hnn => rw [hnn]
          · exact absurd (h.bound n _ hn) (lt_irrefl _)
        next hqp =>
          rw [if_neg hqp]
          split at hn
          · obtain rfl := Option.some.inj hn
            exact absurd (hfb q _ hq) (lt_irrefl _)
          · exact h.only q n ino hq hn
      · intro q q' ino hq hq'
        simp only [DumpFS.setWriter] at hq hq'
        rw [hw] at hq hq'
        split at hq
        next hqp =>
          obtain rfl := Option.some.inj hq
          split at hq'
          next hqp' => rw [hqp, hqp']
          · exact absurd (hfb q' _ hq') (lt_irrefl _)
        · split at hq'
          · obtain rfl := Option.some.inj hq'
            exact absurd (hfb q _ hq) (lt_irrefl _)
          · exact h.uniq q q' ino hq hq'
      · intro q
        simp only [DumpFS.setWriter]
        split
        · exact ⟨by simp, p, suffix, he⟩
        · have hq := h.writers q
          have hb := hfb q
          generalize w.writers q = s at hq hb
          cases s with
          | writing tmp ino doc' rest =>
            have := hb ino rfl
            refine ⟨?_, hq.2⟩
            simp only
            rw [if_neg (by omega)]
            exact hq.1
          | written tmp ino doc' =>
            have := hb ino rfl
            refine ⟨?_, hq.2⟩
            simp only
            rw [if_neg (by omega)]
            exact hq.1
          | _ => trivial
      · intro r
        simp only [DumpFS.setWriter]
        have hr := h.readers r
        generalize w.readers r = s at hr
        cases s with
        | reading ino got =>
          obtain ⟨g1, g2, g3, g4⟩ := hr
          refine ⟨Nat.lt_succ_of_lt g1, ?_, ?_, ?_⟩
          · intro q hq
            simp only at hq
            rw [hw] at hq
            split at hq
            · obtain rfl := Option.some.inj hq; exact absurd g1 (lt_irrefl _)
            · exact g2 q hq
          · simp only; rw [if_neg (by omega)]; exact g3
          · simp only; rw [if_neg (by omega)]; exact g4
        | done got => exact hr
        | _ => trivial
      · intro ino hn
        simp only at hn ⊢
        rw [if_neg (Ne.symm hpath)] at hn
        have := h.bound path ino hn
        rw [if_neg (by omega)]
        exact h.visible ino hn
      · intro i hi
        simp only
        rw [if_neg (by have := h.next; omega)]
        exact h.old i hi
      · intro n ino hn hi
        simp only
        have := h.others n ino hn hi
        rw [if_neg (by rintro rfl; rw [hnone] at this; simp at this)]
        exact this
      · intro n ino hn
        simp only [DumpFS.setWriter] at hn ⊢
        split at hn
        next hnn =>
          right; right
          exact ⟨p, Or.inl (by rw [ht, if_pos rfl, hnn])⟩
        · rcases h.left n ino hn with g | g | ⟨q, g⟩
          · exact Or.inl g
          · exact Or.inr (Or.inl g)
          · right; right
            refine ⟨q, ?_⟩
            have hqp : q ≠ p := by
              rintro rfl
              rcases g with g | g
              · rw [hpf.2.1] at g; simp at g
              · exact hpf.2.2 _ g
            rw [if_neg hqp]
            exact g
      · exact h.start
      · intro q t hq
        simp only [DumpFS.setWriter] at hq
        split at hq
        · simp at hq
        · exact h.crashes q t hq
    · exact h
  | write p n =>
    unfold DumpFS.step
    simp only
    split
    next tmp ino doc rest hp =>
      have hi : DumpInv path w0 evs (w.setWriter p (.writing tmp ino doc rest)) := by
        apply dumpInv_writer h
        · exact Or.inl (by rw [hp]; exact ⟨rfl, rfl⟩)
        · have := h.writers p; rw [hp] at this; exact this
        · intro t ht; simp at ht
        · intro n hn; rw [hp] at hn; simp at hn
      have hpfile : (w.writers p).file = some ino := by rw [hp]; rfl
      obtain ⟨g1, tmp', g2, g3, g4⟩ := h.mine p ino hpfile
      have hfile : ∀ q, (if q = p then Writer.writing tmp ino doc (rest.drop n) else w.writers q).file =
          (w.writers q).file := by
        intro q; split
        next hq => rw [hq, hp]; rfl
        · rfl
      have htmp : ∀ q, (if q = p then Writer.writing tmp ino doc (rest.drop n) else w.writers q).tmp =
          (w.writers q).tmp := by
        intro q; split
        next hq => rw [hq, hp]; rfl
        · rfl
      constructor
      · exact h.bound
      · exact h.next
      · intro q i hq
        simp only [DumpFS.setWriter] at hq ⊢
        rw [hfile] at hq
        rw [htmp]
        exact h.mine q i hq
      · intro q t hq
        simp only [DumpFS.setWriter] at hq ⊢
        rw [htmp] at hq
        rw [hfile]
        exact h.tmps q t hq
      · intro q m i hq hm
        simp only [DumpFS.setWriter] at hq hm ⊢
        rw [hfile] at hq
        rw [htmp]
        exact h.only q m i hq hm
      · intro q q' i hq hq'
        simp only [DumpFS.setWriter] at hq hq'
        rw [hfile] at hq hq'
        exact h.uniq q q' i hq hq'
      · intro q
        simp only [DumpFS.setWriter]
        split
        next hqp =>
          have := h.writers p
          rw [hp] at this
          refine ⟨?_, this.2⟩
          simp only
          rw [if_pos trivial, List.append_assoc, List.take_append_drop]
          exact this.1
        next hqp =>
          have hq := h.writers q
          have hne : ∀ i, (w.writers q).file = some i → i ≠ ino := by
            rintro i hqi rfl
            exact hqp (h.uniq q p i hqi hpfile)
          generalize w.writers q = s at hq hne
          cases s with
          | writing t i d r =>
            refine ⟨?_, hq.2⟩
            simp only
            rw [if_neg (hne i rfl)]
            exact hq.1
          | written t i d =>
            refine ⟨?_, hq.2⟩
            simp only
            rw [if_neg (hne i rfl)]
            exact hq.1
          | _ => trivial
      · intro r
        simp only [DumpFS.setWriter]
        have hr := h.readers r
        generalize w.readers r = s at hr
        cases s with
        | reading i got =>
          obtain ⟨k1, k2, k3, k4⟩ := hr
          have hne : i ≠ ino := by rintro rfl; exact k2 p hpfile
          refine ⟨k1, ?_, ?_, ?_⟩
          · intro q hq
            simp only at hq
            rw [hfile] at hq
            exact k2 q hq
          · simp only; rw [if_neg hne]; exact k3
          · simp only; rw [if_neg hne]; exact k4
        | done got => exact hr
        | _ => trivial
      · intro i hi'
        simp only at hi' ⊢
        have hne : i ≠ ino := by
          rintro rfl
          have := h.only p path i hpfile hi'
          rw [g2] at this
          exact g3 (Option.some.inj this)
        rw [if_neg hne]
        exact h.visible i hi'
      · intro i hi'
        simp only
        rw [if_neg (by omega)]
        exact h.old i hi'
      · exact h.others
      · intro m i hm
        rcases h.left m i hm with g | g | ⟨q, g⟩
        · exact Or.inl g
        · exact Or.inr (Or.inl g)
        · right; right
          refine ⟨q, ?_⟩
          simp only [DumpFS.setWriter]
          rcases g with g | g
          · left; rw [htmp]; exact g
          · right
            rw [if_neg (by rintro rfl; rw [hp] at g; simp at g)]
            exact g
      · exact h.start
      · intro q t hq
        simp only [DumpFS.setWriter] at hq
        split at hq
        · simp at hq
        · exact h.crashes q t hq
    · exact h
  | close p =>
    unfold DumpFS.step
    simp only
    split
    next tmp ino doc hp =>
      apply dumpInv_writer h
      · exact Or.inl (by rw [hp]; exact ⟨rfl, rfl⟩)
      · have := h.writers p
        rw [hp] at this
        refine ⟨?_, this.2⟩
        have g := this.1
        rw [List.append_nil] at g
        exact g
      · intro t ht; simp at ht
      · intro n hn; rw [hp] at hn; simp at hn
    · exact h
  | fail p =>
    unfold DumpFS.step
    simp only
    split
    next tmp ino doc rest hp =>
      apply dumpInv_writer h
      · exact Or.inl (by rw [hp]; exact ⟨rfl, rfl⟩)
      · trivial
      · intro t ht; simp at ht
      · intro n hn; rw [hp] at hn; simp at hn
    · exact h
  | replaceFails p =>
    unfold DumpFS.step
    simp only
    split
    next tmp ino doc hp =>
      apply dumpInv_writer h
      · right
        refine ⟨rfl, rfl, fun n hn => ?_⟩
        rw [hp] at hn
        rw [Option.some.inj hn]
      · trivial
      · intro t _; exact Or.inr he
      · intro n hn; rw [hp] at hn; simp at hn
    · exact h
  | crash p =>
    unfold DumpFS.step
    simp only
    split
    · exact h
    next hnc =>
      apply dumpInv_writer h
      · right
        refine ⟨rfl, rfl, fun n hn => ?_⟩
        rw [hn]
      · trivial
      · intro t _; exact Or.inl he
      · intro n hn; exact absurd hn (hnc (some n))
  | unlink p =>
    unfold DumpFS.step
    simp only
    split
    next tmp ino hp =>
      have := dumpInv_release (s := .failed) (pub := false) h (by rw [hp]; rfl : (w.writers p).file = some ino)
        (by rw [hp]; rfl : (w.writers p).tmp = some tmp) rfl rfl (by simp) trivial (by simp)
      simpa using this
    · exact h
  | replace p =>
    unfold DumpFS.step
    simp only
    split
    next tmp ino doc hp =>
      have hw := h.writers p
      rw [hp] at hw
      have := dumpInv_release (s := .finished) (pub := true) h (by rw [hp]; rfl : (w.writers p).file = some ino)
        (by rw [hp]; rfl : (w.writers p).tmp = some tmp) rfl rfl (by simp) trivial
        (fun _ => Or.inr (by rw [hw.1]; exact hw.2))
      have hne : tmp ≠ path := by
        obtain ⟨-, t, t1, t2, -⟩ := h.mine p ino (by rw [hp]; rfl)
        rw [hp] at t1
        rw [Option.some.inj t1]; exact t2
      have hn : (fun n => if n = path then some ino else if n = tmp then none else w.names n) =
          fun n => if n = tmp then none else if true = true ∧ n = path then some ino else w.names n := by
        funext n
        by_cases h1 : n = path
        · subst h1
          rw [if_pos rfl, if_neg (Ne.symm hne), if_pos ⟨rfl, rfl⟩]
        · rw [if_neg h1]
          by_cases h2 : n = tmp
          · rw [if_pos h2, if_pos h2]
          · rw [if_neg h2, if_neg h2, if_neg (fun h => h1 h.2)]
      rw [hn]
      exact this
    · exact h
  | «open» r =>
    unfold DumpFS.step
    simp only
    split
    · exact h
    · split
      · exact dumpInv_reader h trivial
      next ino hi =>
        refine dumpInv_reader h ⟨h.bound path ino hi, ?_, h.visible ino hi, List.nil_prefix⟩
        intro p hp
        obtain ⟨-, tmp, t1, t2, -⟩ := h.mine p ino hp
        have := h.only p path ino hp hi
        rw [t1] at this
        exact t2 (Option.some.inj this)
  | read r n =>
    unfold DumpFS.step
    simp only
    split
    next ino got hr =>
      have := h.readers r
      rw [hr] at this
      obtain ⟨g1, g2, g3, g4⟩ := this
      refine dumpInv_reader h ⟨g1, g2, g3, ?_⟩
      obtain ⟨t, ht⟩ := g4
      rw [← ht, List.drop_left]
      exact (List.prefix_append_right_inj got).2 (List.take_prefix n t)
    · exact h
  | finish r =>
    unfold DumpFS.step
    simp only
    split
    next ino got hr =>
      split
      next hlen =>
        have := h.readers r
        rw [hr] at this
        obtain ⟨g1, g2, g3, g4⟩ := this
        refine dumpInv_reader h ?_
        rw [g4.eq_of_length_le hlen]
        exact g3
      · exact h
    · exact h

theorem dumpInv_run {path : Str} {w0 : DumpFS} {evs : List DumpEvent} (h : DumpStart w0) :
    ∀ pre post, evs = pre ++ post → DumpInv path w0 evs (w0.run path pre) := by
  intro pre
  induction pre using List.reverseRecOn with
  | nil => intro _ _; exact dumpInv_start h
  | append_singleton pre e ih =>
    intro post he
    have := ih (e :: post) (by rw [he]; simp)
    unfold DumpFS.run at this ⊢
    rw [List.foldl_append]
    exact dumpInv_step this e (by rw [he]; simp)

/-! ### C46 -/

/-- C46. Whatever the interleaving of processes saving and reading the file, and wherever any of them fails or crashes,
what is at the path is what was there at the start or one complete document which one process set out to write. -/
theorem dump_whole {path : Str} {w0 : DumpFS} {evs : List DumpEvent} (h : DumpStart w0) :
    ∀ text, (w0.run path evs).content path = some text → Whole path w0 evs text := by
  intro text ht
  have := dumpInv_run (path := path) (evs := evs) h evs [] (by simp)
  unfold DumpFS.content at ht
  cases hn : (w0.run path evs).names path with
  | none => rw [hn] at ht; simp at ht
  | some ino =>
    rw [hn] at ht
    obtain rfl := Option.some.inj ht
    exact this.visible ino hn

/-- C46. What a process gets by reading the file, in any number of pieces while others replace it, is what was there at the
start or one complete document. -/
theorem dump_read_whole {path : Str} {w0 : DumpFS} {evs : List DumpEvent} (h : DumpStart w0) {r : Nat} {text : Str}
    (hr : (w0.run path evs).readers r = .done text) : Whole path w0 evs text := by
  have := (dumpInv_run (path := path) (evs := evs) h evs [] (by simp)).readers r
  rw [hr] at this
  exact this

/-- The file at the path changes only when a process which has written its complete document puts it there, and then it
is that document. -/
theorem dump_step {path : Str} {w0 : DumpFS} {evs : List DumpEvent} (h : DumpStart w0) (e : DumpEvent) :
    (w0.run path (evs ++ [e])).content path = (w0.run path evs).content path ∨
    ∃ p tmp ino doc, e = .replace p ∧ (w0.run path evs).writers p = .written tmp ino doc ∧
      (w0.run path (evs ++ [e])).content path = some doc ∧ ∃ q suffix, .start q suffix doc ∈ evs := by
  have hi := dumpInv_run (path := path) (evs := evs) h evs [] (by simp)
  have hrun : w0.run path (evs ++ [e]) = (w0.run path evs).step path e := by
    unfold DumpFS.run; rw [List.foldl_append]; rfl
  rw [hrun]
  generalize w0.run path evs = w at hi
  cases e with
  | start p suffix doc =>
    left
    unfold DumpFS.step
    simp only
    split
    next hc =>
      have hpath : path ≠ path ++ suffix := fun h => hc.2.1 (List.append_right_eq_self.1 h.symm)
      unfold DumpFS.content
      simp only
      rw [if_neg hpath]
      cases hn : w.names path with
      | none => rfl
      | some ino =>
        have := hi.bound path ino hn
        simp only [Option.map_some]
        rw [if_neg (by omega)]
    · rfl
  | write p n =>
    left
    unfold DumpFS.step
    simp only
    split
    next tmp ino doc rest hp =>
      unfold DumpFS.content
      simp only [DumpFS.setWriter]
      cases hn : w.names path with
      | none => rfl
      | some i =>
        have hpf : (w.writers p).file = some ino := by rw [hp]; rfl
        obtain ⟨-, t, t1, t2, -⟩ := hi.mine p ino hpf
        have hne : i ≠ ino := by
          rintro rfl
          have := hi.only p path i hpf hn
          rw [t1] at this
          exact t2 (Option.some.inj this)
        simp only [Option.map_some]
        rw [if_neg hne]
    · rfl
  | close p => left; unfold DumpFS.step; simp only; split <;> rfl
  | fail p => left; unfold DumpFS.step; simp only; split <;> rfl
  | unlink p =>
    left
    unfold DumpFS.step
    simp only
    split
    next tmp ino hp =>
      have hne : path ≠ tmp := by
        obtain ⟨-, t, t1, t2, -⟩ := hi.mine p ino (by rw [hp]; rfl)
        rw [hp] at t1
        rw [Option.some.inj t1]; exact t2.symm
      unfold DumpFS.content
      simp only
      rw [if_neg hne]
      rfl
    · rfl
  | replace p =>
    cases hp : w.writers p with
    | written tmp ino doc =>
      right
      have := hi.writers p
      rw [hp] at this
      refine ⟨p, tmp, ino, doc, rfl, hp, ?_, this.2⟩
      unfold DumpFS.step DumpFS.content
      simp only
      rw [hp]
      simp only [if_true, Option.map_some]
      exact congrArg some this.1
    | _ => left; unfold DumpFS.step; simp only [hp]
  | replaceFails p => left; unfold DumpFS.step; simp only; split <;> rfl
  | crash p => left; unfold DumpFS.step; simp only; split <;> rfl
  | «open» r => left; unfold DumpFS.step; simp only; split <;> (try split) <;> rfl
  | read r n => left; unfold DumpFS.step; simp only; split <;> rfl
  | finish r => left; unfold DumpFS.step; simp only; split <;> (try split) <;> rfl

/-- An undisturbed call writes the document, in any number of pieces, puts it at the path, and leaves no temporary file. -/
theorem dump_succeeds {path suffix doc : Str} {w : DumpFS} {p : Nat} {pieces : List Nat} (hrest : AtRest (w.writers p))
    (hs : suffix ≠ []) (hn : w.names (path ++ suffix) = none) (hall : doc.length ≤ pieces.sum) :
    let w' := w.run path ([.start p suffix doc] ++ pieces.map (fun n => .write p n) ++ [.close p, .replace p])
    w'.content path = some doc ∧ w'.writers p = .finished ∧ w'.names (path ++ suffix) = none := by
  have hp : (w.writers p).startable = true := by rcases hrest with h | h | h <;> rw [h] <;> rfl
  have hstart : ∃ w1, w.run path [.start p suffix doc] = w1 ∧ w1.writers p = .writing (path ++ suffix) w.nextIno doc doc ∧
      w1.data w.nextIno = [] := by
    refine ⟨_, rfl, ?_, ?_⟩ <;> simp [DumpFS.run, DumpFS.step, hp, hs, hn, DumpFS.setWriter]
  obtain ⟨w1, e1, e2, e3⟩ := hstart
  have hpath : path ++ suffix ≠ path := fun h => hs (List.append_right_eq_self.1 h)
  have hwrite : ∀ (ps : List Nat) (w1 : DumpFS) (ino : Nat) (sofar rest : Str),
      w1.writers p = .writing (path ++ suffix) ino doc rest → w1.data ino = sofar → sofar ++ rest = doc →
      ∃ w2, w1.run path (ps.map (fun n => .write p n)) = w2 ∧
        w2.writers p = .writing (path ++ suffix) ino doc (rest.drop ps.sum) ∧
        w2.data ino = sofar ++ rest.take ps.sum := by
    intro ps
    induction ps with
    | nil => intro w1 ino sofar rest h1 h2 h3; exact ⟨w1, rfl, by simpa using h1, by simpa using h2⟩
    | cons n ps ih =>
      intro w1 ino sofar rest h1 h2 h3
      have hstep : ∃ w2, w1.step path (.write p n) = w2 ∧ w2.writers p = .writing (path ++ suffix) ino doc (rest.drop n) ∧
          w2.data ino = sofar ++ rest.take n := by
        refine ⟨_, rfl, ?_, ?_⟩ <;> simp [DumpFS.step, h1, h2, DumpFS.setWriter]
      obtain ⟨w2, g1, g2, g3⟩ := hstep
      obtain ⟨w3, k1, k2, k3⟩ := ih w2 ino _ _ g2 g3 (by rw [List.append_assoc, List.take_append_drop]; exact h3)
      refine ⟨w3, ?_, ?_, ?_⟩
      · rw [List.map_cons]; unfold DumpFS.run at k1 ⊢; rw [List.foldl_cons, g1]; exact k1
      · rw [k2, List.drop_drop, List.sum_cons]
      · rw [k3, List.append_assoc, ← List.take_add, List.sum_cons]
  obtain ⟨w2, f1, f2, f3⟩ := hwrite pieces w1 w.nextIno [] doc e2 e3 rfl
  rw [List.drop_of_length_le hall] at f2
  rw [List.take_of_length_le hall, List.nil_append] at f3
  have hrun : w.run path ([.start p suffix doc] ++ pieces.map (fun n => .write p n) ++ [.close p, .replace p]) =
      (w2.step path (.close p)).step path (.replace p) := by
    unfold DumpFS.run at e1 f1 ⊢
    rw [List.foldl_append, List.foldl_append, e1, f1]
    rfl
  rw [hrun]
  simp [DumpFS.step, f2, DumpFS.setWriter, DumpFS.content, f3, hpath]

/-- If there is a file at the path at the start, there always is one. -/
theorem dump_present {path : Str} {w0 : DumpFS} {evs : List DumpEvent} (h : DumpStart w0)
    (h0 : (w0.content path).isSome) : ((w0.run path evs).content path).isSome := by
  induction evs using List.reverseRecOn with
  | nil => exact h0
  | append_singleton evs e ih =>
    rcases dump_step (path := path) (evs := evs) h e with g | ⟨-, -, -, doc, -, -, g, -⟩
    · rw [g]; exact ih
    · rw [g]; rfl

/-- Other files of the directory are left alone. -/
theorem dump_others {path : Str} {w0 : DumpFS} {evs : List DumpEvent} (h : DumpStart w0) {name text : Str}
    (hn : name ≠ path) (ht : w0.content name = some text) : (w0.run path evs).content name = some text := by
  have hi := dumpInv_run (path := path) (evs := evs) h evs [] (by simp)
  unfold DumpFS.content at ht ⊢
  cases hm : w0.names name with
  | none => rw [hm] at ht; simp at ht
  | some ino =>
    rw [hm] at ht
    rw [hi.others name ino hn hm]
    simp only [Option.map_some] at ht ⊢
    rw [hi.old ino (h.2.2 name ino hm)]
    exact ht

/-- No temporary files remain when all processes are done, unless a process crashed or could not rename its file. -/
theorem dump_no_leftovers {path : Str} {w0 : DumpFS} {evs : List DumpEvent} (h : DumpStart w0)
    (hrest : ∀ p, AtRest ((w0.run path evs).writers p)) {name : Str} (hn : name ≠ path) :
    (w0.run path evs).names name = w0.names name := by
  have hdone : ∀ p, ((w0.run path evs).writers p).startable = true := by
    intro p; rcases hrest p with h | h | h <;> rw [h] <;> rfl
  have hi := dumpInv_run (path := path) (evs := evs) h evs [] (by simp)
  cases hm : (w0.run path evs).names name with
  | some ino =>
    rcases hi.left name ino hm with g | g | ⟨p, g⟩
    · exact absurd g hn
    · exact g.symm
    · have := hdone p
      rcases g with g | g
      · cases hw : (w0.run path evs).writers p <;> rw [hw] at g this <;> simp_all [Writer.tmp, Writer.startable]
      · rw [g] at this; simp [Writer.startable] at this
  | none =>
    cases h0 : w0.names name with
    | none => rfl
    | some ino => rw [hi.others name ino hn h0] at hm; simp at hm

/-- The other half of the exception: a process is left unable to start again only by a crash or a failure to rename. -/
theorem dump_crashed {path : Str} {w0 : DumpFS} {evs : List DumpEvent} (h : DumpStart w0) {p : Nat} {t : Option Str}
    (hp : (w0.run path evs).writers p = .crashed t) : .crash p ∈ evs ∨ .replaceFails p ∈ evs :=
  (dumpInv_run (path := path) (evs := evs) h evs [] (by simp)).crashes p t hp

/-- A directory holding an old cache file and a data file. -/
def exDump : DumpFS :=
  ⟨fun n => if n = ch! "m" then some 0 else if n = ch! "a.h5" then some 1 else none,
    fun i => if i = 0 then ch! "old" else ch! "data", 2, fun _ => .idle, fun _ => .idle⟩

example : DumpStart exDump := by
  refine ⟨fun _ => rfl, fun _ => rfl, ?_⟩
  intro n ino h
  simp only [exDump] at h ⊢
  split at h
  · obtain rfl := Option.some.inj h; decide
  · split at h
    · obtain rfl := Option.some.inj h; decide
    · simp at h

/-- Three processes write; a reader opens the old file and reads on while the first one replaces it; the second one
crashes half way; the third one fails. -/
def exDumpEvents : List DumpEvent :=
  [.start 0 (ch! "x") (ch! "first"), .start 1 (ch! "y") (ch! "second"), .start 2 (ch! "z") (ch! "third"), .write 0 3,
    .write 1 2, .open 0, .read 0 1, .close 0, .replace 0, .write 0 9, .fail 2, .close 0, .replace 0, .read 0 5, .finish 0,
    .crash 1, .open 1, .unlink 2, .read 1 10, .finish 1]

example : (exDump.run (ch! "m") exDumpEvents).content (ch! "m") = some (ch! "first") ∧
    (exDump.run (ch! "m") exDumpEvents).readers 0 = .done (ch! "old") ∧
    (exDump.run (ch! "m") exDumpEvents).readers 1 = .done (ch! "first") ∧
    (exDump.run (ch! "m") exDumpEvents).content (ch! "my") = some (ch! "se") ∧
    (exDump.run (ch! "m") exDumpEvents).content (ch! "mx") = none ∧
    (exDump.run (ch! "m") exDumpEvents).content (ch! "mz") = none :=
  ⟨by decide, by decide, by decide, by decide, by decide, by decide⟩

/-- A temporary file is left behind when renaming fails (run_files_map.py:30 is outside the `try`). -/
theorem dump_leftover_wrong : ((exDump.run (ch! "m") [.start 0 (ch! "x") (ch! "d"), .write 0 1, .close 0,
    .replaceFails 0]).content (ch! "mx")) = some (ch! "d") := by decide

end KD
