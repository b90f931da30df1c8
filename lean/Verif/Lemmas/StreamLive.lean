/- Invariants and progress of a streamer which is started once, and a measure of its progress. -/
import Verif.Spec.StreamLive
import Verif.Lemmas.Stream

set_option linter.unusedSimpArgs false

namespace KD

open Spec

variable {M : Type}

/-- Is the thread between receiving a request and sending the reply? -/
def Iface.inWork (t : Iface M) : Nat :=
  match t.pc with
  | .handle _ _ => 1
  | .get _ => 1
  | .send _ _ => 1
  | _ => 0

/-- Has the thread a train in its hands? -/
def Iface.sending (t : Iface M) : Nat :=
  match t.pc with
  | .send _ _ => 1
  | _ => 0

/-- How far the thread is. -/
def Iface.rank (t : Iface M) : Nat :=
  match t.pc with
  | .bind => 0
  | .check => 1
  | .recv => 2
  | .handle _ _ => 3
  | .get _ => 4
  | .send _ _ => 5
  | .closing => 6
  | .done => 7

/-- What holds as long as the streamer was started at most once, by the one who asks for trains only. -/
structure Streamer.Good (s : Streamer M) : Prop where
  one : s.ifaces.length ≤ 1
  next : ∀ x ∈ s.requests, x.2 = ch! "next"
  handled : ∀ t ∈ s.ifaces, ∀ c r, t.pc = .handle c r → r = ch! "next"
  asked : s.asked.length = s.requests.length + (s.ifaces.map Iface.inWork).sum + s.sent.length
  offered : s.offered.length = s.waiting.length + s.fed.length
  fed : s.fed.length = s.taken.length + s.buffer.length
  taken : s.taken.length = s.sent.length + (s.ifaces.map Iface.sending).sum
  out : ∀ t ∈ s.ifaces, t.pc ≠ .done → s.received.length + t.out.length = s.sent.length
  nothing : s.ifaces = [] → s.sent = [] ∧ s.received = []
  isOpen : ∀ t ∈ s.ifaces, t.stopped = false → t.pc ≠ .closing ∧ t.pc ≠ .done
  join : s.joining = true → s.current = some 0 ∧ ∀ t ∈ s.ifaces, t.stopped = true
  cur : ∀ t ∈ s.ifaces, t.stopped = false → s.current = some 0
  curSome : ∀ j, s.current = some j → j = 0 ∧ s.ifaces ≠ []

/-- The progress of the thread. -/
def Streamer.progress (s : Streamer M) : Nat := 10 * s.sent.length + (s.ifaces.map Iface.rank).sum

theorem Streamer.Good.new (maxlen : Int) : (Streamer.new M maxlen).Good := by
  constructor <;> simp [Streamer.new]

/-- The steps which are allowed. -/
def Allowed (s : Streamer M) (a : Act M) : Prop :=
  (a = .start → s.ifaces = []) ∧ (∀ c r, a = .request c r → r = ch! "next") ∧ ∀ i, a ≠ .lose i

theorem ifaces_cases {s : Streamer M} (h : s.ifaces.length ≤ 1) : s.ifaces = [] ∨ ∃ t, s.ifaces = [t] := by
  match hl : s.ifaces with
  | [] => exact Or.inl rfl
  | [t] => exact Or.inr ⟨t, rfl⟩
  | _ :: _ :: _ => rw [hl] at h; simp at h

theorem single {s : Streamer M} (h : s.ifaces.length ≤ 1) {j : Nat} {t : Iface M} (hj : s.ifaces[j]? = some t) :
    j = 0 ∧ s.ifaces = [t] := by
  rcases ifaces_cases h with e | ⟨u, e⟩
  · rw [e] at hj; simp at hj
  · rw [e] at hj
    cases j with
    | zero => simp at hj; exact ⟨rfl, by rw [e, hj]⟩
    | succ j => simp at hj

/-- The same for a streamer which was started. -/
structure Streamer.Good1 (s : Streamer M) (t : Iface M) : Prop where
  next : ∀ x ∈ s.requests, x.2 = ch! "next"
  handled : ∀ c r, t.pc = .handle c r → r = ch! "next"
  asked : s.asked.length = s.requests.length + t.inWork + s.sent.length
  offered : s.offered.length = s.waiting.length + s.fed.length
  fed : s.fed.length = s.taken.length + s.buffer.length
  taken : s.taken.length = s.sent.length + t.sending
  out : t.pc ≠ .done → s.received.length + t.out.length = s.sent.length
  isOpen : t.stopped = false → t.pc ≠ .closing ∧ t.pc ≠ .done
  join : s.joining = true → s.current = some 0 ∧ t.stopped = true
  cur : t.stopped = false → s.current = some 0
  curSome : ∀ j, s.current = some j → j = 0

theorem Streamer.Good1.good {s : Streamer M} {t : Iface M} (e : s.ifaces = [t]) (h : s.Good1 t) : s.Good := by
  have hm : ∀ u ∈ s.ifaces, u = t := by intro u hu; rw [e] at hu; exact List.mem_singleton.1 hu
  refine ⟨by simp [e], h.next, fun u hu => hm u hu ▸ h.handled, ?_, h.offered, h.fed, ?_, fun u hu => hm u hu ▸ h.out,
    fun e' => by rw [e] at e'; simp at e', fun u hu => hm u hu ▸ h.isOpen, fun hj => ⟨(h.join hj).1, fun u hu => hm u hu ▸ (h.join hj).2⟩,
    fun u hu => hm u hu ▸ h.cur, fun j hj => ⟨h.curSome j hj, by simp [e]⟩⟩
  · rw [e]; simpa using h.asked
  · rw [e]; simpa using h.taken

theorem Streamer.Good.good1 {s : Streamer M} {t : Iface M} (e : s.ifaces = [t]) (h : s.Good) : s.Good1 t := by
  have hm : t ∈ s.ifaces := by simp [e]
  refine ⟨h.next, h.handled t hm, ?_, h.offered, h.fed, ?_, h.out t hm, h.isOpen t hm, fun hj => ⟨(h.join hj).1, (h.join hj).2 t hm⟩,
    h.cur t hm, fun j hj => (h.curSome j hj).1⟩
  · have := h.asked; rw [e] at this; simpa using this
  · have := h.taken; rw [e] at this; simpa using this

theorem progress_single {s : Streamer M} {t : Iface M} (e : s.ifaces = [t]) : s.progress = 10 * s.sent.length + t.rank := by
  unfold Streamer.progress; rw [e]; simp

/-- A change of the thread alone. -/
theorem Streamer.Good1.change {s : Streamer M} {t u : Iface M} (h : s.Good1 t) (hd : t.pc ≠ .done) (hb : u.inWork = t.inWork)
    (hs : u.sending = t.sending) (hh : ∀ c r, u.pc ≠ .handle c r ∨ t.pc = .handle c r) (ho : u.pc ≠ .done → u.out = t.out)
    (hst : u.stopped = t.stopped) (hop : t.stopped = false → u.pc ≠ .closing ∧ u.pc ≠ .done) (l : List (Iface M)) :
    ({ s with ifaces := l } : Streamer M).Good1 u := by
  refine ⟨h.next, ?_, by rw [hb]; exact h.asked, h.offered, h.fed, by rw [hs]; exact h.taken, fun hu => by rw [ho hu]; exact h.out hd,
    fun hu => hop (hst ▸ hu), fun hj => ⟨(h.join hj).1, hst ▸ (h.join hj).2⟩, fun hu => h.cur (hst ▸ hu), h.curSome⟩
  intro c r e
  rcases hh c r with h1 | h1
  · exact absurd e h1
  · exact h.handled c r h1

/-- What a step of the thread does. -/
theorem Streamer.Good.thread {s s' : Streamer M} (h : s.Good) {t : Iface M} (ht : s.ifaces = [t])
    (hs : s.threadStep 0 t = some s') :
    s'.Good ∧ s.progress < s'.progress ∧ s'.maxlen = s.maxlen ∧ s'.asked = s.asked ∧ s'.offered = s.offered ∧ s'.fed = s.fed ∧
      s'.received = s.received ∧ s.sent.length ≤ s'.sent.length ∧ s'.ifaces ≠ [] := by
  have g := h.good1 ht
  have hp := progress_single ht
  have hset : ∀ u, s.ifaces.set 0 u = [u] := fun u => by rw [ht]; rfl
  unfold Streamer.threadStep at hs
  cases hpc : t.pc with
  | bind =>
    rw [hpc] at hs
    simp only at hs
    rw [if_neg (by rw [ht]; simp [Iface.active, hpc])] at hs
    obtain rfl := Option.some.inj hs
    unfold Streamer.setIface
    rw [hset]
    refine ⟨Streamer.Good1.good rfl (g.change ?_ ?_ ?_ ?_ ?_ ?_ ?_ _), ?_, rfl, rfl, rfl, rfl, rfl, le_refl _, by simp⟩
    · simp [hpc]
    · simp [Iface.inWork, hpc]
    · simp [Iface.sending, hpc]
    · simp
    · simp
    · rfl
    · simp
    · rw [hp, progress_single rfl]; simp [Iface.rank, hpc]
  | check =>
    rw [hpc] at hs
    simp only at hs
    obtain rfl := Option.some.inj hs
    unfold Streamer.setIface
    rw [hset]
    refine ⟨Streamer.Good1.good rfl (g.change ?_ ?_ ?_ ?_ ?_ ?_ ?_ _), ?_, rfl, rfl, rfl, rfl, rfl, le_refl _, by simp⟩
    · simp [hpc]
    · cases h' : t.stopped <;> simp [Iface.inWork, hpc]
    · cases h' : t.stopped <;> simp [Iface.sending, hpc]
    · cases h' : t.stopped <;> simp
    · simp
    · rfl
    · intro h'; simp [h']
    · rw [hp, progress_single rfl]; cases h' : t.stopped <;> simp [Iface.rank, hpc]
  | recv => rw [hpc] at hs; simp at hs
  | handle c r =>
    rw [hpc] at hs
    simp only at hs
    rw [if_neg (by simp [g.handled c r hpc])] at hs
    obtain rfl := Option.some.inj hs
    unfold Streamer.setIface
    rw [hset]
    refine ⟨Streamer.Good1.good rfl (g.change ?_ ?_ ?_ ?_ ?_ ?_ ?_ _), ?_, rfl, rfl, rfl, rfl, rfl, le_refl _, by simp⟩
    · simp [hpc]
    · simp [Iface.inWork, hpc]
    · simp [Iface.sending, hpc]
    · simp
    · simp
    · rfl
    · simp
    · rw [hp, progress_single rfl]; simp [Iface.rank, hpc]
  | get c =>
    rw [hpc] at hs
    simp only at hs
    cases hb : s.buffer with
    | nil => rw [hb] at hs; simp at hs
    | cons m rest =>
      rw [hb] at hs
      simp only at hs
      obtain rfl := Option.some.inj hs
      unfold Streamer.setIface
      rw [hset]
      have g1 := g.asked
      have g2 := g.fed
      have g3 := g.taken
      simp only [Iface.inWork, Iface.sending, hpc, hb, List.length_cons] at g1 g2 g3
      refine ⟨Streamer.Good1.good rfl ⟨g.next, by simp, ?_, g.offered, ?_, ?_, ?_, by simp, g.join, g.cur, g.curSome⟩, ?_, rfl, rfl, rfl,
        rfl, rfl, le_refl _, by simp⟩
      · simp only [Iface.inWork]; exact g1
      · simp only [List.length_append, List.length_cons, List.length_nil]; omega
      · simp only [Iface.sending, List.length_append, List.length_cons, List.length_nil]; omega
      · intro _; exact g.out (by simp [hpc])
      · rw [hp, progress_single rfl]; simp [Iface.rank, hpc]
  | send c m =>
    rw [hpc] at hs
    simp only at hs
    obtain rfl := Option.some.inj hs
    unfold Streamer.setIface
    rw [hset]
    have g1 := g.asked
    have g3 := g.taken
    have g4 := g.out (by simp [hpc])
    simp only [Iface.inWork, Iface.sending, hpc] at g1 g3
    refine ⟨Streamer.Good1.good rfl ⟨g.next, by simp, ?_, g.offered, g.fed, ?_, ?_, by simp, g.join, g.cur, g.curSome⟩, ?_, rfl, rfl, rfl,
      rfl, rfl, by simp, by simp⟩
    · simp only [Iface.inWork, List.length_append, List.length_cons, List.length_nil]; omega
    · simp only [Iface.sending, List.length_append, List.length_cons, List.length_nil]; omega
    · intro _; simp only [List.length_append, List.length_cons, List.length_nil]; omega
    · rw [hp, progress_single rfl]
      simp only [Iface.rank, hpc, List.length_append, List.length_cons, List.length_nil]; omega
  | closing =>
    rw [hpc] at hs
    simp only at hs
    obtain rfl := Option.some.inj hs
    have hst : t.stopped = true := by
      cases h' : t.stopped with
      | true => rfl
      | false => exact absurd hpc (g.isOpen h').1
    unfold Streamer.setIface
    rw [hset]
    refine ⟨Streamer.Good1.good rfl (g.change ?_ ?_ ?_ ?_ ?_ ?_ ?_ _), ?_, rfl, rfl, rfl, rfl, rfl, le_refl _, by simp⟩
    · simp [hpc]
    · simp [Iface.inWork, hpc]
    · simp [Iface.sending, hpc]
    · simp
    · simp
    · rfl
    · simp [hst]
    · rw [hp, progress_single rfl]; simp [Iface.rank, hpc]
  | done => rw [hpc] at hs; simp at hs

/-- What a step of the thread does when the stop event is set: it goes through the loop at most once more. -/
theorem thread_stopped {s s' : Streamer M} {t : Iface M} (ht : s.ifaces = [t]) (hst : t.stopped = true)
    (hs : s.threadStep 0 t = some s') :
    ∃ t', s'.ifaces = [t'] ∧ t'.stopped = true ∧
      ((s'.sent.length = s.sent.length ∧ (t.rank = 1 → t'.rank = 6) ∧ (t.rank = 6 → t'.rank = 7)) ∨
        (s'.sent.length = s.sent.length + 1 ∧ t.rank = 5 ∧ t'.rank = 1)) ∧
      s'.joining = s.joining ∧ s'.current = s.current := by
  have hset : ∀ u, s.ifaces.set 0 u = [u] := fun u => by rw [ht]; rfl
  unfold Streamer.threadStep at hs
  cases hpc : t.pc with
  | bind =>
    rw [hpc] at hs
    simp only at hs
    split at hs <;>
    · obtain rfl := Option.some.inj hs
      exact ⟨_, hset _, hst, Or.inl ⟨rfl, by simp [Iface.rank, hpc], by simp [Iface.rank, hpc]⟩, rfl, rfl⟩
  | check =>
    rw [hpc] at hs
    simp only at hs
    obtain rfl := Option.some.inj hs
    exact ⟨_, hset _, hst, Or.inl ⟨rfl, by simp [Iface.rank, hpc, hst], by simp [Iface.rank, hpc]⟩, rfl, rfl⟩
  | recv => rw [hpc] at hs; simp at hs
  | handle c r =>
    rw [hpc] at hs
    simp only at hs
    obtain rfl := Option.some.inj hs
    exact ⟨_, hset _, hst, Or.inl ⟨rfl, by simp [Iface.rank, hpc], by simp [Iface.rank, hpc]⟩, rfl, rfl⟩
  | get c =>
    rw [hpc] at hs
    simp only at hs
    split at hs
    · simp at hs
    · obtain rfl := Option.some.inj hs
      exact ⟨_, hset _, hst, Or.inl ⟨rfl, by simp [Iface.rank, hpc], by simp [Iface.rank, hpc]⟩, rfl, rfl⟩
  | send c m =>
    rw [hpc] at hs
    simp only at hs
    obtain rfl := Option.some.inj hs
    exact ⟨_, hset _, hst, Or.inr ⟨by simp, by simp [Iface.rank, hpc], rfl⟩, rfl, rfl⟩
  | closing =>
    rw [hpc] at hs
    simp only at hs
    obtain rfl := Option.some.inj hs
    exact ⟨_, hset _, hst, Or.inl ⟨rfl, by simp [Iface.rank, hpc], by simp [Iface.rank]⟩, rfl, rfl⟩
  | done => rw [hpc] at hs; simp at hs

theorem Iface.rank_le (t : Iface M) : t.rank ≤ 7 := by
  unfold Iface.rank; split <;> omega

theorem Streamer.Good.received_le {s : Streamer M} (h : s.Good) {t : Iface M} (ht : t ∈ s.ifaces) (hd : t.pc ≠ .done) :
    s.received.length ≤ s.sent.length := by
  have := h.out t ht hd; omega

/-- What never goes back. -/
structure Grows (s s' : Streamer M) : Prop where
  maxlen : s'.maxlen = s.maxlen
  asked : s.asked.length ≤ s'.asked.length
  offered : s.offered.length ≤ s'.offered.length
  fed : s.fed.length ≤ s'.fed.length
  received : s.received.length ≤ s'.received.length
  sent : s.sent.length ≤ s'.sent.length
  progress : s.progress ≤ s'.progress
  started : s.ifaces ≠ [] → s'.ifaces ≠ []

theorem Grows.refl (s : Streamer M) : Grows s s :=
  ⟨rfl, le_refl _, le_refl _, le_refl _, le_refl _, le_refl _, le_refl _, id⟩

theorem Grows.trans {a b c : Streamer M} (h : Grows a b) (g : Grows b c) : Grows a c :=
  ⟨g.maxlen.trans h.maxlen, h.asked.trans g.asked, h.offered.trans g.offered, h.fed.trans g.fed, h.received.trans g.received,
    h.sent.trans g.sent, h.progress.trans g.progress, fun x => g.started (h.started x)⟩

/-- A step which leaves the thread, or only the stop event or the replies in its socket change. -/
def KeepsThread (s s' : Streamer M) : Prop :=
  s'.sent = s.sent ∧ ∀ t, s.ifaces = [t] → ∃ t', s'.ifaces = [t'] ∧ t'.pc = t.pc ∧ (t.stopped = true → t'.stopped = true)

theorem KeepsThread.same {s s' : Streamer M} (h1 : s'.sent = s.sent) (h2 : s'.ifaces = s.ifaces) : KeepsThread s s' :=
  ⟨h1, fun t ht => ⟨t, h2.trans ht, rfl, id⟩⟩

variable [DecidableEq M]

omit [DecidableEq M] in
theorem progress_same {s s' : Streamer M} (h1 : s'.sent = s.sent) (h2 : s'.ifaces = s.ifaces) : s'.progress = s.progress := by
  unfold Streamer.progress; rw [h1, h2]

/-- Every step which is allowed keeps the invariants. -/
theorem Streamer.Good.step {s s' : Streamer M} (h : s.Good) {a : Act M} (ha : Allowed s a) (hs : s.step a = some s') :
    s'.Good ∧ Grows s s' ∧ ((∃ j, OfThread j a) → s.progress < s'.progress) ∧ (OfFeed a → s.fed.length < s'.fed.length) ∧
      (OfNetwork a → s.received.length < s'.received.length) ∧ ((∀ j, ¬ OfThread j a) → KeepsThread s s') := by
  have named : ∀ {j : Nat} {b : Act M}, OfThread j b → s.named j b = some s' →
      s'.Good ∧ Grows s s' ∧ ((∃ j, OfThread j b) → s.progress < s'.progress) ∧ (OfFeed b → s.fed.length < s'.fed.length) ∧
      (OfNetwork b → s.received.length < s'.received.length) ∧ ((∀ j, ¬ OfThread j b) → KeepsThread s s') := by
    intro j b hb hn
    obtain ⟨t, h1, -, h3⟩ := Streamer.named_ok hn
    obtain ⟨rfl, ht⟩ := single h.one h1
    obtain ⟨g1, g2, g3, g4, g5, g6, g7, g8, g9⟩ := h.thread ht h3
    refine ⟨g1, ⟨g3, by rw [g4], by rw [g5], by rw [g6], by rw [g7], g8, g2.le, fun _ => g9⟩, fun _ => g2, ?_, ?_, fun hn => absurd hb (hn 0)⟩
    · rintro ⟨i⟩; cases hb
    · rintro ⟨j, i⟩; cases hb
  have nt1 : ∀ (b : Act M), b = .start ∨ b = .stop ∨ b = .joined → (¬ ∃ j, OfThread j b) ∧ ¬ OfFeed b ∧ ¬ OfNetwork b := by
    rintro b (rfl | rfl | rfl) <;> exact ⟨fun ⟨j, hj⟩ => (by cases hj), fun hj => (by cases hj), fun hj => (by cases hj)⟩
  cases a with
  | start =>
    obtain ⟨n1, n2, n3⟩ := nt1 .start (by simp)
    have hnil := ha.1 rfl
    simp only [Streamer.step, Streamer.start] at hs
    split at hs
    · simp at hs
    · obtain rfl := Option.some.inj hs
      have hsn := h.nothing hnil
      have e1 := h.asked
      have e2 := h.taken
      rw [hnil] at e1 e2
      have e3 : s.received.length = s.sent.length := by rw [hsn.1, hsn.2]
      have hj : s.joining = false := by
        cases hj : s.joining with
        | false => rfl
        | true => rename_i hn; exact absurd hj hn
      have hg1 : ({ s with ifaces := s.ifaces ++ [⟨.bind, false, []⟩], current := some s.ifaces.length } : Streamer M).Good1 ⟨.bind, false, []⟩ := by
        refine ⟨h.next, by simp, ?_, h.offered, h.fed, ?_, ?_, by simp, ?_, ?_, ?_⟩
        · simpa [Iface.inWork] using e1
        · simpa [Iface.sending] using e2
        · intro _; simpa using e3
        · intro hx; simp only at hx; rw [hj] at hx; simp at hx
        · intro _; simp [hnil]
        · intro j hx; simp [hnil] at hx; omega
      refine ⟨hg1.good (by simp [hnil]), ⟨rfl, le_refl _, le_refl _, le_refl _, le_refl _, le_refl _, ?_, fun _ => by simp⟩,
        fun x => absurd x n1, fun x => absurd x n2, fun x => absurd x n3, fun _ => ⟨rfl, fun t ht => by rw [hnil] at ht; simp at ht⟩⟩
      unfold Streamer.progress
      simp [hnil, Iface.rank]
  | stop =>
    obtain ⟨n1, n2, n3⟩ := nt1 .stop (by simp)
    simp only [Streamer.step, Streamer.stop] at hs
    split at hs
    · simp at hs
    · split at hs
      · obtain rfl := Option.some.inj hs
        exact ⟨h, Grows.refl _, fun x => absurd x n1, fun x => absurd x n2, fun x => absurd x n3, fun _ => KeepsThread.same rfl rfl⟩
      · next j hcur =>
        split at hs
        · simp at hs
        · next t hj =>
          obtain ⟨rfl, ht⟩ := single h.one hj
          obtain rfl := Option.some.inj hs
          have g := h.good1 ht
          have hset : s.ifaces.set 0 { t with stopped := true } = [{ t with stopped := true }] := by rw [ht]; rfl
          unfold Streamer.setIface
          rw [hset]
          have hg1 : ({ s with ifaces := [{ t with stopped := true }], joining := true } : Streamer M).Good1 { t with stopped := true } :=
            ⟨g.next, g.handled, g.asked, g.offered, g.fed, g.taken, g.out, by simp, fun _ => ⟨hcur, rfl⟩, by simp, g.curSome⟩
          refine ⟨hg1.good rfl, ⟨rfl, le_refl _, le_refl _, le_refl _, le_refl _, le_refl _, ?_, fun _ => by simp⟩,
            fun x => absurd x n1, fun x => absurd x n2, fun x => absurd x n3, fun _ => ⟨rfl, fun u hu => ⟨_, rfl, ?_, fun _ => rfl⟩⟩⟩
          · rw [progress_single ht, progress_single rfl]; exact le_refl _
          · rw [ht] at hu; rw [List.cons.inj hu |>.1]
  | joined =>
    obtain ⟨n1, n2, n3⟩ := nt1 .joined (by simp)
    simp only [Streamer.step, Streamer.joined] at hs
    split at hs
    · next hj =>
      split at hs
      · simp at hs
      · next j hcur =>
        split at hs
        · simp at hs
        · next t hjt =>
          split at hs
          · next hpc =>
            obtain ⟨rfl, ht⟩ := single h.one hjt
            obtain rfl := Option.some.inj hs
            have g := h.good1 ht
            have hst := (g.join hj).2
            have hg1 : ({ s with joining := false, current := none } : Streamer M).Good1 t :=
              ⟨g.next, g.handled, g.asked, g.offered, g.fed, g.taken, g.out, g.isOpen, by simp, by simp [hst], by simp⟩
            exact ⟨hg1.good ht, ⟨rfl, le_refl _, le_refl _, le_refl _, le_refl _, le_refl _, le_refl _, id⟩, fun x => absurd x n1,
              fun x => absurd x n2, fun x => absurd x n3, fun _ => KeepsThread.same rfl rfl⟩
          · simp at hs
    · simp at hs
  | feed m =>
    obtain rfl := Option.some.inj hs
    refine ⟨⟨h.one, h.next, h.handled, h.asked, ?_, h.fed, h.taken, h.out, h.nothing, h.isOpen, h.join, h.cur, h.curSome⟩,
      ⟨rfl, le_refl _, by simp, le_refl _, le_refl _, le_refl _, le_refl _, id⟩, fun ⟨j, x⟩ => (by cases x), fun x => (by cases x),
      fun x => (by cases x), fun _ => KeepsThread.same rfl rfl⟩
    have := h.offered
    simp only [List.length_append, List.length_cons, List.length_nil]
    omega
  | put i =>
    simp only [Streamer.step, Streamer.put] at hs
    split at hs
    · simp at hs
    · next m hm =>
      split at hs
      · obtain rfl := Option.some.inj hs
        have hlt := (List.getElem?_eq_some_iff.1 hm).1
        have e1 := h.offered
        have e2 := h.fed
        refine ⟨⟨h.one, h.next, h.handled, h.asked, ?_, ?_, h.taken, h.out, h.nothing, h.isOpen, h.join, h.cur, h.curSome⟩,
          ⟨rfl, le_refl _, le_refl _, by simp, le_refl _, le_refl _, le_refl _, id⟩, fun ⟨j, x⟩ => (by cases x), fun x => by simp,
          fun x => (by cases x), fun _ => KeepsThread.same rfl rfl⟩
        · simp only [List.length_append, List.length_cons, List.length_nil, List.length_eraseIdx, hlt, if_true]; omega
        · simp only [List.length_append, List.length_cons, List.length_nil]; omega
      · simp at hs
  | request c r =>
    obtain rfl := Option.some.inj hs
    have hr := ha.2.1 c r rfl
    refine ⟨⟨h.one, ?_, h.handled, ?_, h.offered, h.fed, h.taken, h.out, h.nothing, h.isOpen, h.join, h.cur, h.curSome⟩,
      ⟨rfl, by simp, le_refl _, le_refl _, le_refl _, le_refl _, le_refl _, id⟩, fun ⟨j, x⟩ => (by cases x), fun x => (by cases x),
      fun x => (by cases x), fun _ => KeepsThread.same rfl rfl⟩
    · intro x hx
      rcases List.mem_append.1 hx with hx | hx
      · exact h.next x hx
      · rw [List.mem_singleton.1 hx]; exact hr
    · have := h.asked
      simp only [List.length_append, List.length_cons, List.length_nil]
      omega
  | lose i => exact absurd rfl (ha.2.2 i)
  | bind j => exact named .bind hs
  | check j => exact named .check hs
  | handle j => exact named .handle hs
  | get j => exact named .get hs
  | send j => exact named .send hs
  | close j => exact named .close hs
  | recv j i =>
    simp only [Streamer.step, Streamer.recv] at hs
    split at hs
    · next t c r hj hr =>
      split at hs
      · next hpc =>
        obtain ⟨rfl, ht⟩ := single h.one hj
        obtain rfl := Option.some.inj hs
        have g := h.good1 ht
        have hlt := (List.getElem?_eq_some_iff.1 hr).1
        have e1 := g.asked
        simp only [Iface.inWork, hpc] at e1
        have e2 := g.taken
        simp only [Iface.sending, hpc] at e2
        have hset : s.ifaces.set 0 { t with pc := .handle c r } = [{ t with pc := .handle c r }] := by rw [ht]; rfl
        unfold Streamer.setIface
        rw [hset]
        have hg1 : ({ s with ifaces := [{ t with pc := .handle c r }], requests := s.requests.eraseIdx i } : Streamer M).Good1
            { t with pc := .handle c r } := by
          refine ⟨fun x hx => g.next x (List.mem_of_mem_eraseIdx hx), ?_, ?_, g.offered, g.fed, ?_, fun _ => g.out (by simp [hpc]), by simp,
            g.join, g.cur, g.curSome⟩
          · intro c' r' e
            simp only [Pc.handle.injEq] at e
            rw [← e.2]
            exact g.next (c, r) (List.mem_of_getElem? hr)
          · simp only [Iface.inWork, List.length_eraseIdx, hlt, if_true]; omega
          · simp only [Iface.sending]; omega
        have hp : s.progress < ({ s with ifaces := [{ t with pc := .handle c r }], requests := s.requests.eraseIdx i } : Streamer M).progress := by
          rw [progress_single ht, progress_single rfl]; simp [Iface.rank, hpc]
        exact ⟨hg1.good rfl, ⟨rfl, le_refl _, le_refl _, le_refl _, le_refl _, le_refl _, hp.le, fun _ => by simp⟩, fun _ => hp,
          fun x => (by cases x), fun x => (by cases x), fun x => absurd (OfThread.recv i) (x 0)⟩
      · simp at hs
    · simp at hs
  | deliver j i =>
    simp only [Streamer.step, Streamer.deliver] at hs
    split at hs
    · simp at hs
    · next t hj =>
      split at hs
      · simp at hs
      · next x hx =>
        obtain ⟨rfl, ht⟩ := single h.one hj
        obtain rfl := Option.some.inj hs
        have g := h.good1 ht
        have hlt := (List.getElem?_eq_some_iff.1 hx).1
        have hset : s.ifaces.set 0 { t with out := t.out.eraseIdx i } = [{ t with out := t.out.eraseIdx i }] := by rw [ht]; rfl
        unfold Streamer.setIface
        rw [hset]
        have hg1 : ({ s with ifaces := [{ t with out := t.out.eraseIdx i }], received := s.received ++ [x] } : Streamer M).Good1
            { t with out := t.out.eraseIdx i } := by
          refine ⟨g.next, g.handled, g.asked, g.offered, g.fed, g.taken, ?_, g.isOpen, g.join, g.cur, g.curSome⟩
          intro hd
          have := g.out hd
          simp only [List.length_append, List.length_cons, List.length_nil, List.length_eraseIdx, hlt, if_true]
          omega
        refine ⟨hg1.good rfl, ⟨rfl, le_refl _, le_refl _, le_refl _, by simp, le_refl _, ?_, fun _ => by simp⟩, fun ⟨j, x⟩ => (by cases x),
          fun x => (by cases x), fun _ => by simp, fun _ => ⟨rfl, fun u hu => ⟨_, rfl, ?_, ?_⟩⟩⟩
        · rw [progress_single ht, progress_single rfl]; exact le_refl _
        · rw [ht] at hu; rw [List.cons.inj hu |>.1]
        · intro hu'; rw [ht] at hu; rw [← List.cons.inj hu |>.1] at hu'; exact hu'

end KD
