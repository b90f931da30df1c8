/- C121: in every fair execution requests are answered and `stop` returns. -/
import Verif.Lemmas.StreamLive
import Verif.Props.Stream

set_option linter.unusedSimpArgs false

namespace KD

open Spec

variable {M : Type} [DecidableEq M]

/-! ### Executions -/

/-- A number which grows but stays below a bound is constant from some moment on. -/
theorem settles {f : Nat → Nat} (hm : ∀ n, f n ≤ f (n + 1)) : ∀ (b : Nat), (∀ n, f n ≤ b) → ∀ n0, ∃ n, n0 ≤ n ∧ ∀ k, n ≤ k → f k = f n := by
  have mono : ∀ n k, n ≤ k → f n ≤ f k := fun n k h => monotone_nat_of_le_succ hm h
  have main : ∀ (d n0 : Nat) (b : Nat), (∀ n, f n ≤ b) → b - f n0 ≤ d → ∃ n, n0 ≤ n ∧ ∀ k, n ≤ k → f k = f n := by
    intro d
    induction d with
    | zero =>
      intro n0 b hb hd
      refine ⟨n0, le_refl _, fun k hk => ?_⟩
      have := mono n0 k hk
      have := hb k
      omega
    | succ d ih =>
      intro n0 b hb hd
      by_cases hc : ∀ k, n0 ≤ k → f k = f n0
      · exact ⟨n0, le_refl _, hc⟩
      · simp only [not_forall] at hc
        obtain ⟨k, hk, hne⟩ := hc
        have := mono n0 k hk
        have := hb k
        obtain ⟨n, hn, hn'⟩ := ih k b hb (by omega)
        exact ⟨n, hk.trans hn, hn'⟩
  intro b hb n0
  exact main _ n0 b hb (le_refl _)

variable {maxlen : Int} {state : Nat → Streamer M} {act : Nat → Option (Act M)}

theorem not_started (he : Execution maxlen state act) : ∀ n, (∀ m, m < n → act m ≠ some .start) → (state n).ifaces = []
  | 0, _ => by rw [he.init]; rfl
  | n + 1, hn => by
    have ih := not_started he n (fun m hm => hn m (by omega))
    cases ha : act n with
    | none => rw [he.idle n ha]; exact ih
    | some a =>
      have hs := he.next n a ha
      have hne : a ≠ .start := fun e => hn n (by omega) (by rw [ha, e])
      generalize state (n + 1) = s' at hs
      generalize state n = s at hs ih
      have named : ∀ {j : Nat} {b : Act M}, s.named j b = some s' → s'.ifaces = [] := by
        intro j b hn
        obtain ⟨t, h1, -, -⟩ := Streamer.named_ok hn
        rw [ih] at h1; simp at h1
      cases a with
      | start => exact absurd rfl hne
      | stop =>
        simp only [Streamer.step, Streamer.stop] at hs
        repeat' split at hs
        all_goals first
          | (simp at hs; done)
          | (obtain rfl := Option.some.inj hs; exact ih)
          | simp_all
      | joined =>
        simp only [Streamer.step, Streamer.joined] at hs
        repeat' split at hs
        all_goals first
          | (simp at hs; done)
          | (obtain rfl := Option.some.inj hs; exact ih)
      | feed m => obtain rfl := Option.some.inj hs; exact ih
      | put i =>
        simp only [Streamer.step, Streamer.put] at hs
        repeat' split at hs
        all_goals first
          | (simp at hs; done)
          | (obtain rfl := Option.some.inj hs; exact ih)
      | request c r => obtain rfl := Option.some.inj hs; exact ih
      | lose i =>
        simp only [Streamer.step] at hs
        split at hs
        · obtain rfl := Option.some.inj hs; exact ih
        · simp at hs
      | bind j => exact named hs
      | check j => exact named hs
      | handle j => exact named hs
      | get j => exact named hs
      | send j => exact named hs
      | close j => exact named hs
      | recv j i => simp [Streamer.step, Streamer.recv, ih] at hs
      | deliver j i => simp [Streamer.step, Streamer.deliver, ih] at hs

theorem allowed (he : Execution maxlen state act) (hu : ProperUse act) {n : Nat} {a : Act M} (ha : act n = some a) :
    Allowed (state n) a := by
  refine ⟨?_, ?_, ?_⟩
  · rintro rfl
    exact not_started he n (fun m hm h => by have := hu.once m n h ha; omega)
  · rintro c r rfl
    exact hu.next n c r ha
  · rintro i rfl
    exact hu.kept n i ha

theorem good_always (he : Execution maxlen state act) (hu : ProperUse act) : ∀ n, (state n).Good
  | 0 => by rw [he.init]; exact Streamer.Good.new maxlen
  | n + 1 => by
    have ih := good_always he hu n
    cases ha : act n with
    | none => rw [he.idle n ha]; exact ih
    | some a => exact (ih.step (allowed he hu ha) (he.next n a ha)).1

theorem grows_step (he : Execution maxlen state act) (hu : ProperUse act) (n : Nat) : Grows (state n) (state (n + 1)) := by
  cases ha : act n with
  | none => rw [he.idle n ha]; exact Grows.refl _
  | some a => exact ((good_always he hu n).step (allowed he hu ha) (he.next n a ha)).2.1

theorem grows (he : Execution maxlen state act) (hu : ProperUse act) {n k : Nat} (h : n ≤ k) : Grows (state n) (state k) := by
  induction k, h using Nat.le_induction with
  | base => exact Grows.refl _
  | succ k _ ih => exact ih.trans (grows_step he hu k)

theorem maxlen_always (he : Execution maxlen state act) (hu : ProperUse act) (n : Nat) : (state n).maxlen = maxlen := by
  rw [(grows he hu (Nat.zero_le n)).maxlen, he.init]; rfl

/-- From some moment on there is one interface. -/
theorem interface_exists (he : Execution maxlen state act) (hu : ProperUse act) : ∃ n, ∀ k, n ≤ k → ∃ t, (state k).ifaces = [t] := by
  obtain ⟨n, hn⟩ := hu.started
  have hs := he.next n _ hn
  have hne : (state (n + 1)).ifaces ≠ [] := by
    simp only [Streamer.step, Streamer.start] at hs
    split at hs
    · simp at hs
    · rw [← Option.some.inj hs]; simp
  refine ⟨n + 1, fun k hk => ?_⟩
  rcases ifaces_cases (good_always he hu k).one with e | h
  · exact absurd e ((grows he hu hk).started hne)
  · exact h

/-! ### What the thread can do -/

omit [DecidableEq M] in
theorem rank_eq {t u : Iface M} (h : t.rank = u.rank) (r : Nat) (ht : t.rank = r) : u.rank = r := h ▸ ht

/-- The thread can go on unless it waits for a request, waits for a train, or is finished. -/
theorem thread_enabled {s : Streamer M} {t : Iface M} (ht : s.ifaces = [t]) (h2 : t.rank = 2 → s.requests ≠ [])
    (h4 : t.rank = 4 → s.buffer ≠ []) (h7 : t.rank ≠ 7) : ∃ a, OfThread 0 a ∧ (s.step a).isSome = true := by
  have h0 : s.ifaces[0]? = some t := by rw [ht]; rfl
  cases hpc : t.pc with
  | bind =>
    refine ⟨.bind 0, .bind, ?_⟩
    simp only [Streamer.step, Streamer.named, h0, hpc, Pc.act, if_true, Streamer.threadStep]
    split <;> rfl
  | check =>
    refine ⟨.check 0, .check, ?_⟩
    simp only [Streamer.step, Streamer.named, h0, hpc, Pc.act, if_true, Streamer.threadStep]
    rfl
  | recv =>
    have hr := h2 (by simp [Iface.rank, hpc])
    cases hq : s.requests with
    | nil => exact absurd hq hr
    | cons x l =>
      refine ⟨.recv 0 0, .recv 0, ?_⟩
      simp only [Streamer.step, Streamer.recv, h0, hq, List.getElem?_cons_zero, hpc]
      rfl
  | handle c r =>
    refine ⟨.handle 0, .handle, ?_⟩
    simp only [Streamer.step, Streamer.named, h0, hpc, Pc.act, if_true, Streamer.threadStep]
    rfl
  | get c =>
    have hr := h4 (by simp [Iface.rank, hpc])
    cases hq : s.buffer with
    | nil => exact absurd hq hr
    | cons x l =>
      refine ⟨.get 0, .get, ?_⟩
      simp only [Streamer.step, Streamer.named, h0, hpc, Pc.act, if_true, Streamer.threadStep, hq]
      rfl
  | send c m =>
    refine ⟨.send 0, .send, ?_⟩
    simp only [Streamer.step, Streamer.named, h0, hpc, Pc.act, if_true, Streamer.threadStep]
    rfl
  | closing =>
    refine ⟨.close 0, .close, ?_⟩
    simp only [Streamer.step, Streamer.named, h0, hpc, Pc.act, if_true, Streamer.threadStep]
    rfl
  | done => exact absurd (by simp [Iface.rank, hpc]) h7

/-- If the progress of the thread is bounded, it comes to rest: waiting for a request which never comes, waiting for a train
which never comes, or finished. -/
theorem comes_to_rest (he : Execution maxlen state act) (hu : ProperUse act) (hf : NobodyStarves state act) {b : Nat}
    (hb : ∀ n, (state n).progress ≤ b) (n0 : Nat) : ∃ n t, n0 ≤ n ∧ (state n).ifaces = [t] ∧
      (∀ k, n ≤ k → ∃ u, (state k).ifaces = [u] ∧ u.rank = t.rank ∧ (state k).sent.length = (state n).sent.length) ∧
      ((t.rank = 2 ∧ ∀ k, n ≤ k → (state k).asked.length = (state n).sent.length) ∨
       (t.rank = 4 ∧ ∀ k, n ≤ k → (state k).offered.length = (state n).sent.length) ∨ t.rank = 7) := by
  obtain ⟨n1, hn1⟩ := interface_exists he hu
  obtain ⟨n, hn, hc⟩ := settles (fun k => (grows_step he hu k).progress) b hb (max n0 n1)
  have hn0 : n0 ≤ n := (le_max_left _ _).trans hn
  replace hn : n1 ≤ n := (le_max_right _ _).trans hn
  obtain ⟨t, ht⟩ := hn1 n hn
  -- the thread stays where it is
  have hstay : ∀ k, n ≤ k → ∃ u, (state k).ifaces = [u] ∧ u.rank = t.rank ∧ (state k).sent.length = (state n).sent.length := by
    intro k hk
    obtain ⟨u, hu'⟩ := hn1 k (hn.trans hk)
    have e := hc k hk
    simp only [progress_single hu', progress_single ht] at e
    have := u.rank_le
    have := t.rank_le
    exact ⟨u, hu', by omega, by omega⟩
  -- no step of the thread happens any more
  have hno : ∀ k a, n ≤ k → act k = some a → ¬ OfThread 0 a := by
    intro k a hk ha ho
    have h1 := ((good_always he hu k).step (allowed he hu ha) (he.next k a ha)).2.2.1 ⟨0, ho⟩
    have := hc k hk
    have := hc (k + 1) (by omega)
    omega
  -- so it is not possible all the time
  have hdis : ∀ m, n ≤ m → ∃ k, m ≤ k ∧ ¬ ∃ a, OfThread 0 a ∧ ((state k).step a).isSome = true := by
    intro m hm
    by_contra hcon
    simp only [not_exists, not_and] at hcon
    have : ∀ k, m ≤ k → ∃ a, OfThread 0 a ∧ ((state k).step a).isSome = true := by
      intro k hk
      by_contra hx
      refine hcon k hk ?_
      rintro a h1 h2
      exact hx ⟨a, h1, h2⟩
    obtain ⟨k, a, hk, ha, ho⟩ := hf.thread 0 m this
    exact hno k a (hm.trans hk) ha ho
  refine ⟨n, t, hn0, ht, hstay, ?_⟩
  by_cases h7 : t.rank = 7
  · exact Or.inr (Or.inr h7)
  by_cases h2 : t.rank = 2
  · left
    refine ⟨h2, ?_⟩
    by_contra hcon
    simp only [not_forall] at hcon
    obtain ⟨k0, hk0, hne⟩ := hcon
    -- from k0 on there is a request
    have hreq : ∀ k, k0 ≤ k → (state k).requests ≠ [] := by
      intro k hk hnil
      obtain ⟨u, hu1, hu2, hu3⟩ := hstay k (hk0.trans hk)
      obtain ⟨v, hv1, hv2, hv3⟩ := hstay k0 hk0
      have g1 := ((good_always he hu k).good1 hu1).asked
      have g0 := ((good_always he hu k0).good1 hv1).asked
      have hbu : u.inWork = 0 := by
        rw [h2] at hu2; unfold Iface.rank at hu2; unfold Iface.inWork
        cases hp : u.pc <;> simp_all
      rw [hnil, hbu] at g1
      simp only [List.length_nil] at g1
      have := (grows he hu hk).asked
      omega
    obtain ⟨k, hk, hx⟩ := hdis k0 hk0
    obtain ⟨u, hu1, hu2, -⟩ := hstay k (hk0.trans hk)
    exact hx (thread_enabled hu1 (fun _ => hreq k hk) (fun h => by omega) (by omega))
  by_cases h4 : t.rank = 4
  · right; left
    refine ⟨h4, ?_⟩
    by_contra hcon
    simp only [not_forall] at hcon
    obtain ⟨k0, hk0, hne⟩ := hcon
    have hfacts : ∀ k, n ≤ k → (state k).taken.length = (state n).sent.length := by
      intro k hk
      obtain ⟨u, hu1, hu2, hu3⟩ := hstay k hk
      have g := ((good_always he hu k).good1 hu1).taken
      have hbu : u.sending = 0 := by
        rw [h4] at hu2; unfold Iface.rank at hu2; unfold Iface.sending
        cases hp : u.pc <;> simp_all
      omega
    -- nothing is in the buffer at any time
    have hbuf : ∀ k, n ≤ k → (state k).buffer = [] := by
      intro k hk
      by_contra hbk
      have hlater : ∀ k', k ≤ k' → (state k').buffer ≠ [] := by
        intro k' hk' hnil
        have f1 := (good_always he hu k).fed
        have f2 := (good_always he hu k').fed
        have f3 := (grows he hu hk').fed
        have t1 := hfacts k hk
        have t2 := hfacts k' (hk.trans hk')
        rw [hnil] at f2
        have : 0 < (state k).buffer.length := List.length_pos_iff.2 hbk
        simp only [List.length_nil] at f2
        omega
      obtain ⟨k', hk', hx⟩ := hdis k hk
      obtain ⟨u, hu1, hu2, -⟩ := hstay k' (hk.trans hk')
      exact hx (thread_enabled hu1 (fun h => by omega) (fun _ => hlater k' hk') (by omega))
    -- a call of feed waits although there is room
    have hput : ∀ k, k0 ≤ k → ∃ a, OfFeed a ∧ ((state k).step a).isSome = true := by
      intro k hk
      have f1 := (good_always he hu k).fed
      have f2 := (good_always he hu k).offered
      have f3 := (grows he hu hk).offered
      have b1 := hbuf k (hk0.trans hk)
      have t1 := hfacts k (hk0.trans hk)
      have g1 := (good_always he hu k0).fed
      have g2 := (good_always he hu k0).offered
      have b2 := hbuf k0 hk0
      have t2 := hfacts k0 hk0
      rw [b1] at f1
      rw [b2] at g1
      simp only [List.length_nil] at f1 g1
      cases hw : (state k).waiting with
      | nil => rw [hw] at f2; simp only [List.length_nil] at f2; omega
      | cons m rest =>
        refine ⟨.put 0, .put 0, ?_⟩
        have hroom : (state k).room = true := by
          unfold Streamer.room
          rw [b1]
          simp only [List.length_nil, Bool.or_eq_true, decide_eq_true_eq]
          omega
        simp only [Streamer.step, Streamer.put, hw, List.getElem?_cons_zero, hroom, if_true]
        rfl
    obtain ⟨k, a, hk, ha, ho⟩ := hf.feed k0 hput
    have h1 := ((good_always he hu k).step (allowed he hu ha) (he.next k a ha)).2.2.2.1 ho
    have f1 := (good_always he hu k).fed
    have f2 := (good_always he hu (k + 1)).fed
    rw [hbuf k (hk0.trans hk)] at f1
    rw [hbuf (k + 1) (by omega)] at f2
    have t1 := hfacts k (hk0.trans hk)
    have t2 := hfacts (k + 1) (by omega)
    simp only [List.length_nil] at f1 f2
    omega
  · exfalso
    obtain ⟨k, hk, hx⟩ := hdis n (le_refl _)
    obtain ⟨u, hu1, hu2, -⟩ := hstay k hk
    exact hx (thread_enabled hu1 (fun h => by omega) (fun h => by omega) (by omega))

/-- Only `stop` sets the stop event. -/
theorem stays_open {s s' : Streamer M} {a : Act M} (ha : a ≠ .stop) (hs : s.step a = some s')
    (h : ∀ t ∈ s.ifaces, t.stopped = false) : ∀ t ∈ s'.ifaces, t.stopped = false := by
  have hset : ∀ {j : Nat} {u t : Iface M}, u.stopped = false → t ∈ s.ifaces.set j u → t.stopped = false := by
    intro j u t hu ht
    rcases List.mem_or_eq_of_mem_set ht with h1 | rfl
    · exact h t h1
    · exact hu
  have named : ∀ {j : Nat} {b : Act M}, s.named j b = some s' → ∀ t ∈ s'.ifaces, t.stopped = false := by
    intro j b hn
    obtain ⟨t, h1, -, h3⟩ := Streamer.named_ok hn
    have h4 := h t (List.mem_of_getElem? h1)
    unfold Streamer.threadStep Streamer.setIface at h3
    repeat' split at h3
    all_goals first
      | (simp at h3; done)
      | (obtain rfl := Option.some.inj h3; exact fun x hx => hset (by exact h4) hx)
  cases a with
  | stop => exact absurd rfl ha
  | start =>
    simp only [Streamer.step, Streamer.start] at hs
    split at hs
    · simp at hs
    · obtain rfl := Option.some.inj hs
      intro t ht
      rcases List.mem_append.1 ht with h1 | h1
      · exact h t h1
      · rw [List.mem_singleton.1 h1]
  | joined =>
    simp only [Streamer.step, Streamer.joined] at hs
    repeat' split at hs
    all_goals first
      | (simp at hs; done)
      | (obtain rfl := Option.some.inj hs; exact h)
  | feed m => obtain rfl := Option.some.inj hs; exact h
  | put i =>
    simp only [Streamer.step, Streamer.put] at hs
    repeat' split at hs
    all_goals first
      | (simp at hs; done)
      | (obtain rfl := Option.some.inj hs; exact h)
  | request c r => obtain rfl := Option.some.inj hs; exact h
  | lose i =>
    simp only [Streamer.step] at hs
    split at hs
    · obtain rfl := Option.some.inj hs; exact h
    · simp at hs
  | bind j => exact named hs
  | check j => exact named hs
  | handle j => exact named hs
  | get j => exact named hs
  | send j => exact named hs
  | close j => exact named hs
  | recv j i =>
    simp only [Streamer.step, Streamer.recv] at hs
    split at hs
    · rename_i t c r h1 h2
      split at hs
      · obtain rfl := Option.some.inj hs
        exact fun x hx => hset (by exact h t (List.mem_of_getElem? h1)) hx
      · simp at hs
    · simp at hs
  | deliver j i =>
    simp only [Streamer.step, Streamer.deliver] at hs
    split at hs
    · simp at hs
    · rename_i t h1
      split at hs
      · simp at hs
      · obtain rfl := Option.some.inj hs
        exact fun x hx => hset (by exact h t (List.mem_of_getElem? h1)) hx

theorem always_open (he : Execution maxlen state act) (hns : ∀ n, act n ≠ some .stop) :
    ∀ i, ∀ t ∈ (state i).ifaces, t.stopped = false
  | 0 => by intro t ht; rw [he.init] at ht; simp [Streamer.new] at ht
  | i + 1 => by
    have ih := always_open he hns i
    cases ha : act i with
    | none => rw [he.idle i ha]; exact ih
    | some a => exact stays_open (fun e => hns i (by rw [ha, e])) (he.next i a ha) ih

omit [DecidableEq M] in
theorem rank_done {t : Iface M} (h : t.rank = 7) : t.pc = .done := by
  unfold Iface.rank at h
  cases hp : t.pc <;> rw [hp] at h <;> simp at h ⊢

/-- The state at each moment is that after the steps so far. -/
theorem execution_run (he : Execution maxlen state act) (n : Nat) :
    (Streamer.new M maxlen).run ((List.range n).filterMap act) = some (state n) := by
  induction n with
  | zero => simp [Streamer.run, he.init]
  | succ n ih =>
    rw [List.range_succ, List.filterMap_append, Streamer.run_append ih]
    cases ha : act n with
    | none => simp [ha, Streamer.run, he.idle n ha]
    | some a => simp [ha, Streamer.run, he.next n a ha]

/-! ### C121 -/

/-- The replies are sent, if no one calls `stop`. -/
theorem replies_sent (he : Execution maxlen state act) (hu : ProperUse act) (hf : NobodyStarves state act)
    (hns : ∀ n, act n ≠ some .stop) {n k m : Nat} (hk : n ≤ (state k).asked.length) (hm : n ≤ (state m).offered.length) :
    ∃ l, n ≤ (state l).sent.length := by
  by_contra hcon
  simp only [not_exists, not_le] at hcon
  have hb : ∀ i, (state i).progress ≤ 10 * n + 7 := by
    intro i
    have h1 := hcon i
    rcases ifaces_cases (good_always he hu i).one with e | ⟨t, e⟩
    · unfold Streamer.progress; rw [e]; simp; omega
    · rw [progress_single e]; have := t.rank_le; omega
  obtain ⟨i, t, hi0, ht, hstay, h⟩ := comes_to_rest he hu hf hb (max k m)
  rcases h with ⟨-, h⟩ | ⟨-, h⟩ | h
  · have h1 := h i (le_refl _)
    have h2 := (grows he hu ((le_max_left k m).trans hi0)).asked
    have h3 := hcon i
    omega
  · have h1 := h i (le_refl _)
    have h2 := (grows he hu ((le_max_right k m).trans hi0)).offered
    have h3 := hcon i
    omega
  · have hmem : t ∈ (state i).ifaces := by simp [ht]
    exact ((good_always he hu i).isOpen t hmem (always_open he hns i t hmem)).2 (rank_done h)

/-- C121. As long as `stop` is not called, every request is answered once a train was fed for it: if n requests were made and
`feed` was called for n trains, then at some moment n replies have reached the clients; they are trains which were fed. -/
theorem requests_answered (he : Execution maxlen state act) (hu : ProperUse act) (hf : NobodyStarves state act)
    (hns : ∀ n, act n ≠ some .stop) {n k m : Nat} (hk : n ≤ (state k).asked.length) (hm : n ≤ (state m).offered.length) :
    ∃ l, n ≤ (state l).received.length ∧ List.Subperm (state l).received (state l).sent ∧
      InOrder (state l).sent (state l).fed := by
  obtain ⟨l, hl⟩ := replies_sent he hu hf hns hk hm
  by_cases hcon : ∃ i, n ≤ (state i).received.length
  · obtain ⟨i, hi⟩ := hcon
    obtain ⟨h1, -, h3⟩ := stream_order (execution_run he i)
    exact ⟨i, hi, h3, h1⟩
  exfalso
  simp only [not_exists, not_le] at hcon
  obtain ⟨i, hi, hc⟩ := settles (fun k => (grows_step he hu k).received) n (fun i => (hcon i).le) l
  have hen : ∀ k, i ≤ k → ∃ a, OfNetwork a ∧ ((state k).step a).isSome = true := by
    intro k hk
    have h1 := (grows he hu (hi.trans hk)).sent
    have h2 := hcon k
    rcases ifaces_cases (good_always he hu k).one with e | ⟨t, e⟩
    · have := ((good_always he hu k).nothing e).1
      rw [this] at h1
      simp only [List.length_nil] at h1
      omega
    · have hmem : t ∈ (state k).ifaces := by simp [e]
      have hd := ((good_always he hu k).isOpen t hmem (always_open he hns k t hmem)).2
      have h3 := (good_always he hu k).out t hmem hd
      cases ho : t.out with
      | nil => rw [ho] at h3; simp only [List.length_nil] at h3; omega
      | cons x rest =>
        refine ⟨.deliver 0 0, .deliver 0 0, ?_⟩
        simp only [Streamer.step, Streamer.deliver, e, List.getElem?_cons_zero, ho]
        rfl
  obtain ⟨k, a, hk, ha, ho⟩ := hf.network i hen
  have h1 := ((good_always he hu k).step (allowed he hu ha) (he.next k a ha)).2.2.2.2.1 ho
  have h2 := hc k hk
  have h3 := hc (k + 1) (by omega)
  omega

/-- C121. Every call of `feed` returns once enough trains were asked for: if `feed` was called n times, and there is no
maximum or all but `maxlen` of these trains were asked for, then at some moment n calls have returned. -/
theorem feed_returns (he : Execution maxlen state act) (hu : ProperUse act) (hf : NobodyStarves state act)
    (hns : ∀ n, act n ≠ some .stop) {n k m : Nat} (hm : n ≤ (state m).offered.length)
    (hk : maxlen ≤ 0 ∨ (n : Int) ≤ (state k).asked.length + maxlen) : ∃ l, n ≤ (state l).fed.length := by
  by_contra hcon
  simp only [not_exists, not_le] at hcon
  obtain ⟨i, hi, hc⟩ := settles (fun k => (grows_step he hu k).fed) n (fun i => (hcon i).le) m
  have hsent : maxlen ≤ 0 ∨ ∃ l, (((state i).fed.length : Int) + 1 - maxlen ≤ (state l).sent.length) := by
    rcases hk with h | h
    · exact Or.inl h
    · by_cases h0 : maxlen ≤ 0
      · exact Or.inl h0
      · right
        have hi' := hcon i
        obtain ⟨l, hl⟩ := replies_sent he hu hf hns (n := ((state i).fed.length + 1) - maxlen.toNat) (k := k) (m := m)
          (by omega) (by omega)
        exact ⟨l, by omega⟩
  have hroom : ∃ l, i ≤ l ∧ ∀ k, l ≤ k → (state k).room = true := by
    rcases hsent with h | ⟨l, hl⟩
    · refine ⟨i, le_refl _, fun k _ => ?_⟩
      unfold Streamer.room
      rw [maxlen_always he hu]
      simp [h]
    · refine ⟨max i l, le_max_left _ _, fun k hk => ?_⟩
      have h1 := (good_always he hu k).fed
      have h2 := (good_always he hu k).taken
      have h3 := (grows he hu ((le_max_right i l).trans hk)).sent
      have h4 := hc k ((le_max_left i l).trans hk)
      unfold Streamer.room
      rw [maxlen_always he hu]
      simp only [Bool.or_eq_true, decide_eq_true_eq]
      right
      omega
  obtain ⟨l, hil, hl⟩ := hroom
  have hen : ∀ k, l ≤ k → ∃ a, OfFeed a ∧ ((state k).step a).isSome = true := by
    intro k hk
    have h1 := (good_always he hu k).offered
    have h2 := hcon k
    have h3 := (grows he hu (hi.trans (hil.trans hk))).offered
    cases hw : (state k).waiting with
    | nil => rw [hw] at h1; simp only [List.length_nil] at h1; omega
    | cons x rest =>
      refine ⟨.put 0, .put 0, ?_⟩
      simp only [Streamer.step, Streamer.put, hw, List.getElem?_cons_zero, hl k hk, if_true]
      rfl
  obtain ⟨k, a, hk, ha, ho⟩ := hf.feed l hen
  have h1 := ((good_always he hu k).step (allowed he hu ha) (he.next k a ha)).2.2.2.1 ho
  have h2 := hc k (hil.trans hk)
  have h3 := hc (k + 1) (by omega)
  omega

/-- What holds while `stop` waits: at most one more reply is sent. -/
def Stopping (N : Nat) (s : Streamer M) : Prop :=
  ∃ t, s.ifaces = [t] ∧ t.stopped = true ∧
    (s.sent.length = N ∨ (s.sent.length = N + 1 ∧ (t.rank = 1 ∨ t.rank = 6 ∨ t.rank = 7)))

omit [DecidableEq M] in
theorem rank_of_pc {t u : Iface M} (h : t.pc = u.pc) : t.rank = u.rank := by unfold Iface.rank; rw [h]

theorem stopping_step (he : Execution maxlen state act) (hu : ProperUse act) {N n : Nat} (h : Stopping N (state n)) :
    Stopping N (state (n + 1)) := by
  cases ha : act n with
  | none => rw [he.idle n ha]; exact h
  | some a =>
    obtain ⟨t, ht, hst, hN⟩ := h
    have hs := he.next n a ha
    by_cases ho : ∃ j, OfThread j a
    · have fin : ∀ {s' : Streamer M}, (∃ t', s'.ifaces = [t'] ∧ t'.stopped = true ∧
          (((s'.sent.length = (state n).sent.length ∧ (t.rank = 1 → t'.rank = 6) ∧ (t.rank = 6 → t'.rank = 7)) ∧ t.rank ≠ 7) ∨
          (s'.sent.length = (state n).sent.length + 1 ∧ t.rank = 5 ∧ t'.rank = 1))) → Stopping N s' := by
        rintro s' ⟨t', h1, h2, h3⟩
        refine ⟨t', h1, h2, ?_⟩
        rcases h3 with ⟨⟨h3, h4, h5⟩, h6⟩ | ⟨h3, h4, h5⟩
        · rcases hN with h | ⟨h, h' | h' | h'⟩
          · left; omega
          · right; exact ⟨by omega, Or.inr (Or.inl (h4 h'))⟩
          · right; exact ⟨by omega, Or.inr (Or.inr (h5 h'))⟩
          · exact absurd h' h6
        · rcases hN with h | ⟨h, h'⟩
          · right; exact ⟨by omega, Or.inl h5⟩
          · omega
      have named : ∀ {j : Nat} {b : Act M} {s' : Streamer M}, (state n).named j b = some s' → Stopping N s' := by
        intro j b s' hn
        obtain ⟨u, h1, -, h3⟩ := Streamer.named_ok hn
        obtain ⟨rfl, hu1⟩ := single (good_always he hu n).one h1
        obtain rfl : u = t := by rw [ht] at hu1; simpa using hu1.symm
        obtain ⟨t', g1, g2, g3, -, -⟩ := thread_stopped ht hst h3
        refine fin ⟨t', g1, g2, ?_⟩
        rcases g3 with g | g
        · refine Or.inl ⟨g, fun e => ?_⟩
          unfold Streamer.threadStep at h3
          rw [rank_done e] at h3
          simp at h3
        · exact Or.inr g
      obtain ⟨j, hj⟩ := ho
      cases hj with
      | recv i =>
        simp only [Streamer.step, Streamer.recv] at hs
        split at hs
        · rename_i u c r h1 h2
          obtain ⟨rfl, hu1⟩ := single (good_always he hu n).one h1
          obtain rfl : u = t := by rw [ht] at hu1; simpa using hu1.symm
          split at hs
          · rename_i hp
            rw [← Option.some.inj hs]
            have hr : u.rank = 2 := by unfold Iface.rank; rw [hp]
            refine fin ⟨{ u with pc := .handle c r }, ?_, hst, Or.inl ⟨⟨rfl, fun e => by omega, fun e => by omega⟩, by omega⟩⟩
            unfold Streamer.setIface
            simp only [ht]
            rfl
          · simp at hs
        · simp at hs
      | bind => exact named hs
      | check => exact named hs
      | handle => exact named hs
      | get => exact named hs
      | send => exact named hs
      | close => exact named hs
    · simp only [not_exists] at ho
      obtain ⟨k1, k2⟩ := ((good_always he hu n).step (allowed he hu ha) hs).2.2.2.2.2 ho
      obtain ⟨t', h1, h2, h3⟩ := k2 t ht
      refine ⟨t', h1, h3 hst, ?_⟩
      rw [k1, rank_of_pc h2]
      exact hN

/-- C121. `stop` returns if it is called when N replies were sent, N + 1 requests are made and `feed` is called for N + 1
trains, before or after. -/
theorem stop_returns (he : Execution maxlen state act) (hu : ProperUse act) (hf : NobodyStarves state act) {n k m : Nat}
    (hn : act n = some .stop) (hk : (state n).sent.length < (state k).asked.length)
    (hm : (state n).sent.length < (state m).offered.length) : ∃ l, n < l ∧ (state l).joining = false := by
  by_contra hcon
  simp only [not_exists, not_and, Bool.not_eq_false] at hcon
  have hs := he.next n _ hn
  have hstart : Stopping (state n).sent.length (state (n + 1)) := by
    have hj := hcon (n + 1) (by omega)
    generalize state (n + 1) = s' at hs hj
    simp only [Streamer.step, Streamer.stop] at hs
    split at hs
    · simp at hs
    · rename_i hnj
      split at hs
      · obtain rfl := Option.some.inj hs
        exact absurd hj hnj
      · split at hs
        · simp at hs
        · rename_i j hcur t ht
          obtain ⟨rfl, hu1⟩ := single (good_always he hu n).one ht
          obtain rfl := Option.some.inj hs
          refine ⟨{ t with stopped := true }, ?_, rfl, Or.inl rfl⟩
          unfold Streamer.setIface
          simp only [hu1]
          rfl
  have hall : ∀ i, n + 1 ≤ i → Stopping (state n).sent.length (state i) := by
    intro i hi
    induction i, hi using Nat.le_induction with
    | base => exact hstart
    | succ i _ ih => exact stopping_step he hu ih
  have hlate : ∀ i, n + 1 ≤ i → (state i).progress ≤ 10 * ((state n).sent.length + 1) + 7 := by
    intro i hi
    obtain ⟨t, h1, -, h3⟩ := hall i hi
    rw [progress_single h1]
    have := t.rank_le
    omega
  have hb : ∀ i, (state i).progress ≤ 10 * ((state n).sent.length + 1) + 7 := by
    intro i
    rcases Nat.le_total (n + 1) i with h | h
    · exact hlate i h
    · exact ((grows he hu h).progress).trans (hlate _ (le_refl _))
  obtain ⟨i, t, hi0, ht, hstay, h⟩ := comes_to_rest he hu hf hb (max (n + 1) (max k m))
  have hin : n + 1 ≤ i := (le_max_left _ _).trans hi0
  have hik : k ≤ i := ((le_max_left k m).trans (le_max_right _ _)).trans hi0
  have him : m ≤ i := ((le_max_right k m).trans (le_max_right _ _)).trans hi0
  obtain ⟨u, hu1, -, hN⟩ := hall i hin
  obtain rfl : t = u := by rw [ht] at hu1; simpa using hu1
  rcases h with ⟨h0, h⟩ | ⟨h0, h⟩ | h
  · have h1 := h i (le_refl _)
    have h2 := (grows he hu hik).asked
    omega
  · have h1 := h i (le_refl _)
    have h2 := (grows he hu him).offered
    omega
  · have hen : ∀ k, i ≤ k → ∃ a, OfStop a ∧ ((state k).step a).isSome = true := by
      intro k hk
      obtain ⟨v, hv1, hv2, -⟩ := hstay k hk
      have hj := hcon k (by omega)
      refine ⟨.joined, .joined, ?_⟩
      have hc := ((good_always he hu k).join hj).1
      have hp : v.pc = .done := rank_done (by omega)
      simp only [Streamer.step, Streamer.joined, hj, if_true, hc, hv1, List.getElem?_cons_zero, hp]
      rfl
    obtain ⟨k, a, hk, ha, ho⟩ := hf.stop i hen
    cases ho
    have h1 := hcon (k + 1) (by omega)
    have h2 := he.next k _ ha
    generalize state (k + 1) = s' at h1 h2
    simp only [Streamer.step, Streamer.joined] at h2
    repeat' split at h2
    all_goals first
      | (simp at h2; done)
      | (obtain rfl := Option.some.inj h2; simp at h1)

/-! ### The theorems apply -/

/-- Nothing more can happen by itself. -/
def Quiet (s : Streamer M) : Prop :=
  s.waiting = [] ∧ s.joining = false ∧ ∃ t, s.ifaces = [t] ∧ t.out = [] ∧ ((t.pc = .recv ∧ s.requests = []) ∨ t.pc = .done)

theorem quiet_none {s : Streamer M} (h : Quiet s) {a : Act M} (ha : (∃ j, OfThread j a) ∨ OfFeed a ∨ OfNetwork a ∨ OfStop a) :
    s.step a = none := by
  obtain ⟨hw, hj, t, ht, ho, hp⟩ := h
  have hget : ∀ j : Nat, s.ifaces[j]? = none ∨ s.ifaces[j]? = some t := by
    intro j; rw [ht]; cases j <;> simp
  have named : ∀ (j : Nat) (b : Act M), s.named j b = none := by
    intro j b
    unfold Streamer.named
    rcases hget j with e | e
    · rw [e]
    · rw [e]
      rcases hp with ⟨hp, -⟩ | hp <;> simp [hp, Pc.act]
  rcases ha with ⟨j, hj'⟩ | ha | ha | ha
  · cases hj' with
    | recv i =>
      simp only [Streamer.step, Streamer.recv]
      rcases hget j with e | e
      · rw [e]
      · rw [e]
        rcases hp with ⟨-, hr⟩ | hp
        · rw [hr]; simp
        · cases s.requests[i]? <;> simp [hp]
    | bind => exact named _ _
    | check => exact named _ _
    | handle => exact named _ _
    | get => exact named _ _
    | send => exact named _ _
    | close => exact named _ _
  · cases ha with
    | put i => simp [Streamer.step, Streamer.put, hw]
  · cases ha with
    | deliver j i =>
      simp only [Streamer.step, Streamer.deliver]
      rcases hget j with e | e
      · rw [e]
      · rw [e]; simp [ho]
  · cases ha with
    | joined => simp [Streamer.step, Streamer.joined, hj]

/-- The state after some steps, if they are possible. -/
def after (maxlen : Int) (l : List (Act M)) (n : Nat) : Streamer M :=
  ((Streamer.new M maxlen).run (l.take n)).getD (Streamer.new M maxlen)

theorem run_take {s s' : Streamer M} {l : List (Act M)} (h : s.run l = some s') (n : Nat) : ∃ t, s.run (l.take n) = some t := by
  induction l generalizing s n with
  | nil => exact ⟨s, by simp [Streamer.run]⟩
  | cons a l ih =>
    obtain ⟨u, h1, h2⟩ := Streamer.run_cons h
    cases n with
    | zero => exact ⟨s, rfl⟩
    | succ n =>
      obtain ⟨t, ht⟩ := ih h2 n
      exact ⟨t, by simp only [List.take_succ_cons, Streamer.run, h1]; exact ht⟩

/-- A finite run, after which nothing happens. -/
theorem finite_execution {l : List (Act M)} {s : Streamer M} (h : (Streamer.new M maxlen).run l = some s) (hq : Quiet s) :
    Execution maxlen (after maxlen l) (fun n => l[n]?) ∧ NobodyStarves (after maxlen l) (fun n => l[n]?) := by
  have hend : ∀ n, l.length ≤ n → after maxlen l n = s := by
    intro n hn; unfold after; rw [List.take_of_length_le hn, h]; rfl
  have hfair : ∀ kind : Act M → Prop, (∀ a, kind a → (∃ j, OfThread j a) ∨ OfFeed a ∨ OfNetwork a ∨ OfStop a) →
      Fair (after maxlen l) (fun n => l[n]?) kind := by
    intro kind hkind n hn
    obtain ⟨a, h1, h2⟩ := hn (max n l.length) (le_max_left _ _)
    rw [hend _ (le_max_right _ _), quiet_none hq (hkind a h1)] at h2
    simp at h2
  refine ⟨⟨rfl, fun n hn => ?_, fun n a hn => ?_⟩, ⟨fun j => hfair _ (fun a h => Or.inl ⟨j, h⟩), hfair _ (fun a h => Or.inr (Or.inl h)),
    hfair _ (fun a h => Or.inr (Or.inr (Or.inl h))), hfair _ (fun a h => Or.inr (Or.inr (Or.inr h)))⟩⟩
  · have := List.getElem?_eq_none_iff.1 hn
    rw [hend n this, hend (n + 1) (by omega)]
  · have hn' : l[n]? = some a := hn
    obtain ⟨t, ht⟩ := run_take h n
    obtain ⟨u, hu⟩ := run_take h (n + 1)
    have e : l.take (n + 1) = l.take n ++ [a] := by rw [List.take_add_one, hn']; rfl
    unfold after
    rw [ht, hu]
    rw [e, Streamer.run_append ht] at hu
    simp only [Streamer.run] at hu
    cases hst : t.step a with
    | none => rw [hst] at hu; simp at hu
    | some v => rw [hst] at hu; simp only [Option.getD_some]; rw [hst]; exact hu

/-- Two clients, one of which asks before there is a train. -/
def exLive : List (Act Nat) :=
  [.start, .request 3 (ch! "next"), .bind 0, .feed 7, .check 0, .put 0, .recv 0 0, .feed 8, .handle 0, .get 0, .put 0, .send 0,
    .request 5 (ch! "next"), .check 0, .recv 0 0, .handle 0, .get 0, .send 0, .deliver 0 1, .deliver 0 0, .check 0]

/-- `stop` is called while no train was fed; it returns after one more reply. -/
def exStop : List (Act Nat) :=
  [.start, .bind 0, .check 0, .stop, .feed 7, .put 0, .request 3 (ch! "next"), .recv 0 0, .handle 0, .get 0, .send 0, .deliver 0 0,
    .check 0, .close 0, .joined]

theorem exLive_live : Execution 1 (after 1 exLive) (fun n => exLive[n]?) ∧ NobodyStarves (after 1 exLive) (fun n => exLive[n]?) ∧
    ProperUse (fun n => exLive[n]?) ∧ ∀ n : Nat, exLive[n]? ≠ some .stop := by
  obtain ⟨h1, h2⟩ := finite_execution (maxlen := 1) (l := exLive) rfl ⟨rfl, rfl, _, rfl, rfl, Or.inl ⟨rfl, rfl⟩⟩
  refine ⟨h1, h2, ⟨⟨0, rfl⟩, ?_, ?_, ?_⟩, ?_⟩
  · intro m n hm hn
    obtain ⟨hm1, hm2⟩ := List.getElem?_eq_some_iff.1 hm
    obtain ⟨hn1, hn2⟩ := List.getElem?_eq_some_iff.1 hn
    have key : ∀ i : Nat, ∀ hi : i < exLive.length, exLive[i] = .start → i = 0 := by clear * -; decide
    rw [key m hm1 hm2, key n hn1 hn2]
  · intro n c r hn
    have key : ∀ x ∈ exLive, ∀ c r, x = .request c r → r = ch! "next" := by
      intro x hx; simp only [exLive, List.mem_cons, List.not_mem_nil, or_false] at hx; aesop
    exact key _ (List.mem_of_getElem? hn) c r rfl
  · intro n i hn
    have key : ∀ x ∈ exLive, ∀ i, x ≠ .lose i := by
      intro x hx; simp only [exLive, List.mem_cons, List.not_mem_nil, or_false] at hx; aesop
    exact key _ (List.mem_of_getElem? hn) i rfl
  · intro n hn
    have : Act.stop ∉ exLive := by decide
    exact this (List.mem_of_getElem? hn)

theorem exStop_live : Execution 1 (after 1 exStop) (fun n => exStop[n]?) ∧ NobodyStarves (after 1 exStop) (fun n => exStop[n]?) ∧
    ProperUse (fun n => exStop[n]?) := by
  obtain ⟨h1, h2⟩ := finite_execution (maxlen := 1) (l := exStop) rfl ⟨rfl, rfl, _, rfl, rfl, Or.inr rfl⟩
  refine ⟨h1, h2, ⟨⟨0, rfl⟩, ?_, ?_, ?_⟩⟩
  · intro m n hm hn
    obtain ⟨hm1, hm2⟩ := List.getElem?_eq_some_iff.1 hm
    obtain ⟨hn1, hn2⟩ := List.getElem?_eq_some_iff.1 hn
    have key : ∀ i : Nat, ∀ hi : i < exStop.length, exStop[i] = .start → i = 0 := by clear * -; decide
    rw [key m hm1 hm2, key n hn1 hn2]
  · intro n c r hn
    have key : ∀ x ∈ exStop, ∀ c r, x = .request c r → r = ch! "next" := by
      intro x hx; simp only [exStop, List.mem_cons, List.not_mem_nil, or_false] at hx; aesop
    exact key _ (List.mem_of_getElem? hn) c r rfl
  · intro n i hn
    have key : ∀ x ∈ exStop, ∀ i, x ≠ .lose i := by
      intro x hx; simp only [exStop, List.mem_cons, List.not_mem_nil, or_false] at hx; aesop
    exact key _ (List.mem_of_getElem? hn) i rfl

/-- Two requests and two trains: both clients get their reply. -/
example : ∃ l, 2 ≤ (after 1 exLive l).received.length ∧ List.Subperm (after 1 exLive l).received (after 1 exLive l).sent ∧
    InOrder (after 1 exLive l).sent (after 1 exLive l).fed :=
  requests_answered exLive_live.1 exLive_live.2.2.1 exLive_live.2.1 exLive_live.2.2.2 (k := 13) (m := 8) (by decide) (by decide)

example : ∃ l, 2 ≤ (after 1 exLive l).fed.length :=
  feed_returns exLive_live.1 exLive_live.2.2.1 exLive_live.2.1 exLive_live.2.2.2 (k := 2) (m := 8) (by decide) (Or.inr (by decide))

example : ∃ l, 3 < l ∧ (after 1 exStop l).joining = false :=
  stop_returns exStop_live.1 exStop_live.2.2 exStop_live.2.1 (n := 3) (k := 7) (m := 5) rfl (by decide) (by decide)

end KD
