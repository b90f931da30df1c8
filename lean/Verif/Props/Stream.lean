/- C64-C66: what a streamer sends, in every schedule. -/
import Verif.Spec.Stream
import Verif.Lemmas.StreamCount
import Mathlib.Tactic.IntervalCases

set_option linter.unusedSimpArgs false

namespace KD

variable {M : Type} [DecidableEq M]

theorem reachable_inv {maxlen : Int} {acts : List (Act M)} {s : Streamer M} (h : (Streamer.new M maxlen).run acts = some s) : s.Inv :=
  Streamer.run_induct (P := Streamer.Inv) (fun _ _ _ h hs => h.step hs) (Streamer.Inv.new maxlen) h

omit [DecidableEq M] in
theorem Streamer.Inv.taken {s : Streamer M} (h : s.Inv) :
    s.taken = s.sent.map Prod.snd ∨ ∃ m, s.taken = s.sent.map Prod.snd ++ [m] := by
  by_cases hn : ∀ (j : Nat) (a : Iface M) (c : Nat) (m : M), s.ifaces[j]? = some a → a.pc ≠ .send c m
  · exact Or.inl (h.notSending hn)
  · simp only [not_forall, not_not] at hn
    obtain ⟨j, a, c, m, h1, h2⟩ := hn
    exact Or.inr ⟨m, h.sending j a c m h1 h2⟩

/-- C64. Whatever the interleaving of feeding, clients, starting and stopping, the n-th reply is the n-th train fed; a
client is sent no more replies than it asked for, and receives no more than was sent. -/
theorem stream_order {maxlen : Int} {acts : List (Act M)} {s : Streamer M} (h : (Streamer.new M maxlen).run acts = some s) :
    Spec.InOrder s.sent s.fed ∧ (∀ c, Spec.repliesTo s c ≤ Spec.asksOf s c) ∧ List.Subperm s.received s.sent := by
  have hi := reachable_inv h
  refine ⟨?_, ?_, ?_⟩
  · intro n c m hn
    have hlt := (List.getElem?_eq_some_iff.1 hn).1
    have h1 : (s.sent.map Prod.snd)[n]? = some m := by rw [List.getElem?_map, hn]; rfl
    have h2 : s.taken[n]? = some m := by
      rcases hi.taken with e | ⟨x, e⟩
      · rw [e]; exact h1
      · rw [e, List.getElem?_append_left (by simpa using hlt)]; exact h1
    rw [hi.queue, List.getElem?_append_left (List.getElem?_eq_some_iff.1 h2).1]
    exact h2
  · intro c
    have hc : s.Counts c := Streamer.run_induct (P := Streamer.Counts c) (fun _ _ _ h hs => h.step hs) (Streamer.Counts.new c maxlen) h
    unfold Streamer.Counts at hc
    have e1 : Spec.repliesTo s c = (s.sent.map Prod.fst).count c := by
      unfold Spec.repliesTo List.count
      rw [List.countP_map]
      congr 1
    have e2 : Spec.asksOf s c = s.asked.count (c, ch! "next") := by
      unfold Spec.asksOf List.count
      apply List.countP_congr
      intro x _
      rcases x with ⟨a, b⟩
      simp
    omega
  · rw [List.subperm_ext_iff]
    intro x _
    have hd : s.Delivered x :=
      Streamer.run_induct (P := Streamer.Delivered x) (fun _ _ _ h hs => h.step hs) (Streamer.Delivered.new x maxlen) h
    unfold Streamer.Delivered at hd
    omega

/-- C64. If one thread feeds, the trains are sent in the order of its calls. -/
theorem stream_order_of_calls {maxlen : Int} {acts : List (Act M)} {s : Streamer M} (h : (Streamer.new M maxlen).run acts = some s)
    (hf : Spec.OneFeeder (Streamer.new M maxlen) acts) :
    s.offered = s.fed ++ s.waiting ∧ s.waiting.length ≤ 1 ∧ Spec.InOrder s.sent s.offered := by
  have key : ∀ (acts : List (Act M)) (s0 s : Streamer M), s0.offered = s0.fed ++ s0.waiting → s0.waiting.length ≤ 1 →
      s0.run acts = some s → Spec.OneFeeder s0 acts → s.offered = s.fed ++ s.waiting ∧ s.waiting.length ≤ 1 := by
    intro acts
    induction acts with
    | nil => intro s0 s h1 h2 h3 _; obtain rfl := Option.some.inj h3; exact ⟨h1, h2⟩
    | cons a l ih =>
      intro s0 s h1 h2 h3 h4
      obtain ⟨t, hs, hr⟩ := Streamer.run_cons h3
      have h4' : Spec.OneFeeder t l := by
        intro l1 l2 m u e hu
        refine h4 (a :: l1) l2 m u (by rw [e]; rfl) ?_
        simp only [Streamer.run, hs]
        exact hu
      have frame : t.offered = s0.offered → t.fed = s0.fed → t.waiting = s0.waiting →
          s.offered = s.fed ++ s.waiting ∧ s.waiting.length ≤ 1 := by
        intro e1 e2 e3
        exact ih t s (by rw [e1, e2, e3]; exact h1) (by rw [e3]; exact h2) hr h4'
      have named : ∀ {j : Nat} {a : Act M}, s0.named j a = some t → s.offered = s.fed ++ s.waiting ∧ s.waiting.length ≤ 1 := by
        intro j a hn
        obtain ⟨u, _, -, hs⟩ := Streamer.named_ok hn
        unfold Streamer.threadStep at hs
        split at hs
        · split at hs <;> (obtain rfl := Option.some.inj hs; exact frame rfl rfl rfl)
        · obtain rfl := Option.some.inj hs; exact frame rfl rfl rfl
        · simp at hs
        · obtain rfl := Option.some.inj hs; exact frame rfl rfl rfl
        · split at hs
          · simp at hs
          · obtain rfl := Option.some.inj hs; exact frame rfl rfl rfl
        · obtain rfl := Option.some.inj hs; exact frame rfl rfl rfl
        · obtain rfl := Option.some.inj hs; exact frame rfl rfl rfl
        · simp at hs
      cases a with
      | start =>
        simp only [Streamer.step, Streamer.start] at hs
        split at hs
        · simp at hs
        · obtain rfl := Option.some.inj hs; exact frame rfl rfl rfl
      | stop =>
        simp only [Streamer.step, Streamer.stop] at hs
        split at hs
        · simp at hs
        · split at hs
          · obtain rfl := Option.some.inj hs; exact frame rfl rfl rfl
          · split at hs
            · simp at hs
            · obtain rfl := Option.some.inj hs; exact frame rfl rfl rfl
      | joined =>
        simp only [Streamer.step, Streamer.joined] at hs
        split at hs
        · split at hs
          · simp at hs
          · split at hs
            · simp at hs
            · split at hs
              · obtain rfl := Option.some.inj hs; exact frame rfl rfl rfl
              · simp at hs
        · simp at hs
      | feed m =>
        obtain rfl := Option.some.inj hs
        have hw : s0.waiting = [] := h4 [] l m s0 rfl rfl
        refine ih _ s ?_ ?_ hr h4'
        · simp only [h1, hw, List.append_nil, List.nil_append]
        · simp [hw]
      | put i =>
        simp only [Streamer.step, Streamer.put] at hs
        split at hs
        · simp at hs
        · rename_i m hm
          split at hs
          · obtain rfl := Option.some.inj hs
            have hw : s0.waiting = [m] ∧ i = 0 := by
              have hlt := (List.getElem?_eq_some_iff.1 hm).1
              match hh : s0.waiting with
              | [] => rw [hh] at hm; simp at hm
              | [x] =>
                rw [hh] at hm hlt
                simp only [List.length_cons, List.length_nil] at hlt
                obtain rfl : i = 0 := by omega
                simp only [List.getElem?_cons_zero, Option.some.injEq] at hm
                exact ⟨by rw [hm], rfl⟩
              | x :: y :: z => rw [hh] at h2; simp at h2
            obtain ⟨hw, rfl⟩ := hw
            refine ih _ s ?_ ?_ hr h4'
            · simp only [h1, hw, List.eraseIdx_cons_zero, List.append_nil]
            · simp [hw]
          · simp at hs
      | request c r => obtain rfl := Option.some.inj hs; exact frame rfl rfl rfl
      | lose i =>
        simp only [Streamer.step] at hs
        split at hs
        · obtain rfl := Option.some.inj hs; exact frame rfl rfl rfl
        · simp at hs
      | bind j => exact named hs
      | check j => exact named hs
      | handle j => exact named hs
      | get j => exact named hs
      | send j => exact named hs
      | close j => exact named hs
      | recv j i =>
        simp only [Streamer.step, Streamer.recv] at hs
        split at hs
        · split at hs
          · obtain rfl := Option.some.inj hs; exact frame rfl rfl rfl
          · simp at hs
        · simp at hs
      | deliver j i =>
        simp only [Streamer.step, Streamer.deliver] at hs
        split at hs
        · simp at hs
        · split at hs
          · simp at hs
          · obtain rfl := Option.some.inj hs; exact frame rfl rfl rfl
  obtain ⟨h1, h2⟩ := key acts _ s rfl (by simp [Streamer.new]) h hf
  refine ⟨h1, h2, ?_⟩
  intro n c m hn
  have := (stream_order h).1 n c m hn
  rw [h1, List.getElem?_append_left (List.getElem?_eq_some_iff.1 this).1]
  exact this

/-- C65. No more than `maxlen` trains wait in the buffer. What was given to `feed` is either in a call which waits, or in
the buffer, or was taken from it, once; `feed` can return exactly when there is room, where a `maxlen` of zero or less
means no limit, and then its train is the last in the buffer. -/
theorem stream_bounded {maxlen : Int} {acts : List (Act M)} {s : Streamer M} (h : (Streamer.new M maxlen).run acts = some s) :
    (0 < maxlen → (s.buffer.length : Int) ≤ maxlen) ∧
    s.fed = s.taken ++ s.buffer ∧ s.offered.Perm (s.waiting ++ s.fed) ∧
    (∀ i, (s.step (.put i)).isSome = true ↔ i < s.waiting.length ∧ (maxlen ≤ 0 ∨ (s.buffer.length : Int) < maxlen)) ∧
    (∀ i m t, s.waiting[i]? = some m → s.step (.put i) = some t →
      t.buffer = s.buffer ++ [m] ∧ t.fed = s.fed ++ [m] ∧ t.waiting = s.waiting.eraseIdx i ∧ t.taken = s.taken ∧ t.sent = s.sent) := by
  have hi := reachable_inv h
  have hm : s.maxlen = maxlen := by
    refine Streamer.run_induct (P := fun t : Streamer M => t.maxlen = maxlen) ?_ rfl h
    intro s a t hs ht
    rw [← hs]
    have named : ∀ {j : Nat} {a : Act M}, s.named j a = some t → t.maxlen = s.maxlen := by
      intro j a hn
      obtain ⟨u, _, -, hs⟩ := Streamer.named_ok hn
      unfold Streamer.threadStep at hs
      repeat' split at hs
      all_goals first
        | (simp at hs; done)
        | (obtain rfl := Option.some.inj hs; rfl)
    cases a with
    | start => simp only [Streamer.step, Streamer.start] at ht; repeat' split at ht
               all_goals first
                 | (simp at ht; done)
                 | (obtain rfl := Option.some.inj ht; rfl)
    | stop => simp only [Streamer.step, Streamer.stop] at ht; repeat' split at ht
              all_goals first
                | (simp at ht; done)
                | (obtain rfl := Option.some.inj ht; rfl)
    | joined => simp only [Streamer.step, Streamer.joined] at ht; repeat' split at ht
                all_goals first
                  | (simp at ht; done)
                  | (obtain rfl := Option.some.inj ht; rfl)
    | feed m => obtain rfl := Option.some.inj ht; rfl
    | put i => simp only [Streamer.step, Streamer.put] at ht; repeat' split at ht
               all_goals first
                 | (simp at ht; done)
                 | (obtain rfl := Option.some.inj ht; rfl)
    | request c r => obtain rfl := Option.some.inj ht; rfl
    | lose i => simp only [Streamer.step] at ht; repeat' split at ht
                all_goals first
                  | (simp at ht; done)
                  | (obtain rfl := Option.some.inj ht; rfl)
    | bind j => exact named ht
    | check j => exact named ht
    | handle j => exact named ht
    | get j => exact named ht
    | send j => exact named ht
    | close j => exact named ht
    | recv j i => simp only [Streamer.step, Streamer.recv] at ht; repeat' split at ht
                  all_goals first
                    | (simp at ht; done)
                    | (obtain rfl := Option.some.inj ht; rfl)
    | deliver j i => simp only [Streamer.step, Streamer.deliver] at ht; repeat' split at ht
                     all_goals first
                       | (simp at ht; done)
                       | (obtain rfl := Option.some.inj ht; rfl)
  refine ⟨fun h0 => hm ▸ hi.bounded (hm ▸ h0), hi.queue, hi.offered, ?_, ?_⟩
  · intro i
    simp only [Streamer.step, Streamer.put, Streamer.room, hm, Bool.or_eq_true, decide_eq_true_eq]
    cases hw : s.waiting[i]? with
    | none =>
      rw [List.getElem?_eq_none_iff] at hw
      simp; omega
    | some m =>
      have hlt := (List.getElem?_eq_some_iff.1 hw).1
      simp only
      split
      · rename_i hr; simp [hlt, hr]
      · rename_i hr; simp [hlt, hr]
  · intro i m t hw hs
    simp only [Streamer.step, Streamer.put, hw] at hs
    split at hs
    · obtain rfl := Option.some.inj hs
      exact ⟨rfl, rfl, rfl, rfl, rfl⟩
    · simp at hs

/-- C65. Progress: if an interface has the port and is not stopped, a client's request `next` and a train in the buffer are
enough for the train to be sent to this client and to reach it. -/
theorem stream_progress {s : Streamer M} {j i c : Nat} {m : M} {rest : List M} {t : Iface M} (hj : s.ifaces[j]? = some t)
    (hpc : t.pc = .check) (hstop : t.stopped = false) (hr : s.requests[i]? = some (c, ch! "next")) (hb : s.buffer = m :: rest) :
    ∃ s', s.run [.check j, .recv j i, .handle j, .get j, .send j, .deliver j t.out.length] = some s' ∧
      s'.sent = s.sent ++ [(c, m)] ∧ s'.received = s.received ++ [(c, m)] ∧ s'.buffer = rest ∧
      s'.requests = s.requests.eraseIdx i ∧ s'.ifaces[j]? = some t := by
  obtain ⟨hlt, hge⟩ := List.getElem?_eq_some_iff.1 hj
  have ht : t = ⟨.check, false, t.out⟩ := by cases t; simp_all
  generalize hout : t.out = out at ht ⊢
  subst ht
  simp [Streamer.run, Streamer.step, Streamer.named, Streamer.recv, Streamer.deliver, Streamer.setIface, Streamer.threadStep,
    Pc.act, hge, hj, hr, hb, List.getElem?_set_self, hlt, List.length_set]
  rw [List.eraseIdx_append_of_length_le (le_refl _)]
  simp

/-- The interface finishes when it is stopped, at its next look at the stop event. -/
theorem stream_stops {s : Streamer M} {j : Nat} {t : Iface M} (hj : s.ifaces[j]? = some t) (hpc : t.pc = .check)
    (hstop : t.stopped = true) (hjo : s.joining = true) (hcur : s.current = some j) :
    ∃ s', s.run [.check j, .close j, .joined] = some s' ∧ s'.sent = s.sent ∧ s'.buffer = s.buffer ∧ s'.joining = false ∧
      s'.current = none ∧ s'.ifaces[j]? = some ⟨.done, true, []⟩ := by
  obtain ⟨hlt, hge⟩ := List.getElem?_eq_some_iff.1 hj
  have ht : t = ⟨.check, true, t.out⟩ := by cases t; simp_all
  generalize t.out = out at ht
  subst ht
  simp [Streamer.run, Streamer.step, Streamer.named, Streamer.joined, Streamer.setIface, Streamer.threadStep,
    Pc.act, hge, hj, List.getElem?_set_self, hlt, List.length_set, hjo, hcur]

/-- Any other request than `next` ends the interface, without a reply and without taking a train. -/
theorem unknown_request {s : Streamer M} {j i c : Nat} {r : Str} {t : Iface M} (hj : s.ifaces[j]? = some t)
    (hpc : t.pc = .recv) (hr : s.requests[i]? = some (c, r)) (hne : r ≠ ch! "next") :
    ∃ s', s.run [.recv j i, .handle j, .close j] = some s' ∧ s'.sent = s.sent ∧ s'.buffer = s.buffer ∧
      s'.ifaces[j]? = some ⟨.done, t.stopped, []⟩ := by
  obtain ⟨hlt, hge⟩ := List.getElem?_eq_some_iff.1 hj
  have ht : t = ⟨.recv, t.stopped, t.out⟩ := by cases t; simp_all
  generalize t.stopped = st at ht ⊢
  generalize t.out = out at ht
  subst ht
  simp [Streamer.run, Streamer.step, Streamer.named, Streamer.recv, Streamer.setIface, Streamer.threadStep,
    Pc.act, hge, hj, hr, List.getElem?_set_self, hlt, List.length_set, hne]

/-- Only an interface which has the port can take trains; a second interface ends at once while another one has it. -/
theorem second_start {s : Streamer M} {j k : Nat} {t u : Iface M} (hj : s.ifaces[j]? = some t) (ht : t.active = true)
    (hk : s.ifaces[k]? = some u) (hu : u.pc = .bind) :
    ∃ s', s.step (.bind k) = some s' ∧ s' = s.setIface k { u with pc := .done } := by
  have hany : s.ifaces.any Iface.active = true := List.any_eq_true.2 ⟨t, List.mem_of_getElem? hj, ht⟩
  refine ⟨_, ?_, rfl⟩
  simp only [Streamer.step, Streamer.named, hk, hu, Pc.act, if_true, Streamer.threadStep, hany]

/-- With `start` called only when the streamer is not started, all interfaces but the current one are finished. -/
theorem others_done {maxlen : Int} {acts : List (Act M)} {s : Streamer M} (h : (Streamer.new M maxlen).run acts = some s)
    (hone : Spec.StartsOnce (Streamer.new M maxlen) acts) {j : Nat} {t : Iface M} (hj : s.ifaces[j]? = some t) :
    t.pc = .done ∨ s.current = some j := by
  have key : ∀ (acts : List (Act M)) (s0 s : Streamer M),
      (∀ (j : Nat) (t : Iface M), s0.ifaces[j]? = some t → t.pc = .done ∨ s0.current = some j) →
      s0.run acts = some s → Spec.StartsOnce s0 acts →
      ∀ (j : Nat) (t : Iface M), s.ifaces[j]? = some t → t.pc = .done ∨ s.current = some j := by
    intro acts
    induction acts with
    | nil => intro s0 s h1 h3 _; obtain rfl := Option.some.inj h3; exact h1
    | cons a l ih =>
      intro s0 s h1 h3 h4
      obtain ⟨t, hs, hr⟩ := Streamer.run_cons h3
      have h4' : Spec.StartsOnce t l := by
        intro l1 l2 u e hu
        refine h4 (a :: l1) l2 u (by rw [e]; rfl) ?_
        simp only [Streamer.run, hs]
        exact hu
      refine ih t s ?_ hr h4'
      have same : t.ifaces = s0.ifaces → t.current = s0.current →
          ∀ (j : Nat) (u : Iface M), t.ifaces[j]? = some u → u.pc = .done ∨ t.current = some j := by
        intro e1 e2; rw [e1, e2]; exact h1
      have upd : ∀ {k : Nat} {v w : Iface M}, s0.ifaces[k]? = some v → (v.pc = .done → w.pc = .done) →
          t.ifaces = s0.ifaces.set k w → t.current = s0.current →
          ∀ (j : Nat) (u : Iface M), t.ifaces[j]? = some u → u.pc = .done ∨ t.current = some j := by
        intro k v w hv hvw e1 e2 j u hu
        rw [e1] at hu
        rw [e2]
        rcases getElem?_set_cases hu with ⟨rfl, rfl, -⟩ | ⟨hne, hu⟩
        · exact (h1 j v hv).imp_left hvw
        · exact h1 j u hu
      have named : ∀ {k : Nat} {a : Act M}, s0.named k a = some t →
          ∀ (j : Nat) (u : Iface M), t.ifaces[j]? = some u → u.pc = .done ∨ t.current = some j := by
        intro k a hn
        obtain ⟨v, hv, ha, hs⟩ := Streamer.named_ok hn
        have hnd : v.pc ≠ .done := by intro e; rw [e] at ha; simp [Pc.act] at ha
        unfold Streamer.threadStep at hs
        repeat' split at hs
        all_goals first
          | (simp at hs; done)
          | (obtain rfl := Option.some.inj hs; exact upd hv (fun e => absurd e hnd) rfl rfl)
      cases a with
      | start =>
        have hc : s0.current = none := h4 [] l s0 rfl rfl
        simp only [Streamer.step, Streamer.start] at hs
        split at hs
        · simp at hs
        · obtain rfl := Option.some.inj hs
          intro j u hu
          simp only at hu ⊢
          rw [List.getElem?_append] at hu
          split at hu
          · refine Or.inl ((h1 j u hu).resolve_right (by simp [hc]))
          · rw [List.getElem?_singleton] at hu
            split at hu
            · right; congr 1; omega
            · simp at hu
      | stop =>
        simp only [Streamer.step, Streamer.stop] at hs
        split at hs
        · simp at hs
        · split at hs
          · obtain rfl := Option.some.inj hs; exact h1
          · split at hs
            · simp at hs
            · rename_i v hv
              obtain rfl := Option.some.inj hs
              exact upd hv (w := { v with stopped := true }) id rfl rfl
      | joined =>
        simp only [Streamer.step, Streamer.joined] at hs
        split at hs
        · split at hs
          · simp at hs
          · rename_i k hk
            split at hs
            · simp at hs
            · rename_i v hv
              split at hs
              · rename_i hd
                obtain rfl := Option.some.inj hs
                intro j u hu
                left
                rcases h1 j u hu with h | h
                · exact h
                · rw [hk] at h
                  obtain rfl := Option.some.inj h
                  simp only at hu
                  rw [hv] at hu
                  obtain rfl := Option.some.inj hu
                  exact hd
              · simp at hs
        · simp at hs
      | feed m => obtain rfl := Option.some.inj hs; exact h1
      | put i => simp only [Streamer.step, Streamer.put] at hs; repeat' split at hs
                 all_goals first
                   | (simp at hs; done)
                   | (obtain rfl := Option.some.inj hs; exact h1)
      | request c r => obtain rfl := Option.some.inj hs; exact h1
      | lose i => simp only [Streamer.step] at hs; repeat' split at hs
                  all_goals first
                    | (simp at hs; done)
                    | (obtain rfl := Option.some.inj hs; exact h1)
      | bind j => exact named hs
      | check j => exact named hs
      | handle j => exact named hs
      | get j => exact named hs
      | send j => exact named hs
      | close j => exact named hs
      | recv j i =>
        simp only [Streamer.step, Streamer.recv] at hs
        split at hs
        · rename_i v c r hv hr
          split at hs
          · rename_i hp
            obtain rfl := Option.some.inj hs
            exact upd hv (w := { v with pc := .handle c r }) (by rw [hp]; simp) rfl rfl
          · simp at hs
        · simp at hs
      | deliver j i =>
        simp only [Streamer.step, Streamer.deliver] at hs
        split at hs
        · simp at hs
        · rename_i v hv
          split at hs
          · simp at hs
          · obtain rfl := Option.some.inj hs
            exact upd hv (w := { v with out := v.out.eraseIdx i }) id rfl rfl
  exact key acts _ s (by intro j t ht; simp [Streamer.new] at ht) h hone j t hj

/-- C66, what holds. When `stop` has returned, the trains fed are the ones sent and then the ones still in the buffer: none
is lost from the buffer. Missing: that the ones in the buffer, and all those sent, are received (`stop_loses_wrong`,
`stop_drops_wrong`), and that `stop` returns (`stop_hangs_wrong`). -/
theorem stop_delivers_partial {maxlen : Int} {acts : List (Act M)} {s : Streamer M} (h : (Streamer.new M maxlen).run acts = some s)
    (hone : Spec.StartsOnce (Streamer.new M maxlen) acts) (hstopped : s.current = none) :
    s.fed = s.sent.map Prod.snd ++ s.buffer := by
  have hi := reachable_inv h
  rw [hi.queue, hi.notSending]
  intro j a c m ha hp
  rcases others_done h hone ha with h | h
  · rw [h] at hp; simp at hp
  · rw [hstopped] at h; simp at h

/-- C66. A streamer which was stopped can be started again, and goes on with the next train of the buffer. -/
theorem restart_continues {s : Streamer M} {i c : Nat} {m : M} {rest : List M}
    (hdone : ∀ t ∈ s.ifaces, t.pc = .done) (hjo : s.joining = false)
    (hr : s.requests[i]? = some (c, ch! "next")) (hb : s.buffer = m :: rest) :
    ∃ s', s.run [.start, .bind s.ifaces.length, .check s.ifaces.length, .recv s.ifaces.length i, .handle s.ifaces.length,
        .get s.ifaces.length, .send s.ifaces.length, .deliver s.ifaces.length 0] = some s' ∧
      s'.sent = s.sent ++ [(c, m)] ∧ s'.received = s.received ++ [(c, m)] ∧ s'.buffer = rest := by
  let s1 : Streamer M := { s with ifaces := s.ifaces ++ [⟨.check, false, []⟩], current := some s.ifaces.length }
  have h1 : s.run [.start, .bind s.ifaces.length] = some s1 := by
    have hany : (s.ifaces ++ [(⟨.bind, false, []⟩ : Iface M)]).any Iface.active = false := by
      rw [List.any_eq_false]
      intro t ht
      rw [List.mem_append, List.mem_singleton] at ht
      rcases ht with ht | rfl
      · simp [Iface.active, hdone t ht]
      · simp [Iface.active]
    simp [Streamer.run, Streamer.step, Streamer.start, hjo, Streamer.named, Pc.act, Streamer.threadStep, hany,
      Streamer.setIface, s1, -List.any_append]
  obtain ⟨s', h2, h3, h4, h5, -, -⟩ := stream_progress (s := s1) (j := s.ifaces.length) (t := ⟨.check, false, []⟩)
    (by simp [s1]) rfl rfl hr hb
  refine ⟨s', ?_, h3, h4, h5⟩
  have := Streamer.run_append (m := [.check s.ifaces.length, .recv s.ifaces.length i, .handle s.ifaces.length,
        .get s.ifaces.length, .send s.ifaces.length, .deliver s.ifaces.length 0]) h1
  exact this.trans h2

/-- C66 is wrong: when all interfaces are finished, nothing more is sent or received unless the streamer is started again. -/
theorem nothing_after_stop {s s' : Streamer M} {acts : List (Act M)} (hdone : ∀ t ∈ s.ifaces, t.pc = .done ∧ t.out = [])
    (hns : Act.start ∉ acts) (h : s.run acts = some s') : s'.sent = s.sent ∧ s'.received = s.received ∧ s'.taken = s.taken := by
  have := Streamer.run_induct_mem
    (P := fun t : Streamer M => (∀ u ∈ t.ifaces, u.pc = .done ∧ u.out = []) ∧ t.sent = s.sent ∧ t.received = s.received ∧ t.taken = s.taken)
    (ok := fun a => a ≠ .start) ?_ ⟨hdone, rfl, rfl, rfl⟩ (fun a ha e => hns (e ▸ ha)) h
  · exact this.2
  · intro u a u' ⟨hd, h1⟩ hne hs
    have named : ∀ {k : Nat} {a : Act M}, u.named k a = some u' → False := by
      intro k a hn
      obtain ⟨v, hv, ha, -⟩ := Streamer.named_ok hn
      rw [(hd v (List.mem_of_getElem? hv)).1] at ha
      simp [Pc.act] at ha
    cases a with
    | start => exact absurd rfl hne
    | stop =>
      simp only [Streamer.step, Streamer.stop] at hs
      split at hs
      · simp at hs
      · split at hs
        · obtain rfl := Option.some.inj hs; exact ⟨hd, h1⟩
        · split at hs
          · simp at hs
          · rename_i v hv
            obtain rfl := Option.some.inj hs
            refine ⟨?_, h1⟩
            intro w hw
            simp only [Streamer.setIface] at hw
            rcases List.mem_or_eq_of_mem_set hw with hw | rfl
            · exact hd w hw
            · exact hd v (List.mem_of_getElem? hv)
    | joined =>
      simp only [Streamer.step, Streamer.joined] at hs; repeat' split at hs
      all_goals first
        | (simp at hs; done)
        | (obtain rfl := Option.some.inj hs; exact ⟨hd, h1⟩)
    | feed m => obtain rfl := Option.some.inj hs; exact ⟨hd, h1⟩
    | put i => simp only [Streamer.step, Streamer.put] at hs; repeat' split at hs
               all_goals first
                 | (simp at hs; done)
                 | (obtain rfl := Option.some.inj hs; exact ⟨hd, h1⟩)
    | request c r => obtain rfl := Option.some.inj hs; exact ⟨hd, h1⟩
    | lose i => simp only [Streamer.step] at hs; repeat' split at hs
                all_goals first
                  | (simp at hs; done)
                  | (obtain rfl := Option.some.inj hs; exact ⟨hd, h1⟩)
    | bind j => exact (named hs).elim
    | check j => exact (named hs).elim
    | handle j => exact (named hs).elim
    | get j => exact (named hs).elim
    | send j => exact (named hs).elim
    | close j => exact (named hs).elim
    | recv j i =>
      simp only [Streamer.step, Streamer.recv] at hs
      split at hs
      · rename_i v c r hv hr
        rw [(hd v (List.mem_of_getElem? hv)).1] at hs
        simp at hs
      · simp at hs
    | deliver j i =>
      simp only [Streamer.step, Streamer.deliver] at hs
      split at hs
      · simp at hs
      · rename_i v hv
        rw [(hd v (List.mem_of_getElem? hv)).2] at hs
        simp at hs

/-- The state of a streamer whose `stop` was called while its thread waits for a train, or for a request. -/
def Spec.Stuck (s : Streamer M) (acts : List (Act M)) : Prop :=
  ∃ (j : Nat) (t : Iface M), s.ifaces[j]? = some t ∧ s.current = some j ∧ s.joining = true ∧
    ((∃ c, t.pc = .get c ∧ s.buffer = [] ∧ s.waiting = [] ∧ ∀ m, Act.feed m ∉ acts) ∨
     (t.pc = .recv ∧ s.requests = [] ∧ ∀ c r, Act.request c r ∉ acts))

/-- One step of a streamer whose thread `j` waits in `get` or `recv` while `stop` waits for it. -/
theorem stuck_step {u u' : Streamer M} {a : Act M} {j : Nat} {p : Pc M} (hp : p = .recv ∨ ∃ c, p = .get c)
    (h1 : ∃ t, u.ifaces[j]? = some t ∧ t.pc = p) (h2 : u.current = some j) (h3 : u.joining = true)
    (hget : (∃ c, p = .get c) → u.buffer = []) (hrecv : p = .recv → u.requests = []) (hs : u.step a = some u') :
    (∃ t, u'.ifaces[j]? = some t ∧ t.pc = p) ∧ u'.current = some j ∧ u'.joining = true := by
  obtain ⟨t, ht, htp⟩ := h1
  have upd : ∀ {k : Nat} {v w : Iface M}, u.ifaces[k]? = some v → (k = j → w.pc = v.pc) → u'.ifaces = u.ifaces.set k w →
      ∃ t, u'.ifaces[j]? = some t ∧ t.pc = p := by
    intro k v w hv hw e
    by_cases hk : k = j
    · subst hk
      refine ⟨w, by rw [e]; exact getElem?_set_self' hv, ?_⟩
      rw [hw rfl, ← htp]
      rw [ht] at hv
      rw [Option.some.inj hv]
    · exact ⟨t, by rw [e]; exact getElem?_set_other ht (fun e => hk e.symm), htp⟩
  have named : ∀ {k : Nat} {a : Act M}, u.named k a = some u' →
      (∃ t, u'.ifaces[j]? = some t ∧ t.pc = p) ∧ u'.current = some j ∧ u'.joining = true := by
    intro k a hn
    obtain ⟨v, hv, ha, hs⟩ := Streamer.named_ok hn
    have hk : k ≠ j := by
      intro e
      subst e
      rw [ht] at hv
      obtain rfl := Option.some.inj hv
      rcases hp with rfl | ⟨c, rfl⟩
      · rw [htp] at ha; simp [Pc.act] at ha
      · simp only [Streamer.threadStep, htp, hget ⟨c, rfl⟩] at hs
        simp at hs
    unfold Streamer.threadStep at hs
    repeat' split at hs
    all_goals first
      | (simp at hs; done)
      | (obtain rfl := Option.some.inj hs; exact ⟨upd hv (fun e => absurd e hk) rfl, h2, h3⟩)
  have keep : u'.ifaces = u.ifaces → u'.current = u.current → u'.joining = u.joining →
      (∃ t, u'.ifaces[j]? = some t ∧ t.pc = p) ∧ u'.current = some j ∧ u'.joining = true := by
    intro e1 e2 e3
    rw [e1, e2, e3]
    exact ⟨⟨t, ht, htp⟩, h2, h3⟩
  cases a with
  | start => simp [Streamer.step, Streamer.start, h3] at hs
  | stop => simp [Streamer.step, Streamer.stop, h3] at hs
  | joined =>
    simp only [Streamer.step, Streamer.joined, h3, h2, ht, htp, if_true] at hs
    rcases hp with rfl | ⟨c, rfl⟩ <;> simp at hs
  | feed m => obtain rfl := Option.some.inj hs; exact keep rfl rfl rfl
  | put i => simp only [Streamer.step, Streamer.put] at hs; repeat' split at hs
             all_goals first
               | (simp at hs; done)
               | (obtain rfl := Option.some.inj hs; exact keep rfl rfl rfl)
  | request c r => obtain rfl := Option.some.inj hs; exact keep rfl rfl rfl
  | lose i => simp only [Streamer.step] at hs; repeat' split at hs
              all_goals first
                | (simp at hs; done)
                | (obtain rfl := Option.some.inj hs; exact keep rfl rfl rfl)
  | bind j => exact named hs
  | check j => exact named hs
  | handle j => exact named hs
  | get j => exact named hs
  | send j => exact named hs
  | close j => exact named hs
  | recv k i =>
    simp only [Streamer.step, Streamer.recv] at hs
    split at hs
    · rename_i v c r hv hr
      split at hs
      · rename_i hvp
        obtain rfl := Option.some.inj hs
        refine ⟨upd hv (w := { v with pc := .handle c r }) ?_ rfl, h2, h3⟩
        intro e
        subst e
        rw [ht] at hv
        obtain rfl := Option.some.inj hv
        rw [hrecv (htp.symm.trans hvp)] at hr
        simp at hr
      · simp at hs
    · simp at hs
  | deliver k i =>
    simp only [Streamer.step, Streamer.deliver] at hs
    split at hs
    · simp at hs
    · rename_i v hv
      split at hs
      · simp at hs
      · obtain rfl := Option.some.inj hs
        exact ⟨upd hv (w := { v with out := v.out.eraseIdx i }) (fun _ => rfl) rfl, h2, h3⟩

/-- Without `feed` nothing comes into an empty buffer. -/
theorem empty_step {u u' : Streamer M} {a : Act M} (hb : u.buffer = []) (hw : u.waiting = []) (ha : ∀ m, a ≠ .feed m)
    (hs : u.step a = some u') : u'.buffer = [] ∧ u'.waiting = [] := by
  have named : ∀ {k : Nat} {a : Act M}, u.named k a = some u' → u'.buffer = [] ∧ u'.waiting = [] := by
    intro k a hn
    obtain ⟨v, hv, -, hs⟩ := Streamer.named_ok hn
    unfold Streamer.threadStep at hs
    repeat' split at hs
    all_goals first
      | (simp at hs; done)
      | (rename_i hb'; rw [hb] at hb'; simp at hb')
      | (obtain rfl := Option.some.inj hs; exact ⟨hb, hw⟩)
  cases a with
  | feed m => exact absurd rfl (ha m)
  | put i => simp [Streamer.step, Streamer.put, hw] at hs
  | request c r => obtain rfl := Option.some.inj hs; exact ⟨hb, hw⟩
  | bind j => exact named hs
  | check j => exact named hs
  | handle j => exact named hs
  | get j => exact named hs
  | send j => exact named hs
  | close j => exact named hs
  | _ =>
    simp only [Streamer.step, Streamer.start, Streamer.stop, Streamer.joined, Streamer.recv, Streamer.deliver] at hs
    repeat' split at hs
    all_goals first
      | (simp at hs; done)
      | (obtain rfl := Option.some.inj hs; exact ⟨hb, hw⟩)

/-- Without `request` no request arrives. -/
theorem quiet_step {u u' : Streamer M} {a : Act M} (hr : u.requests = []) (ha : ∀ c r, a ≠ .request c r)
    (hs : u.step a = some u') : u'.requests = [] := by
  have named : ∀ {k : Nat} {a : Act M}, u.named k a = some u' → u'.requests = [] := by
    intro k a hn
    obtain ⟨v, hv, -, hs⟩ := Streamer.named_ok hn
    unfold Streamer.threadStep at hs
    repeat' split at hs
    all_goals first
      | (simp at hs; done)
      | (obtain rfl := Option.some.inj hs; exact hr)
  cases a with
  | request c r => exact absurd rfl (ha c r)
  | recv j i =>
    simp only [Streamer.step, Streamer.recv, hr] at hs
    simp at hs
  | lose i => simp [Streamer.step, hr] at hs
  | feed m => obtain rfl := Option.some.inj hs; exact hr
  | bind j => exact named hs
  | check j => exact named hs
  | handle j => exact named hs
  | get j => exact named hs
  | send j => exact named hs
  | close j => exact named hs
  | _ =>
    simp only [Streamer.step, Streamer.start, Streamer.stop, Streamer.joined, Streamer.put, Streamer.deliver] at hs
    repeat' split at hs
    all_goals first
      | (simp at hs; done)
      | (obtain rfl := Option.some.inj hs; exact hr)

/-- C66 is wrong: `stop` does not return as long as no train is fed although a client asks for one, or as long as no client
asks. -/
theorem stop_hangs {s s' : Streamer M} {acts : List (Act M)} (hs : Spec.Stuck s acts) (h : s.run acts = some s') :
    s'.joining = true := by
  obtain ⟨j, t, hj, hc, hjo, ⟨c, hp, hb, hw, hf⟩ | ⟨hp, hr, hq⟩⟩ := hs
  · have := Streamer.run_induct_mem
      (P := fun u : Streamer M => ((∃ t, u.ifaces[j]? = some t ∧ t.pc = .get c) ∧ u.current = some j ∧ u.joining = true) ∧
        u.buffer = [] ∧ u.waiting = [])
      (ok := fun a => ∀ m, a ≠ .feed m) ?_ ⟨⟨⟨t, hj, hp⟩, hc, hjo⟩, hb, hw⟩ (fun a ha m e => hf m (e ▸ ha)) h
    · exact this.1.2.2
    · intro u a u' ⟨⟨h1, h2, h3⟩, h4, h5⟩ hok hst
      exact ⟨stuck_step (Or.inr ⟨c, rfl⟩) h1 h2 h3 (fun _ => h4) (by simp) hst, empty_step h4 h5 hok hst⟩
  · have := Streamer.run_induct_mem
      (P := fun u : Streamer M => ((∃ t, u.ifaces[j]? = some t ∧ t.pc = .recv) ∧ u.current = some j ∧ u.joining = true) ∧
        u.requests = [])
      (ok := fun a => ∀ c r, a ≠ .request c r) ?_ ⟨⟨⟨t, hj, hp⟩, hc, hjo⟩, hr⟩ (fun a ha c r e => hq c r (e ▸ ha)) h
    · exact this.1.2.2
    · intro u a u' ⟨⟨h1, h2, h3⟩, h4⟩ hok hst
      exact ⟨stuck_step (Or.inl rfl) h1 h2 h3 (by simp) (fun _ => h4) hst, quiet_step h4 hok hst⟩

/-! ### Concrete runs -/

/-- Two trains are fed, one is asked for; then the streamer is stopped. -/
def exServe : List (Act Nat) :=
  [.start, .bind 0, .check 0, .feed 7, .put 0, .feed 8, .put 0, .request 3 (ch! "next"), .recv 0 0, .handle 0, .get 0, .send 0,
   .deliver 0 0, .stop, .check 0, .close 0, .joined]

/-- C66 is wrong: `stop` returns although a train which was fed is not sent (and by `nothing_after_stop` never will be,
unless the streamer is started again, which `serve_files` does not do). -/
theorem stop_loses_wrong : ∃ s, (Streamer.new Nat 10).run exServe = some s ∧ s.fed = [7, 8] ∧ s.current = none ∧
    s.received = [(3, 7)] ∧ s.buffer = [8] ∧ (∀ t ∈ s.ifaces, t.pc = .done ∧ t.out = []) := by
  refine ⟨_, rfl, ?_⟩
  decide

/-- C66 is wrong: a reply which was sent is dropped when the interface is closed before it is transmitted. -/
theorem stop_drops_wrong : ∃ s, (Streamer.new Nat 10).run [.start, .bind 0, .check 0, .feed 7, .put 0, .request 3 (ch! "next"),
      .recv 0 0, .handle 0, .get 0, .send 0, .stop, .check 0, .close 0, .joined] = some s ∧
    s.fed = [7] ∧ s.sent = [(3, 7)] ∧ s.buffer = [] ∧ s.received = [] ∧ Spec.inTransit s = [] ∧ s.current = none := by
  refine ⟨_, rfl, ?_⟩
  decide

/-- C66 is wrong: if the client asks for one more train than there are, or if no client asks, `stop` does not return. -/
theorem stop_hangs_wrong :
    (∃ s, (Streamer.new Nat 10).run [.start, .bind 0, .check 0, .feed 7, .put 0, .request 3 (ch! "next"), .recv 0 0, .handle 0,
      .get 0, .send 0, .deliver 0 0, .check 0, .request 3 (ch! "next"), .recv 0 0, .handle 0, .stop] = some s ∧ s.buffer = [] ∧
      ∀ (acts : List (Act Nat)) (s' : Streamer Nat), (∀ m, Act.feed m ∉ acts) → s.run acts = some s' → s'.joining = true) ∧
    (∃ s, (Streamer.new Nat 10).run [.start, .bind 0, .check 0, .feed 7, .put 0, .stop] = some s ∧
      ∀ (acts : List (Act Nat)) (s' : Streamer Nat), (∀ c r, Act.request c r ∉ acts) → s.run acts = some s' → s'.joining = true) := by
  constructor
  · refine ⟨_, rfl, rfl, ?_⟩
    intro acts s' hf h
    refine stop_hangs ⟨0, _, rfl, rfl, rfl, Or.inl ⟨3, rfl, rfl, rfl, hf⟩⟩ h
  · refine ⟨_, rfl, ?_⟩
    intro acts s' hf h
    refine stop_hangs ⟨0, _, rfl, rfl, rfl, Or.inr ⟨rfl, rfl, hf⟩⟩ h

/-- If `start` is called twice, `stop` returns while the first interface goes on and answers requests. -/
theorem double_start_wrong : ∃ s, (Streamer.new Nat 10).run [.start, .bind 0, .start, .bind 1, .stop, .joined, .check 0,
      .feed 7, .put 0, .request 3 (ch! "next"), .recv 0 0, .handle 0, .get 0, .send 0, .deliver 0 0] = some s ∧
    s.current = none ∧ s.received = [(3, 7)] := by
  refine ⟨_, rfl, ?_⟩
  decide

/-- The theorems apply to the run above; trains come in order. -/
example : ∃ s, (Streamer.new Nat 10).run exServe = some s ∧ Spec.InOrder s.sent s.fed ∧ s.sent = [(3, 7)] ∧
    Spec.repliesTo s 3 = 1 ∧ Spec.asksOf s 3 = 1 := by
  refine ⟨_, rfl, (stream_order (maxlen := 10) (acts := exServe) rfl).1, ?_⟩
  decide

/-- One thread feeds in this run, and starts the streamer once. -/
theorem exServe_once : Spec.OneFeeder (Streamer.new Nat 10) exServe ∧ Spec.StartsOnce (Streamer.new Nat 10) exServe := by
  have split : ∀ (l l' : List (Act Nat)) (a : Act Nat), exServe = l ++ a :: l' → l = exServe.take l.length ∧ exServe[l.length]? = some a := by
    intro l l' a e
    rw [e]
    simp
  have lens : ∀ (l l' : List (Act Nat)) (a : Act Nat), exServe = l ++ a :: l' → l.length < 17 := by
    intro l l' a e
    have := congrArg List.length e
    simp only [exServe, List.length_cons, List.length_nil, List.length_append] at this
    omega
  constructor
  · intro l l' m t e ht
    obtain ⟨h1, h2⟩ := split l l' _ e
    have h3 := lens l l' _ e
    rw [h1] at ht
    generalize l.length = n at h2 h3 ht
    interval_cases n <;> first
      | (exfalso; revert h2; simp [exServe]; done)
      | (obtain rfl := Option.some.inj ht; rfl)
  · intro l l' t e ht
    obtain ⟨h1, h2⟩ := split l l' _ e
    have h3 := lens l l' _ e
    rw [h1] at ht
    generalize l.length = n at h2 h3 ht
    interval_cases n <;> first
      | (exfalso; revert h2; simp [exServe]; done)
      | (obtain rfl := Option.some.inj ht; rfl)

example : ∃ s, (Streamer.new Nat 10).run exServe = some s ∧ s.fed = s.sent.map Prod.snd ++ s.buffer ∧ s.offered = s.fed ++ s.waiting :=
  ⟨_, rfl, stop_delivers_partial (maxlen := 10) (acts := exServe) rfl exServe_once.2 rfl,
    (stream_order_of_calls (maxlen := 10) (acts := exServe) rfl exServe_once.1).1⟩

/-- With room for one train, the second `feed` waits until a train was taken. -/
example : ∃ s, (Streamer.new Nat 1).run [.feed 7, .feed 8, .put 1] = some s ∧ s.fed = [8] ∧ s.step (.put 0) = none := by
  refine ⟨_, rfl, ?_⟩
  decide

end KD
