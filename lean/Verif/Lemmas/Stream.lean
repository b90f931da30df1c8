/- Invariants of the streaming state machine. -/
import Verif.Model.Stream
import Verif.Lemmas.Basic
import Mathlib.Data.List.Perm.Basic

set_option linter.unusedSimpArgs false

namespace KD

variable {M : Type}

/-- What holds in every state of a streamer. -/
structure Streamer.Inv (s : Streamer M) : Prop where
  /-- only one interface has the port -/
  one : ∀ (i j : Nat) (a b : Iface M), s.ifaces[i]? = some a → s.ifaces[j]? = some b → a.active = true → b.active = true → i = j
  queue : s.fed = s.taken ++ s.buffer
  sending : ∀ (j : Nat) (a : Iface M) (c : Nat) (m : M), s.ifaces[j]? = some a → a.pc = .send c m → s.taken = s.sent.map Prod.snd ++ [m]
  notSending : (∀ (j : Nat) (a : Iface M) (c : Nat) (m : M), s.ifaces[j]? = some a → a.pc ≠ .send c m) → s.taken = s.sent.map Prod.snd
  bounded : 0 < s.maxlen → (s.buffer.length : Int) ≤ s.maxlen
  offered : s.offered.Perm (s.waiting ++ s.fed)
  current : ∀ j : Nat, s.current = some j → j < s.ifaces.length
  joinCurrent : s.joining = true → s.current.isSome = true

theorem getElem?_set_cases {α : Type _} {l : List α} {j i : Nat} {t x : α} (h : (l.set j t)[i]? = some x) :
    (i = j ∧ x = t ∧ j < l.length) ∨ (i ≠ j ∧ l[i]? = some x) := by
  rw [List.getElem?_set] at h
  split at h
  · rename_i e
    split at h
    · exact Or.inl ⟨e.symm, (Option.some.inj h).symm, by assumption⟩
    · simp at h
  · rename_i e
    exact Or.inr ⟨fun h => e h.symm, h⟩

theorem getElem?_set_other {α : Type _} {l : List α} {j i : Nat} {t x : α} (h : l[i]? = some x) (hne : i ≠ j) :
    (l.set j t)[i]? = some x := by
  rw [List.getElem?_set_ne (by omega)]
  exact h

theorem getElem?_set_self' {α : Type _} {l : List α} {j : Nat} {t x : α} (h : l[j]? = some x) : (l.set j t)[j]? = some t := by
  rw [List.getElem?_set_self (List.getElem?_eq_some_iff.1 h).1]

/-- A change of one interface to a state which sends nothing, when nothing is being sent by it. -/
theorem Streamer.Inv.change {s : Streamer M} (h : s.Inv) {j : Nat} {a b : Iface M} (hj : s.ifaces[j]? = some a)
    (hact : b.active = true → a.active = true ∨ ∀ (i : Nat) (x : Iface M), s.ifaces[i]? = some x → x.active = false)
    (ha : ∀ c m, a.pc ≠ .send c m) (hb : ∀ c m, b.pc ≠ .send c m) : (s.setIface j b).Inv := by
  unfold Streamer.setIface
  refine ⟨?_, h.queue, ?_, ?_, h.bounded, h.offered, ?_, h.joinCurrent⟩
  · intro i k x y hx hy ax ay
    simp only at hx hy
    rcases getElem?_set_cases hx with ⟨rfl, rfl, -⟩ | ⟨hi, hx2⟩ <;> rcases getElem?_set_cases hy with ⟨rfl, rfl, -⟩ | ⟨hk, hy2⟩
    · rfl
    · rcases hact ax with h1 | h1
      · exact h.one _ _ _ _ hj hy2 h1 ay
      · rw [h1 _ _ hy2] at ay; simp at ay
    · rcases hact ay with h1 | h1
      · exact h.one _ _ _ _ hx2 hj ax h1
      · rw [h1 _ _ hx2] at ax; simp at ax
    · exact h.one _ _ _ _ hx2 hy2 ax ay
  · intro i x c m hx hpc
    simp only at hx
    rcases getElem?_set_cases hx with ⟨rfl, rfl, -⟩ | ⟨hi, hx⟩
    · exact absurd hpc (hb c m)
    · exact h.sending i x c m hx hpc
  · intro hn
    simp only at hn
    apply h.notSending
    intro i x c m hx hpc
    by_cases hij : i = j
    · subst hij
      rw [hj] at hx
      exact ha c m (Option.some.inj hx ▸ hpc)
    · exact hn i x c m (getElem?_set_other hx hij) hpc
  · intro k hk
    simp only [List.length_set]
    exact h.current k hk

/-- A change of an interface which leaves the position of its thread. -/
theorem Streamer.Inv.samePc {s : Streamer M} (h : s.Inv) {j : Nat} {a b : Iface M} (hj : s.ifaces[j]? = some a)
    (hpc : b.pc = a.pc) : (s.setIface j b).Inv := by
  have hact : ∀ {x y : Iface M}, x.pc = y.pc → x.active = y.active := by
    intro x y e; unfold Iface.active; rw [e]
  have old : ∀ (i : Nat) (x : Iface M), (s.ifaces.set j b)[i]? = some x → ∃ y, s.ifaces[i]? = some y ∧ x.pc = y.pc := by
    intro i x hx
    rcases getElem?_set_cases hx with ⟨rfl, rfl, -⟩ | ⟨hi, hx⟩
    · exact ⟨a, hj, hpc⟩
    · exact ⟨x, hx, rfl⟩
  unfold Streamer.setIface
  refine ⟨?_, h.queue, ?_, ?_, h.bounded, h.offered, ?_, h.joinCurrent⟩
  · intro i k x y hx hy ax ay
    obtain ⟨x', hx', ex⟩ := old i x hx
    obtain ⟨y', hy', ey⟩ := old k y hy
    exact h.one _ _ _ _ hx' hy' (hact ex ▸ ax) (hact ey ▸ ay)
  · intro i x c m hx hp
    obtain ⟨x', hx', ex⟩ := old i x hx
    exact h.sending i x' c m hx' (ex ▸ hp)
  · intro hn
    apply h.notSending
    intro i x c m hx hp
    by_cases hij : i = j
    · subst hij
      rw [hj] at hx
      obtain rfl := Option.some.inj hx
      exact hn i b c m (getElem?_set_self' hj) (hpc.trans hp)
    · exact hn i x c m (getElem?_set_other hx hij) hp
  · intro k hk
    simp only [List.length_set]
    exact h.current k hk

theorem Streamer.Inv.new (maxlen : Int) : (Streamer.new M maxlen).Inv := by
  refine ⟨?_, rfl, ?_, fun _ => rfl, ?_, List.Perm.refl _, ?_, ?_⟩ <;> simp [Streamer.new]
  omega

theorem Iface.active_of_get {t : Iface M} {c : Nat} (h : t.pc = .get c) : t.active = true := by
  unfold Iface.active; rw [h]

theorem Iface.active_of_send {t : Iface M} {c : Nat} {m : M} (h : t.pc = .send c m) : t.active = true := by
  unfold Iface.active; rw [h]

theorem Streamer.Inv.threadStep {s s' : Streamer M} (h : s.Inv) {j : Nat} {t : Iface M} (hj : s.ifaces[j]? = some t)
    (hs : s.threadStep j t = some s') : s'.Inv := by
  unfold Streamer.threadStep at hs
  split at hs
  · rename_i hpc
    split at hs
    · obtain rfl := Option.some.inj hs
      exact h.change hj (by simp [Iface.active]) (by simp [hpc]) (by simp)
    · rename_i hany
      obtain rfl := Option.some.inj hs
      refine h.change hj (fun _ => Or.inr ?_) (by simp [hpc]) (by simp)
      intro i x hx
      simp only [List.any_eq_true, not_exists, not_and, Bool.not_eq_true] at hany
      exact hany x (List.mem_of_getElem? hx)
  · rename_i hpc
    obtain rfl := Option.some.inj hs
    refine h.change hj (fun _ => Or.inl (by unfold Iface.active; rw [hpc])) (by simp [hpc]) ?_
    intro c m
    split <;> simp
  · simp at hs
  · rename_i c r hpc
    obtain rfl := Option.some.inj hs
    refine h.change hj (fun _ => Or.inl (by unfold Iface.active; rw [hpc])) (by simp [hpc]) ?_
    intro c m
    simp only
    split <;> simp
  · rename_i c hpc
    split at hs
    · simp at hs
    · rename_i m rest hb
      obtain rfl := Option.some.inj hs
      have hact := Iface.active_of_get hpc
      have hno : ∀ (i : Nat) (a : Iface M) (c : Nat) (m : M), s.ifaces[i]? = some a → a.pc ≠ .send c m := by
        intro i a c' m' ha hp
        have := h.one _ _ _ _ ha hj (Iface.active_of_send hp) hact
        subst this
        rw [hj] at ha
        obtain rfl := Option.some.inj ha
        rw [hpc] at hp
        simp at hp
      have htk := h.notSending hno
      refine ⟨?_, ?_, ?_, ?_, ?_, h.offered, ?_, h.joinCurrent⟩
      · intro i k x y hx hy ax ay
        simp only [Streamer.setIface] at hx hy
        rcases getElem?_set_cases hx with ⟨rfl, rfl, -⟩ | ⟨hi, hx2⟩ <;> rcases getElem?_set_cases hy with ⟨rfl, rfl, -⟩ | ⟨hk, hy2⟩
        · rfl
        · exact h.one _ _ _ _ hj hy2 hact ay
        · exact h.one _ _ _ _ hx2 hj ax hact
        · exact h.one _ _ _ _ hx2 hy2 ax ay
      · simp only [Streamer.setIface]
        rw [h.queue, hb]
        simp
      · intro i x c' m' hx hp
        simp only [Streamer.setIface] at hx
        rcases getElem?_set_cases hx with ⟨rfl, rfl, -⟩ | ⟨hi, hx⟩
        · simp only [Pc.send.injEq] at hp
          simp only [Streamer.setIface]
          rw [htk, hp.2]
        · exact absurd hp (hno i x c' m' hx)
      · intro hn
        exact absurd rfl (hn j _ c m (getElem?_set_self' hj))
      · intro hm
        have := h.bounded hm
        rw [hb] at this
        simp only [List.length_cons] at this
        show (rest.length : Int) ≤ s.maxlen
        omega
      · intro k hk
        simp only [Streamer.setIface, List.length_set]
        exact h.current k hk
  · rename_i c m hpc
    obtain rfl := Option.some.inj hs
    have hact := Iface.active_of_send hpc
    have htk := h.sending j t c m hj hpc
    have hno : ∀ (i : Nat) (a : Iface M), i ≠ j → s.ifaces[i]? = some a → ∀ (c : Nat) (m : M), a.pc ≠ .send c m := by
      intro i a hi ha c' m' hp
      exact hi (h.one _ _ _ _ ha hj (Iface.active_of_send hp) hact)
    refine ⟨?_, h.queue, ?_, ?_, h.bounded, h.offered, ?_, h.joinCurrent⟩
    · intro i k x y hx hy ax ay
      simp only [Streamer.setIface] at hx hy
      rcases getElem?_set_cases hx with ⟨rfl, rfl, -⟩ | ⟨hi, hx2⟩ <;> rcases getElem?_set_cases hy with ⟨rfl, rfl, -⟩ | ⟨hk, hy2⟩
      · rfl
      · exact h.one _ _ _ _ hj hy2 hact ay
      · exact h.one _ _ _ _ hx2 hj ax hact
      · exact h.one _ _ _ _ hx2 hy2 ax ay
    · intro i x c' m' hx hp
      simp only [Streamer.setIface] at hx
      rcases getElem?_set_cases hx with ⟨rfl, rfl, -⟩ | ⟨hi, hx⟩
      · simp at hp
      · exact absurd hp (hno i x hi hx c' m')
    · intro _
      simp only [Streamer.setIface, List.map_append, List.map_cons, List.map_nil]
      exact htk
    · intro k hk
      simp only [Streamer.setIface, List.length_set]
      exact h.current k hk
  · rename_i hpc
    obtain rfl := Option.some.inj hs
    exact h.change hj (by simp [Iface.active]) (by simp [hpc]) (by simp)
  · simp at hs

theorem eraseIdx_perm {α : Type _} {l : List α} {i : Nat} {x : α} (h : l[i]? = some x) : (x :: l.eraseIdx i).Perm l := by
  obtain ⟨hlt, rfl⟩ := List.getElem?_eq_some_iff.1 h
  exact List.getElem_cons_eraseIdx_perm hlt

theorem Streamer.named_ok [DecidableEq M] {s s' : Streamer M} {j : Nat} {a : Act M} (h : s.named j a = some s') :
    ∃ t, s.ifaces[j]? = some t ∧ t.pc.act j = some a ∧ s.threadStep j t = some s' := by
  unfold Streamer.named at h
  split at h
  · simp at h
  · rename_i t ht
    split at h
    · rename_i ha
      exact ⟨t, ht, ha, h⟩
    · simp at h

theorem Streamer.Inv.step [DecidableEq M] {s s' : Streamer M} (h : s.Inv) {a : Act M} (hs : s.step a = some s') : s'.Inv := by
  have named : ∀ {j : Nat} {a : Act M}, s.named j a = some s' → s'.Inv := by
    intro j a hn
    obtain ⟨t, h1, -, h3⟩ := Streamer.named_ok hn
    exact h.threadStep h1 h3
  cases a with
  | start =>
    simp only [Streamer.step, Streamer.start] at hs
    split at hs
    · simp at hs
    · rename_i hjo
      obtain rfl := Option.some.inj hs
      have old : ∀ (i : Nat) (x : Iface M), (s.ifaces ++ [⟨.bind, false, []⟩])[i]? = some x →
          s.ifaces[i]? = some x ∨ x.pc = .bind := by
        intro i x hx
        rw [List.getElem?_append] at hx
        split at hx
        · exact Or.inl hx
        · rw [List.getElem?_singleton] at hx
          split at hx
          · obtain rfl := Option.some.inj hx; exact Or.inr rfl
          · simp at hx
      have inact : ∀ x : Iface M, x.pc = .bind → x.active = false := by
        intro x hx; unfold Iface.active; rw [hx]
      refine ⟨?_, h.queue, ?_, ?_, h.bounded, h.offered, ?_, ?_⟩
      · intro i k x y hx hy ax ay
        rcases old i x hx with hx | hx
        · rcases old k y hy with hy | hy
          · exact h.one _ _ _ _ hx hy ax ay
          · rw [inact y hy] at ay; simp at ay
        · rw [inact x hx] at ax; simp at ax
      · intro i x c m hx hp
        rcases old i x hx with hx | hx
        · exact h.sending i x c m hx hp
        · rw [hx] at hp; simp at hp
      · intro hn
        apply h.notSending
        intro i x c m hx
        refine hn i x c m ?_
        rw [List.getElem?_append_left (List.getElem?_eq_some_iff.1 hx).1]
        exact hx
      · intro j hj
        simp only [Option.some.injEq] at hj
        subst hj
        simp
      · intro hj; exact absurd hj hjo
  | stop =>
    simp only [Streamer.step, Streamer.stop] at hs
    split at hs
    · simp at hs
    · split at hs
      · obtain rfl := Option.some.inj hs; exact h
      · rename_i j hcur
        split at hs
        · simp at hs
        · rename_i t ht
          obtain rfl := Option.some.inj hs
          have := h.samePc (b := { t with stopped := true }) ht rfl
          exact ⟨this.one, this.queue, this.sending, this.notSending, this.bounded, this.offered, this.current,
            fun _ => by simp [Streamer.setIface, hcur]⟩
  | joined =>
    simp only [Streamer.step, Streamer.joined] at hs
    split at hs
    · split at hs
      · simp at hs
      · split at hs
        · simp at hs
        · split at hs
          · obtain rfl := Option.some.inj hs
            exact ⟨h.one, h.queue, h.sending, h.notSending, h.bounded, h.offered, by simp, by simp⟩
          · simp at hs
    · simp at hs
  | feed m =>
    obtain rfl := Option.some.inj hs
    refine ⟨h.one, h.queue, h.sending, h.notSending, h.bounded, ?_, h.current, h.joinCurrent⟩
    refine (h.offered.append_right [m]).trans ?_
    simp only [List.append_assoc]
    exact List.perm_append_comm.append_left _
  | put i =>
    simp only [Streamer.step, Streamer.put] at hs
    split at hs
    · simp at hs
    · rename_i m hm
      split at hs
      · rename_i hr
        obtain rfl := Option.some.inj hs
        refine ⟨h.one, ?_, h.sending, h.notSending, ?_, ?_, h.current, h.joinCurrent⟩
        · simp only [h.queue, List.append_assoc]
        · intro hp
          simp only [Streamer.room, Bool.or_eq_true, decide_eq_true_eq] at hr
          simp only at hp
          simp only [List.length_append, List.length_cons, List.length_nil]
          omega
        · refine h.offered.trans ?_
          refine ((eraseIdx_perm hm).symm.append_right s.fed).trans ?_
          simp only [List.cons_append]
          refine List.Perm.trans ?_ (List.perm_append_comm (l₁ := s.fed ++ [m]))
          rw [List.append_assoc]
          refine List.Perm.trans ?_ (List.perm_middle (l₁ := s.fed)).symm
          exact (List.perm_append_comm).cons _
      · simp at hs
  | request c r =>
    obtain rfl := Option.some.inj hs
    exact ⟨h.one, h.queue, h.sending, h.notSending, h.bounded, h.offered, h.current, h.joinCurrent⟩
  | lose i =>
    simp only [Streamer.step] at hs
    split at hs
    · obtain rfl := Option.some.inj hs
      exact ⟨h.one, h.queue, h.sending, h.notSending, h.bounded, h.offered, h.current, h.joinCurrent⟩
    · simp at hs
  | bind j => exact named hs
  | check j => exact named hs
  | handle j => exact named hs
  | get j => exact named hs
  | send j => exact named hs
  | close j => exact named hs
  | recv j i =>
    simp only [Streamer.step, Streamer.recv] at hs
    split at hs
    · rename_i t c r ht hr
      split at hs
      · rename_i hpc
        obtain rfl := Option.some.inj hs
        have := h.change (b := { t with pc := .handle c r }) ht (fun _ => Or.inl (by unfold Iface.active; rw [hpc])) (by simp [hpc]) (by simp)
        exact ⟨this.one, this.queue, this.sending, this.notSending, this.bounded, this.offered, this.current, this.joinCurrent⟩
      · simp at hs
    · simp at hs
  | deliver j i =>
    simp only [Streamer.step, Streamer.deliver] at hs
    split at hs
    · simp at hs
    · rename_i t ht
      split at hs
      · simp at hs
      · rename_i x hx
        obtain rfl := Option.some.inj hs
        have := h.samePc (b := { t with out := t.out.eraseIdx i }) ht rfl
        exact ⟨this.one, this.queue, this.sending, this.notSending, this.bounded, this.offered, this.current, this.joinCurrent⟩

theorem Streamer.run_cons [DecidableEq M] {s s' : Streamer M} {a : Act M} {l : List (Act M)} (h : s.run (a :: l) = some s') :
    ∃ t, s.step a = some t ∧ t.run l = some s' := by
  simp only [Streamer.run] at h
  split at h
  · simp at h
  · rename_i t ht
    exact ⟨t, ht, h⟩

theorem Streamer.run_induct [DecidableEq M] {P : Streamer M → Prop} (hstep : ∀ s a s', P s → s.step a = some s' → P s')
    {s s' : Streamer M} (h0 : P s) {l : List (Act M)} (h : s.run l = some s') : P s' := by
  induction l generalizing s with
  | nil => obtain rfl := Option.some.inj h; exact h0
  | cons a l ih =>
    obtain ⟨t, h1, h2⟩ := Streamer.run_cons h
    exact ih (hstep s a t h0 h1) h2

theorem Streamer.run_induct_mem [DecidableEq M] {P : Streamer M → Prop} {ok : Act M → Prop}
    (hstep : ∀ s a s', P s → ok a → s.step a = some s' → P s')
    {s s' : Streamer M} (h0 : P s) {l : List (Act M)} (hl : ∀ a ∈ l, ok a) (h : s.run l = some s') : P s' := by
  induction l generalizing s with
  | nil => obtain rfl := Option.some.inj h; exact h0
  | cons a l ih =>
    obtain ⟨t, h1, h2⟩ := Streamer.run_cons h
    exact ih (hstep s a t h0 (hl a (by simp)) h1) (fun b hb => hl b (by simp [hb])) h2

theorem Streamer.run_append [DecidableEq M] {s t : Streamer M} {l m : List (Act M)} (h : s.run l = some t) :
    s.run (l ++ m) = t.run m := by
  induction l generalizing s with
  | nil => obtain rfl := Option.some.inj h; rfl
  | cons a l ih =>
    obtain ⟨u, h1, h2⟩ := Streamer.run_cons h
    simp only [List.cons_append, Streamer.run, h1]
    exact ih h2

end KD
