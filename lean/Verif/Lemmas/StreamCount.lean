/- Counting requests and replies of the streaming state machine. -/
import Verif.Lemmas.Stream
import Mathlib.Algebra.BigOperators.Group.List.Basic

set_option linter.unusedSimpArgs false

namespace KD

variable {M : Type}

/-- Is the interface at work on a request "next" of this client? -/
def Iface.busy (c : Nat) (t : Iface M) : Nat :=
  match t.pc with
  | .handle c' r => if c' = c ∧ r = ch! "next" then 1 else 0
  | .get c' => if c' = c then 1 else 0
  | .send c' _ => if c' = c then 1 else 0
  | _ => 0

theorem sum_map_set {α : Type _} (f : α → Nat) {l : List α} {j : Nat} {a b : α} (h : l[j]? = some a) :
    ((l.set j b).map f).sum + f a = (l.map f).sum + f b := by
  induction l generalizing j with
  | nil => simp at h
  | cons x l ih =>
    cases j with
    | zero =>
      simp only [List.getElem?_cons_zero, Option.some.injEq] at h
      subst h
      simp only [List.set_cons_zero, List.map_cons, List.sum_cons]
      omega
    | succ j =>
      simp only [List.getElem?_cons_succ] at h
      have := ih h
      simp only [List.set_cons_succ, List.map_cons, List.sum_cons]
      omega

theorem count_eraseIdx {α : Type _} [BEq α] [LawfulBEq α] [DecidableEq α] {l : List α} {i : Nat} {x : α} (h : l[i]? = some x) (y : α) :
    (l.eraseIdx i).count y + (if x = y then 1 else 0) = l.count y := by
  have := (eraseIdx_perm h).count_eq y
  rw [List.count_cons] at this
  simpa using this

/-- The number of "next" requests of a client is at least what is pending, at work and answered. -/
def Streamer.Counts (c : Nat) (s : Streamer M) : Prop :=
  (s.sent.map Prod.fst).count c + (s.ifaces.map (Iface.busy c)).sum + s.requests.count (c, ch! "next")
    ≤ s.asked.count (c, ch! "next")

theorem Streamer.Counts.new (c : Nat) (maxlen : Int) : (Streamer.new M maxlen).Counts c := by
  simp [Streamer.Counts, Streamer.new]

theorem Streamer.Counts.step [DecidableEq M] {c : Nat} {s s' : Streamer M} (h : s.Counts c) {a : Act M}
    (hs : s.step a = some s') : s'.Counts c := by
  have named : ∀ {j : Nat} {a : Act M}, s.named j a = some s' → s'.Counts c := by
    intro j a hn
    obtain ⟨t, ht, -, hs⟩ := Streamer.named_ok hn
    unfold Streamer.Counts at h ⊢
    unfold Streamer.threadStep at hs
    split at hs
    · rename_i hpc
      split at hs
      · obtain rfl := Option.some.inj hs
        have := sum_map_set (Iface.busy c) (b := { t with pc := .done }) ht
        simp only [Streamer.setIface, Iface.busy, hpc] at this ⊢
        omega
      · obtain rfl := Option.some.inj hs
        have := sum_map_set (Iface.busy c) (b := { t with pc := .check }) ht
        simp only [Streamer.setIface, Iface.busy, hpc] at this ⊢
        omega
    · rename_i hpc
      obtain rfl := Option.some.inj hs
      have := sum_map_set (Iface.busy c) (b := { t with pc := if t.stopped then .closing else .recv }) ht
      have h0 : Iface.busy c { t with pc := if t.stopped then .closing else .recv } = 0 := by
        unfold Iface.busy; simp only; cases t.stopped <;> rfl
      rw [h0] at this
      simp only [Streamer.setIface] at this ⊢
      omega
    · simp at hs
    · rename_i c' r hpc
      obtain rfl := Option.some.inj hs
      have := sum_map_set (Iface.busy c) (b := { t with pc := if r ≠ ch! "next" then .closing else .get c' }) ht
      have h0 : Iface.busy c { t with pc := if r ≠ ch! "next" then .closing else .get c' } = Iface.busy c t := by
        by_cases hr : r = ch! "next"
        · simp [Iface.busy, hpc, hr]
        · simp [Iface.busy, hpc, hr]
      rw [h0] at this
      simp only [Streamer.setIface] at this ⊢
      omega
    · rename_i c' hpc
      split at hs
      · simp at hs
      · rename_i m rest hb
        obtain rfl := Option.some.inj hs
        have := sum_map_set (Iface.busy c) (b := { t with pc := .send c' m }) ht
        have h0 : Iface.busy c { t with pc := .send c' m } = Iface.busy c t := by
          simp [Iface.busy, hpc]
        rw [h0] at this
        simp only [Streamer.setIface] at this ⊢
        omega
    · rename_i c' m hpc
      obtain rfl := Option.some.inj hs
      have := sum_map_set (Iface.busy c) (b := { t with pc := .check, out := t.out ++ [(c', m)] }) ht
      have h0 : Iface.busy c { t with pc := .check, out := t.out ++ [(c', m)] } = 0 := rfl
      have h1 : Iface.busy c t = if c' = c then 1 else 0 := by simp [Iface.busy, hpc]
      rw [h0, h1] at this
      simp only [Streamer.setIface, List.map_append, List.map_cons, List.map_nil, List.count_append] at this ⊢
      rw [List.count_singleton]
      simp only [beq_iff_eq] at this ⊢
      omega
    · rename_i hpc
      obtain rfl := Option.some.inj hs
      have := sum_map_set (Iface.busy c) (b := { t with pc := .done, out := [] }) ht
      simp only [Streamer.setIface, Iface.busy, hpc] at this ⊢
      omega
    · simp at hs
  unfold Streamer.Counts at h ⊢
  cases a with
  | start =>
    simp only [Streamer.step, Streamer.start] at hs
    split at hs
    · simp at hs
    · obtain rfl := Option.some.inj hs
      simp only [List.map_append, List.map_cons, List.map_nil, List.sum_append, List.sum_cons, List.sum_nil, Iface.busy]
      omega
  | stop =>
    simp only [Streamer.step, Streamer.stop] at hs
    split at hs
    · simp at hs
    · split at hs
      · obtain rfl := Option.some.inj hs; exact h
      · split at hs
        · simp at hs
        · rename_i t ht
          obtain rfl := Option.some.inj hs
          have := sum_map_set (Iface.busy c) (b := { t with stopped := true }) ht
          have h0 : Iface.busy c { t with stopped := true } = Iface.busy c t := rfl
          simp only [Streamer.setIface] at this ⊢
          omega
  | joined =>
    simp only [Streamer.step, Streamer.joined] at hs
    split at hs
    · split at hs
      · simp at hs
      · split at hs
        · simp at hs
        · split at hs
          · obtain rfl := Option.some.inj hs; exact h
          · simp at hs
    · simp at hs
  | feed m => obtain rfl := Option.some.inj hs; exact h
  | put i =>
    simp only [Streamer.step, Streamer.put] at hs
    split at hs
    · simp at hs
    · split at hs
      · obtain rfl := Option.some.inj hs; exact h
      · simp at hs
  | request c' r =>
    obtain rfl := Option.some.inj hs
    simp only [List.count_append]
    omega
  | lose i =>
    simp only [Streamer.step] at hs
    split at hs
    · rename_i hi
      obtain rfl := Option.some.inj hs
      have := count_eraseIdx (List.getElem?_eq_getElem hi) (c, ch! "next")
      simp only
      omega
    · simp at hs
  | bind j => exact named hs
  | check j => exact named hs
  | handle j => exact named hs
  | get j => exact named hs
  | send j => exact named hs
  | close j => exact named hs
  | recv j i =>
    simp only [Streamer.step, Streamer.recv] at hs
    split at hs
    · rename_i t c' r ht hr
      split at hs
      · rename_i hpc
        obtain rfl := Option.some.inj hs
        have h1 := sum_map_set (Iface.busy c) (b := { t with pc := .handle c' r }) ht
        have h2 := count_eraseIdx hr (c, ch! "next")
        have h3 : Iface.busy c t = 0 := by simp [Iface.busy, hpc]
        have h4 : Iface.busy c { t with pc := .handle c' r } = if (c', r) = (c, ch! "next") then 1 else 0 := by
          simp only [Iface.busy, Prod.mk.injEq]
        simp only [Streamer.setIface] at h1 ⊢
        rw [h3, h4] at h1
        omega
      · simp at hs
    · simp at hs
  | deliver j i =>
    simp only [Streamer.step, Streamer.deliver] at hs
    split at hs
    · simp at hs
    · rename_i t ht
      split at hs
      · simp at hs
      · obtain rfl := Option.some.inj hs
        have := sum_map_set (Iface.busy c) (b := { t with out := t.out.eraseIdx i }) ht
        have h0 : Iface.busy c { t with out := t.out.eraseIdx i } = Iface.busy c t := rfl
        simp only [Streamer.setIface] at this ⊢
        omega

/-- What clients got, and what is in the sockets, was sent. -/
def Streamer.Delivered [DecidableEq M] (x : Nat × M) (s : Streamer M) : Prop :=
  s.received.count x + (s.ifaces.map (fun t => t.out.count x)).sum ≤ s.sent.count x

theorem Streamer.Delivered.new [DecidableEq M] (x : Nat × M) (maxlen : Int) : (Streamer.new M maxlen).Delivered x := by
  simp [Streamer.Delivered, Streamer.new]

theorem Streamer.Delivered.step [DecidableEq M] {x : Nat × M} {s s' : Streamer M} (h : s.Delivered x) {a : Act M}
    (hs : s.step a = some s') : s'.Delivered x := by
  unfold Streamer.Delivered at h ⊢
  have same : ∀ {j : Nat} {t : Iface M} {p : Pc M} {b : Bool}, s.ifaces[j]? = some t →
      ((s.ifaces.set j ⟨p, b, t.out⟩).map (fun t => t.out.count x)).sum = (s.ifaces.map (fun t => t.out.count x)).sum := by
    intro j t p b ht
    have := sum_map_set (fun t : Iface M => t.out.count x) (b := ⟨p, b, t.out⟩) ht
    simp only at this
    omega
  have named : ∀ {j : Nat} {a : Act M}, s.named j a = some s' →
      s'.received.count x + (s'.ifaces.map (fun t => t.out.count x)).sum ≤ s'.sent.count x := by
    intro j a hn
    obtain ⟨t, ht, -, hs⟩ := Streamer.named_ok hn
    unfold Streamer.threadStep at hs
    split at hs
    · split at hs
      · obtain rfl := Option.some.inj hs
        simp only [Streamer.setIface]; rw [same ht]; exact h
      · obtain rfl := Option.some.inj hs
        simp only [Streamer.setIface]; rw [same ht]; exact h
    · obtain rfl := Option.some.inj hs
      simp only [Streamer.setIface]; rw [same ht]; exact h
    · simp at hs
    · obtain rfl := Option.some.inj hs
      simp only [Streamer.setIface]; rw [same ht]; exact h
    · split at hs
      · simp at hs
      · obtain rfl := Option.some.inj hs
        simp only [Streamer.setIface]; rw [same ht]; exact h
    · rename_i c' m hpc
      obtain rfl := Option.some.inj hs
      have := sum_map_set (fun t : Iface M => t.out.count x) (b := { t with pc := .check, out := t.out ++ [(c', m)] }) ht
      simp only [Streamer.setIface, List.count_append] at this ⊢
      omega
    · obtain rfl := Option.some.inj hs
      have := sum_map_set (fun t : Iface M => t.out.count x) (b := { t with pc := .done, out := [] }) ht
      simp only [Streamer.setIface, List.count_nil] at this ⊢
      omega
    · simp at hs
  cases a with
  | start =>
    simp only [Streamer.step, Streamer.start] at hs
    split at hs
    · simp at hs
    · obtain rfl := Option.some.inj hs
      simp only [List.map_append, List.map_cons, List.map_nil, List.sum_append, List.sum_cons, List.sum_nil, List.count_nil]
      omega
  | stop =>
    simp only [Streamer.step, Streamer.stop] at hs
    split at hs
    · simp at hs
    · split at hs
      · obtain rfl := Option.some.inj hs; exact h
      · split at hs
        · simp at hs
        · rename_i t ht
          obtain rfl := Option.some.inj hs
          simp only [Streamer.setIface]; rw [same ht]; exact h
  | joined =>
    simp only [Streamer.step, Streamer.joined] at hs
    split at hs
    · split at hs
      · simp at hs
      · split at hs
        · simp at hs
        · split at hs
          · obtain rfl := Option.some.inj hs; exact h
          · simp at hs
    · simp at hs
  | feed m => obtain rfl := Option.some.inj hs; exact h
  | put i =>
    simp only [Streamer.step, Streamer.put] at hs
    split at hs
    · simp at hs
    · split at hs
      · obtain rfl := Option.some.inj hs; exact h
      · simp at hs
  | request c' r => obtain rfl := Option.some.inj hs; exact h
  | lose i =>
    simp only [Streamer.step] at hs
    split at hs
    · obtain rfl := Option.some.inj hs; exact h
    · simp at hs
  | bind j => exact named hs
  | check j => exact named hs
  | handle j => exact named hs
  | get j => exact named hs
  | send j => exact named hs
  | close j => exact named hs
  | recv j i =>
    simp only [Streamer.step, Streamer.recv] at hs
    split at hs
    · rename_i t c' r ht hr
      split at hs
      · obtain rfl := Option.some.inj hs
        simp only [Streamer.setIface]; rw [same ht]; exact h
      · simp at hs
    · simp at hs
  | deliver j i =>
    simp only [Streamer.step, Streamer.deliver] at hs
    split at hs
    · simp at hs
    · rename_i t ht
      split at hs
      · simp at hs
      · rename_i y hy
        obtain rfl := Option.some.inj hs
        have h1 := sum_map_set (fun t : Iface M => t.out.count x) (b := { t with out := t.out.eraseIdx i }) ht
        have h2 := count_eraseIdx hy x
        simp only [Streamer.setIface, List.count_append, List.count_singleton, beq_iff_eq] at h1 ⊢
        omega

end KD
