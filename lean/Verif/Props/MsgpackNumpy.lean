/-
C157 The bytes of stream messages of protocol version 1.0.
-/
import Verif.Spec.MsgpackNumpy
import Verif.Props.Msgpack

set_option linter.unusedSimpArgs false

namespace KD.Mp

open KD.Mp.Spec (unpack unpackDict head takeBytes text readFields isKey field toItem readItem readProps readSources clientV1 seenV1 WellSized
  SmallValue SmallData chunks shapeOf Short Item)

variable {N : Type}

theorem readFields_pack {l : List (Obj × Obj)} (h : fieldsFit l = true) {f : Nat} (hf : 2 * (packFields l).length ≤ f) (r : List UInt8) :
    readFields f l.length (packFields l ++ r) = some (l, r) := by
  induction l with
  | nil => rfl
  | cons x l ih =>
    obtain ⟨k, o⟩ := x
    simp only [fieldsFit, List.all_cons, Bool.and_eq_true] at h
    obtain ⟨⟨hk, ho⟩, hl⟩ := h
    simp only [packFields, List.length_append] at hf
    simp only [packFields, List.length_cons, readFields, List.append_assoc]
    rw [(unpack_pack k hk f (by omega) _).2]
    simp only
    rw [(unpack_pack o ho f (by omega) _).2]
    simp only
    rw [ih hl (by omega)]
    rfl

theorem isKey_binKey (s t : Str) : isKey s (binKey t) = decide (t = s) := by
  simp only [isKey, binKey, text_utf8]
  by_cases h : t = s <;> simp [h]

theorem dictHead_pos (n : Nat) (h : n < 4294967296) : 1 ≤ (dictHead n).length := pos_of_head (head_dict n h [])

/-- A dict with a first key of bytes is not a plain object. -/
theorem unpack_keyed {s : Str} {o : Obj} {l : List (Obj × Obj)} (h : fieldsFit ((binKey s, o) :: l) = true)
    (hn : l.length + 1 < 4294967296) {f : Nat} (hf : 2 * (packKeyed ((binKey s, o) :: l)).length ≤ f) (r : List UInt8) :
    unpack f (packKeyed ((binKey s, o) :: l) ++ r) = none := by
  have h0 := dictHead_pos _ hn
  simp only [fieldsFit, List.all_cons, Bool.and_eq_true] at h
  simp only [packKeyed, packFields, List.length_append, List.length_cons] at hf
  obtain ⟨g, rfl⟩ := Nat.exists_eq_add_of_le' (show 2 ≤ f by omega)
  simp only [packKeyed, packFields, List.length_cons, List.append_assoc]
  unfold unpack
  rw [head_dict _ hn]
  simp only
  rw [Option.map_eq_none_iff]
  unfold unpackDict
  rw [(unpack_pack (binKey s) h.1.1 g (by omega) _).2]
  rfl

theorem readItem_keyed {size : Str → Nat} {s : Str} {o : Obj} {l : List (Obj × Obj)} (h : fieldsFit ((binKey s, o) :: l) = true)
    (hn : l.length + 1 < 4294967296) {f : Nat} (hf : 2 * (packKeyed ((binKey s, o) :: l)).length ≤ f) (r : List UInt8) {i : Item}
    (hi : toItem size ((binKey s, o) :: l) = some i) :
    readItem size f (packKeyed ((binKey s, o) :: l) ++ r) = some (i, r) := by
  unfold readItem
  rw [unpack_keyed h hn hf]
  simp only
  unfold packKeyed at hf ⊢
  rw [List.append_assoc, head_dict _ (by simpa using hn)]
  simp only
  rw [readFields_pack h (by simp only [List.length_append] at hf; omega)]
  simp only [hi, Option.map_some]

theorem toItem_array {np : NpEnv N} {size : Str → Nat} {a : NpArr (List UInt8)} (h1 : a.elems.length = a.shape.prod)
    (h2 : ∀ e ∈ a.elems, e.length = size (np.typeStr a.dtype)) :
    toItem size (arrayFields np a) = some (.array (np.typeStr a.dtype) a.shape a.elems) := by
  have e1 : field (arrayFields np a) (ch! "nd") = some (.bool true) := by simp [field, arrayFields, isKey_binKey]
  have e2 : field (arrayFields np a) (ch! "type") = some (.str (np.typeStr a.dtype)) := by simp [field, arrayFields, isKey_binKey]
  have e3 : field (arrayFields np a) (ch! "data") = some (.bin a.elems.flatten) := by simp [field, arrayFields, isKey_binKey]
  have e4 : field (arrayFields np a) (ch! "kind") = some (.bin []) := by simp [field, arrayFields, isKey_binKey]
  have e5 : field (arrayFields np a) (ch! "shape") = some (.list (a.shape.map (fun n : Nat => .int n))) := by
    simp [field, arrayFields, isKey_binKey]
  unfold toItem
  rw [e1, e2, e3]
  simp only
  rw [e4, e5]
  simp only
  rw [shapeOf_ints]
  simp only
  rw [if_pos (by rw [length_flatten_eq h2, h1]), ← h1, chunks_flatten h2]

theorem toItem_scalar {size : Str → Nat} {t : Str} {b : List UInt8} : toItem size (scalarFields t b) = some (.scalar t b) := by
  have e1 : field (scalarFields t b) (ch! "nd") = some (.bool false) := by simp [field, scalarFields, isKey_binKey]
  have e2 : field (scalarFields t b) (ch! "type") = some (.str t) := by simp [field, scalarFields, isKey_binKey]
  have e3 : field (scalarFields t b) (ch! "data") = some (.bin b) := by simp [field, scalarFields, isKey_binKey]
  unfold toItem
  rw [e1, e2, e3]

theorem readItem_value {np : NpEnv N} {size : Str → Nat} {v : TVal (List UInt8) N Obj} (h : valueFits np v = true)
    (hs : ∀ a, v = .array a → a.elems.length = a.shape.prod ∧ ∀ e ∈ a.elems, e.length = size (np.typeStr a.dtype))
    {f : Nat} (hf : 2 * (valueBytes np v).length ≤ f) (r : List UInt8) :
    readItem size f (valueBytes np v ++ r) = some (seenV1 np v, r) := by
  have plain : ∀ o : Obj, o.fits = true → 2 * (pack o).length ≤ f → readItem size f (pack o ++ r) = some (.object o, r) := by
    intro o ho hl
    unfold readItem
    rw [(unpack_pack o ho f hl r).2]
  match v with
  | .array a =>
    obtain ⟨h1, h2⟩ := hs a rfl
    exact readItem_keyed h (by simp) hf r (toItem_array h1 h2)
  | .number n =>
    simp only [valueFits, valueBytes, seenV1] at h hf ⊢
    match hn : np.number n with
    | .float x =>
      rw [hn] at hf
      exact plain _ rfl hf
    | .scalar t b =>
      rw [hn] at h hf
      exact readItem_keyed h (by simp) hf r toItem_scalar
  | .dict d =>
    simp only [valueFits, Bool.and_eq_true] at h
    exact plain _ h.1 hf
  | .object o =>
    simp only [valueFits, Bool.and_eq_true] at h
    exact plain _ h.1 hf

theorem readProps_bytes {np : NpEnv N} {size : Str → Nat} {p : List (Str × TVal (List UInt8) N Obj)}
    (h : ∀ x ∈ p, (utf8 x.1).length < 4294967296 ∧ valueFits np x.2 = true)
    (hs : ∀ k a, (k, .array a) ∈ p → a.elems.length = a.shape.prod ∧ ∀ e ∈ a.elems, e.length = size (np.typeStr a.dtype))
    {f : Nat} (hf : 2 * (propsBytes np p).length ≤ f) (r : List UInt8) :
    readProps size f p.length (propsBytes np p ++ r) = some (p.map (fun x => (x.1, seenV1 np x.2)), r) := by
  induction p with
  | nil => rfl
  | cons x p ih =>
    obtain ⟨k, v⟩ := x
    obtain ⟨hk, hv⟩ := h (k, v) (by simp)
    simp only at hk hv
    have hp := strBytes_pos hk
    simp only [propsBytes, List.length_append] at hf
    simp only [propsBytes, List.length_cons, readProps, List.append_assoc]
    rw [unpack_str hk (by omega)]
    simp only
    rw [readItem_value hv (fun a ha => hs k a (by simp [ha])) (by omega)]
    simp only
    rw [ih (fun x hx => h x (by simp [hx])) (fun k a ha => hs k a (by simp [ha])) (by omega)]
    rfl

theorem readSources_bytes {np : NpEnv N} {size : Str → Nat} {d : List (Str × List (Str × TVal (List UInt8) N Obj))}
    (h : ∀ x ∈ d, sourceFits np x = true)
    (hs : ∀ s p k a, (s, p) ∈ d → (k, .array a) ∈ p → a.elems.length = a.shape.prod ∧ ∀ e ∈ a.elems, e.length = size (np.typeStr a.dtype))
    {f : Nat} (hf : 2 * (sourcesBytes np d).length ≤ f) (r : List UInt8) :
    readSources size f d.length (sourcesBytes np d ++ r) =
      some (d.map (fun x => (x.1, x.2.map (fun y => (y.1, seenV1 np y.2)))), r) := by
  induction d with
  | nil => rfl
  | cons x d ih =>
    obtain ⟨s, p⟩ := x
    have hx := h (s, p) (by simp)
    simp only [sourceFits, Bool.and_eq_true, decide_eq_true_eq, List.all_eq_true] at hx
    obtain ⟨⟨h1, h2⟩, h3⟩ := hx
    have h3 : ∀ x ∈ p, (utf8 x.1).length < 4294967296 ∧ valueFits np x.2 = true := h3
    have hp := strBytes_pos h1
    simp only [sourcesBytes, List.length_append] at hf
    simp only [sourcesBytes, List.length_cons, readSources, List.append_assoc]
    rw [unpack_str h1 (by omega)]
    simp only
    rw [head_dict _ h2]
    simp only
    rw [readProps_bytes h3 (fun k a ha => hs s p k a (by simp) ha) (by omega)]
    simp only
    rw [ih (fun x hx => h x (by simp [hx])) (fun s p k a hp ha => hs s p k a (by simp [hp]) ha) (by omega)]
    rfl

theorem whole_read {np : NpEnv N} {size : Str → Nat} {data : TData (List UInt8) N Obj} {b : List UInt8} (hs : WellSized np size data)
    (h : wholeBytes np data = .ok b) :
    clientV1 size [b] = some (data.map (fun x => (x.1, x.2.map (fun y => (y.1, seenV1 np y.2))))) := by
  unfold wholeBytes at h
  split at h
  · next hc =>
    obtain rfl := Except.ok.inj h
    simp only [Bool.and_eq_true, decide_eq_true_eq, List.all_eq_true] at hc
    simp only [clientV1]
    rw [head_dict _ hc.1]
    simp only
    have := readSources_bytes (np := np) (size := size) hc.2 hs (f := 2 * (dictHead data.length ++ sourcesBytes np data).length)
      (by simp only [List.length_append]; omega) []
    rw [List.append_nil] at this
    rw [this]
  · simp at h

/-- What `_serialize` makes with version 1.0 and without dummy timestamps. -/
theorem serializeV1_parts {env : PyEnv N Obj} {data : TData (List UInt8) N Obj} {metadata : TMeta Obj}
    {out : Serialized (List UInt8) N Obj} (h : serialize env true false data metadata = .ok out) : out.msg = [.whole data] := by
  unfold serialize at h
  split at h
  · simp at h
  · simp only [Bool.false_eq_true, if_false, packAll, if_true] at h
    split at h
    · simp at h
    · next msg hm =>
      obtain rfl := Except.ok.inj h
      split at hm
      · exact (Except.ok.inj hm).symm
      · simp at hm

/-- C157. A client which reads the bytes of a message of version 1.0 gets exactly the data: all sources with all their values, in the
same order, arrays with all their elements. Missing: metadata which are passed separately. -/
theorem message_bytes_v1_partial {env : PyEnv N Obj} {np : NpEnv N} {data : TData (List UInt8) N Obj} {metadata : TMeta Obj}
    {msg : List (List UInt8)} (size : Str → Nat) (h : serializeBytesV1 env np false data metadata = .ok msg)
    (hs : WellSized np size data) :
    clientV1 size msg = some (data.map (fun x => (x.1, x.2.map (fun y => (y.1, seenV1 np y.2))))) := by
  unfold serializeBytesV1 at h
  split at h
  · simp at h
  · next out ho =>
    rw [serializeV1_parts ho] at h
    simp only [mapE, partBytesV1] at h
    split at h
    · simp at h
    · next b hb =>
      obtain rfl := Except.ok.inj h
      exact whole_read hs hb

/-- C157 is false for metadata: those which are passed with the data are not in the message; whatever they are, it has the same bytes. -/
theorem message_bytes_v1_metadata_wrong {env : PyEnv N Obj} {np : NpEnv N} {data : TData (List UInt8) N Obj} {m m' : TMeta Obj}
    (hm : m ≠ []) (hm' : m' ≠ []) :
    serializeBytesV1 env np false data m = serializeBytesV1 env np false data m' := by
  unfold serializeBytesV1 serialize
  cases m with
  | nil => exact absurd rfl hm
  | cons x m => cases m' with
    | nil => exact absurd rfl hm'
    | cons x' m' =>
      simp only [List.isEmpty_cons, Bool.false_eq_true, if_false, packAll, if_true]
      by_cases hc : data.all (fun x => x.2.all (fun y => y.2.ok env)) = true
      · simp only [if_pos hc]
      · simp only [if_neg hc]

theorem valueFits_iff {np : NpEnv N} {v : TVal (List UInt8) N Obj} : valueFits np v = true ↔ SmallValue np v := by
  have hk : (binKey (ch! "nd")).fits = true ∧ (binKey (ch! "type")).fits = true ∧ (binKey (ch! "kind")).fits = true ∧
      (binKey (ch! "shape")).fits = true ∧ (binKey (ch! "data")).fits = true := by
    refine ⟨?_, ?_, ?_, ?_, ?_⟩ <;> decide +kernel
  obtain ⟨k1, k2, k3, k4, k5⟩ := hk
  match v with
  | .array a =>
    have hsh : fitsList (a.shape.map (fun n : Nat => Obj.int n)) = true ↔ ∀ n ∈ a.shape, n < 18446744073709551616 := by
      rw [fitsList_iff]
      simp only [List.mem_map, forall_exists_index, and_imp, forall_apply_eq_imp_iff₂, Obj.fits, Bool.and_eq_true, decide_eq_true_eq]
      constructor
      · intro h n hn
        have := (h n hn).2
        omega
      · intro h n hn
        have := h n hn
        omega
    simp only [valueFits, SmallValue, fieldsFit, arrayFields, List.all_cons, List.all_nil, k1, k2, k3, k4, k5, Obj.fits, Bool.true_and,
      Bool.and_true, Bool.and_eq_true, decide_eq_true_eq, List.length_map, hsh, Short, List.length_nil]
    constructor
    · rintro ⟨h1, h2, ⟨h3, h4⟩, h5⟩
      exact ⟨h1, h3, h4, h5⟩
    · rintro ⟨h1, h3, h4, h5⟩
      exact ⟨h1, by decide, ⟨h3, h4⟩, h5⟩
  | .number n =>
    simp only [valueFits, SmallValue]
    match np.number n with
    | .float x => simp
    | .scalar t b =>
      simp only [fieldsFit, scalarFields, List.all_cons, List.all_nil, k1, k2, k5, Obj.fits, Bool.true_and, Bool.and_true,
        Bool.and_eq_true, decide_eq_true_eq, Short]
  | .dict d => simp only [valueFits, SmallValue, Bool.and_eq_true, decide_eq_true_eq]
  | .object o => simp only [valueFits, SmallValue, Bool.and_eq_true, decide_eq_true_eq]

theorem wholeBytes_ok {np : NpEnv N} {data : TData (List UInt8) N Obj} : (∃ b, wholeBytes np data = .ok b) ↔ SmallData np data := by
  have hc : (decide (data.length < 4294967296) && data.all (sourceFits np)) = true ↔ SmallData np data := by
    simp only [Bool.and_eq_true, decide_eq_true_eq, List.all_eq_true, sourceFits, SmallData, valueFits_iff, Short, Prod.forall, and_assoc]
  unfold wholeBytes
  by_cases h : (decide (data.length < 4294967296) && data.all (sourceFits np)) = true
  · rw [if_pos h]
    exact ⟨fun _ => hc.1 h, fun _ => ⟨_, rfl⟩⟩
  · rw [if_neg h]
    exact ⟨fun ⟨_, hb⟩ => by simp at hb, fun h' => absurd (hc.2 h') h⟩

/-- C157. There is a message of version 1.0 exactly for data which are small enough: for example every array must have less than 2³²
bytes, other than with version 2.2. -/
theorem message_bytes_v1_iff {env : PyEnv N Obj} {np : NpEnv N} {data : TData (List UInt8) N Obj} {metadata : TMeta Obj}
    (h : ∃ out, serialize env true false data metadata = .ok out) :
    (∃ msg, serializeBytesV1 env np false data metadata = .ok msg) ↔ SmallData np data := by
  obtain ⟨out, ho⟩ := h
  rw [← wholeBytes_ok]
  unfold serializeBytesV1
  rw [ho]
  simp only [serializeV1_parts ho, mapE, partBytesV1]
  constructor
  · rintro ⟨msg, hm⟩
    split at hm
    · simp at hm
    · next b hb => exact ⟨b, hb⟩
  · rintro ⟨b, hb⟩
    rw [hb]
    exact ⟨_, rfl⟩

/-! ### Examples -/

/-- numpy for examples: numbers of 2 bytes. -/
def exNp : NpEnv Int where
  typeStr := fun s => if s = ch! "uint16" then ch! "<u2" else s
  number := fun z => .scalar (ch! "<i2") [UInt8.ofNat (z % 256).toNat, UInt8.ofNat (z / 256 % 256).toNat]

/-- The bytes of the message for the data of the example above begin with two sources, of which the first has three values. -/
example : WellSized exNp (fun _ => 2) exData ∧ ∃ b, serializeBytesV1 exEnv exNp false exData [] = .ok [b] ∧
    b.take 17 = [0x82, 0xa1, 0x42, 0x83, 0xa1, 0x78, 0x83, 0xc4, 0x02, 0x6e, 0x64, 0xc2, 0xc4, 0x04, 0x74, 0x79, 0x70] := by
  refine ⟨?_, _, rfl, by decide +kernel⟩
  intro s props k a h hk
  simp only [exData, List.mem_cons, List.not_mem_nil, or_false, Prod.mk.injEq] at h
  rcases h with ⟨rfl, rfl⟩ | ⟨rfl, rfl⟩
  · simp only [List.mem_cons, List.not_mem_nil, or_false, Prod.mk.injEq, reduceCtorEq, and_false, false_or, or_false,
      TVal.array.injEq] at hk
    obtain ⟨-, rfl⟩ := hk
    decide
  · simp at hk

/-- There are such metadata. -/
example : (∃ msg, serializeBytesV1 exEnv exNp false exData [(ch! "A", [(ch! "tid", .int 1)])] = .ok msg) := ⟨_, rfl⟩

end KD.Mp
