/-
C155 The bytes of stream messages.
-/
import Verif.Spec.Msgpack
import Verif.Props.StreamMessage

set_option linter.unusedSimpArgs false

namespace KD.Mp

open KD.Mp.Spec (number takeBytes takeNumber signed Head head text unpack unpackList unpackDict unpackb chunks shapeOf Says header)

/-! ### Numbers -/

theorem length_be (k n : Nat) : (be k n).length = k := by
  induction k generalizing n with
  | zero => rfl
  | succ k ih => simp [be, ih]

theorem number_be (k n : Nat) (h : n < 256 ^ k) : number (be k n) = n := by
  induction k generalizing n with
  | zero => simp at h; simp [be, number, h]
  | succ k ih =>
    have h1 := ih (n / 256) (by rw [Nat.div_lt_iff_lt_mul (by decide)]; rwa [Nat.pow_succ] at h)
    unfold number at h1 ⊢
    simp only [be, List.foldl_append, h1, List.foldl_cons, List.foldl_nil]
    have : (UInt8.ofNat n).toNat = n % 256 := by simp
    rw [this]
    omega

theorem takeBytes_append (x r : List UInt8) : takeBytes x.length (x ++ r) = some (x, r) := by
  simp [takeBytes]

theorem takeNumber_be (k n : Nat) (r : List UInt8) (h : n < 256 ^ k) : takeNumber k (be k n ++ r) = some (n, r) := by
  have := takeBytes_append (be k n) r
  rw [length_be] at this
  simp [takeNumber, this, number_be k n h]

theorem text_utf8 (s : Str) : text (utf8 s) = some s := by
  have := List.utf8Decode?_utf8Encode (l := s)
  unfold List.utf8Encode at this
  simp [text, utf8, this]

/-! ### What comes first -/

theorem byte_toNat {n : Nat} (h : n < 256) : (UInt8.ofNat n).toNat = n := by simp; omega

theorem head_int (z : Int) (h1 : -9223372036854775808 ≤ z) (h2 : z < 18446744073709551616) (r : List UInt8) :
    head (intBytes z ++ r) = some (.obj (.int z), r) := by
  unfold intBytes
  split
  · split
    · simp only [List.cons_append, List.nil_append, head]
      rw [byte_toNat (by omega), if_pos (by omega)]
      rw [Int.toNat_of_nonneg (by omega)]
    · split
      · have e := takeNumber_be 1 z.toNat r (by omega)
        simp [code, head, e]; omega
      · split
        · have e := takeNumber_be 2 z.toNat r (by omega)
          simp [code, head, e]; omega
        · split
          · have e := takeNumber_be 4 z.toNat r (by omega)
            simp [code, head, e]; omega
          · have e := takeNumber_be 8 z.toNat r (by omega)
            simp [code, head, e]; omega
  · split
    · simp only [List.cons_append, List.nil_append, head]
      rw [byte_toNat (by omega), if_neg (by omega), if_neg (by omega), if_neg (by omega), if_neg (by omega), if_pos (by omega)]
      rw [Int.toNat_of_nonneg (by omega)]
      simp
    · split
      · have e := takeNumber_be 1 (z + 256).toNat r (by omega)
        simp [code, head, e, signed]; omega
      · split
        · have e := takeNumber_be 2 (z + 65536).toNat r (by omega)
          simp [code, head, e, signed]; omega
        · split
          · have e := takeNumber_be 4 (z + 4294967296).toNat r (by omega)
            simp [code, head, e, signed]; omega
          · have e := takeNumber_be 8 (z + 18446744073709551616).toNat r (by omega)
            simp [code, head, e, signed]; omega

theorem head_str (n : Nat) (h : n < 4294967296) (r : List UInt8) : head (strHead n ++ r) = some (.str n, r) := by
  unfold strHead
  split
  · simp only [List.cons_append, List.nil_append, head]
    rw [byte_toNat (by omega), if_neg (by omega), if_neg (by omega), if_neg (by omega), if_pos (by omega)]
    simp
  · split
    · simp [code, head, takeNumber_be 1 n r (by omega)]
    · split
      · simp [code, head, takeNumber_be 2 n r (by omega)]
      · simp [code, head, takeNumber_be 4 n r (by omega)]

theorem head_bin (n : Nat) (h : n < 4294967296) (r : List UInt8) : head (binHead n ++ r) = some (.bin n, r) := by
  unfold binHead
  split
  · simp [code, head, takeNumber_be 1 n r (by omega)]
  · split
    · simp [code, head, takeNumber_be 2 n r (by omega)]
    · simp [code, head, takeNumber_be 4 n r (by omega)]

theorem head_list (n : Nat) (h : n < 4294967296) (r : List UInt8) : head (listHead n ++ r) = some (.list n, r) := by
  unfold listHead
  split
  · simp only [List.cons_append, List.nil_append, head]
    rw [byte_toNat (by omega), if_neg (by omega), if_neg (by omega), if_pos (by omega)]
    simp
  · split
    · simp [code, head, takeNumber_be 2 n r (by omega)]
    · simp [code, head, takeNumber_be 4 n r (by omega)]

theorem head_dict (n : Nat) (h : n < 4294967296) (r : List UInt8) : head (dictHead n ++ r) = some (.dict n, r) := by
  unfold dictHead
  split
  · simp only [List.cons_append, List.nil_append, head]
    rw [byte_toNat (by omega), if_neg (by omega), if_pos (by omega)]
    simp
  · split
    · simp [code, head, takeNumber_be 2 n r (by omega)]
    · simp [code, head, takeNumber_be 4 n r (by omega)]

theorem pos_of_head {b : List UInt8} {x : Head × List UInt8} (h : head (b ++ []) = some x) : 1 ≤ b.length := by
  cases b with
  | nil => simp [head] at h
  | cons => simp

/-! ### Objects -/

theorem unpack_str {s : Str} (h : (utf8 s).length < 4294967296) {f : Nat} (hf : 1 ≤ f) (r : List UInt8) :
    unpack f (strBytes s ++ r) = some (.str s, r) := by
  obtain ⟨f, rfl⟩ := Nat.exists_eq_add_of_le' hf
  unfold unpack strBytes
  rw [List.append_assoc, head_str _ h]
  simp [takeBytes_append, text_utf8]

theorem strBytes_pos {s : Str} (h : (utf8 s).length < 4294967296) : 1 ≤ (strBytes s).length := by
  have := pos_of_head (head_str _ h [])
  simp [strBytes]; omega

mutual
/-- Unpacking gives back what was packed, whatever follows. -/
theorem unpack_pack (o : Obj) (h : o.fits = true) (f : Nat) (hf : 2 * (pack o).length ≤ f) (r : List UInt8) :
    1 ≤ (pack o).length ∧ unpack f (pack o ++ r) = some (o, r) := by
  match o with
  | .none =>
    simp only [pack, List.length_singleton] at hf ⊢
    obtain ⟨f, rfl⟩ := Nat.exists_eq_add_of_le' (show 1 ≤ f by omega)
    simp [unpack, head]
  | .bool b =>
    simp only [pack, List.length_singleton] at hf ⊢
    obtain ⟨f, rfl⟩ := Nat.exists_eq_add_of_le' (show 1 ≤ f by omega)
    cases b <;> simp [unpack, head]
  | .int z =>
    simp only [Obj.fits, Bool.and_eq_true, decide_eq_true_eq] at h
    simp only [pack] at hf ⊢
    have hp := pos_of_head (head_int z h.1 h.2 [])
    obtain ⟨f, rfl⟩ := Nat.exists_eq_add_of_le' (show 1 ≤ f by omega)
    simp [unpack, head_int z h.1 h.2 r, hp]
  | .float x =>
    simp only [pack, code, List.length_cons] at hf ⊢
    obtain ⟨f, rfl⟩ := Nat.exists_eq_add_of_le' (show 1 ≤ f by omega)
    have e := takeNumber_be 8 x.toNat r (by have := x.toNat_lt; omega)
    simp [unpack, head, e]
  | .str s =>
    simp only [Obj.fits, decide_eq_true_eq] at h
    simp only [pack] at hf ⊢
    have hp := strBytes_pos h
    exact ⟨hp, unpack_str h (by omega) r⟩
  | .bin b =>
    simp only [Obj.fits, decide_eq_true_eq] at h
    simp only [pack, List.length_append] at hf ⊢
    have hp := pos_of_head (head_bin _ h [])
    obtain ⟨f, rfl⟩ := Nat.exists_eq_add_of_le' (show 1 ≤ f by omega)
    refine ⟨by omega, ?_⟩
    unfold unpack
    rw [List.append_assoc, head_bin _ h]
    simp [takeBytes_append]
  | .list l =>
    simp only [Obj.fits, Bool.and_eq_true, decide_eq_true_eq] at h
    simp only [pack, List.length_append] at hf ⊢
    have hp := pos_of_head (head_list _ h.1 [])
    obtain ⟨f, rfl⟩ := Nat.exists_eq_add_of_le' (show 1 ≤ f by omega)
    refine ⟨by omega, ?_⟩
    unfold unpack
    rw [List.append_assoc, head_list _ h.1]
    simp [unpack_packList l h.2 f (by omega) r]
  | .dict d =>
    simp only [Obj.fits, Bool.and_eq_true, decide_eq_true_eq] at h
    simp only [pack, List.length_append] at hf ⊢
    have hp := pos_of_head (head_dict _ h.1 [])
    obtain ⟨f, rfl⟩ := Nat.exists_eq_add_of_le' (show 1 ≤ f by omega)
    refine ⟨by omega, ?_⟩
    unfold unpack
    rw [List.append_assoc, head_dict _ h.1]
    simp [unpack_packDict d h.2 f (by omega) r]
theorem unpack_packList (l : List Obj) (h : fitsList l = true) (f : Nat) (hf : 2 * (packList l).length + 1 ≤ f) (r : List UInt8) :
    unpackList f l.length (packList l ++ r) = some (l, r) := by
  match l with
  | [] => simp [packList, unpackList]
  | o :: l =>
    simp only [fitsList, Bool.and_eq_true] at h
    simp only [packList, List.length_append] at hf
    obtain ⟨f, rfl⟩ := Nat.exists_eq_add_of_le' (show 1 ≤ f by omega)
    obtain ⟨h1, h2⟩ := unpack_pack o h.1 f (by omega) (packList l ++ r)
    have h3 := unpack_packList l h.2 f (by omega) r
    simp [packList, unpackList, h2, h3]
theorem unpack_packDict (d : List (Str × Obj)) (h : fitsDict d = true) (f : Nat) (hf : 2 * (packDict d).length + 1 ≤ f) (r : List UInt8) :
    unpackDict f d.length (packDict d ++ r) = some (d, r) := by
  match d with
  | [] => simp [packDict, unpackDict]
  | (k, o) :: d =>
    simp only [fitsDict, Bool.and_eq_true, decide_eq_true_eq] at h
    simp only [packDict, List.length_append] at hf
    obtain ⟨f, rfl⟩ := Nat.exists_eq_add_of_le' (show 1 ≤ f by omega)
    have h0 := strBytes_pos h.1.1
    have h1 := unpack_str h.1.1 (show 1 ≤ f by omega) (pack o ++ (packDict d ++ r))
    obtain ⟨h2, h3⟩ := unpack_pack o h.1.2 f (by omega) (packDict d ++ r)
    have h4 := unpack_packDict d h.2 f (by omega) r
    simp [packDict, unpackDict, h1, h3, h4]
end

/-- C155. Unpacking the bytes of an object gives the object. -/
theorem packb_unpackb (o : Obj) (b : List UInt8) (h : packb o = .ok b) : unpackb b = some o := by
  unfold packb at h
  split at h
  · next hf =>
    obtain rfl := Except.ok.inj h
    have := (unpack_pack o (Bool.and_eq_true _ _ ▸ hf).1 _ le_rfl []).2
    simp only [List.append_nil] at this
    simp [unpackb, this]
  · simp at h

/-! ### Messages -/

variable {N : Type}

theorem chunks_flatten {k : Nat} {l : List (List UInt8)} (h : ∀ e ∈ l, e.length = k) : chunks l.length k l.flatten = l := by
  induction l with
  | nil => rfl
  | cons e l ih =>
    have he := h e (by simp)
    simp only [List.length_cons, chunks, List.flatten_cons]
    rw [← he, List.take_left, List.drop_left, he, ih (fun e' h' => h e' (by simp [h']))]

theorem length_flatten_eq {k : Nat} {l : List (List UInt8)} (h : ∀ e ∈ l, e.length = k) : l.flatten.length = l.length * k := by
  induction l with
  | nil => simp
  | cons e l ih =>
    simp only [List.flatten_cons, List.length_append, List.length_cons, h e (by simp), ih (fun e' h' => h e' (by simp [h']))]
    rw [Nat.succ_mul, Nat.add_comm]

theorem shapeOf_ints (sh : List Nat) : shapeOf (sh.map (fun n : Nat => Obj.int n)) = some sh := by
  induction sh with
  | nil => rfl
  | cons n sh ih => simp [shapeOf, ih]

theorem header_data {s : Str} {m : Dict Str Obj} {b : List UInt8} (h : partBytes (N := N) (.header s m) = .ok b) :
    header b = some (.data s m) := by
  unfold header
  rw [packb_unpackb _ _ h]
  simp [Dict.get?]

theorem header_array {s p t : Str} {sh : List Nat} {b : List UInt8} (h : partBytes (N := N) (.arrayHeader s p t sh) = .ok b) :
    header b = some (.array s p t sh) := by
  unfold header
  rw [packb_unpackb _ _ h]
  simp [Dict.get?, shapeOf_ints]

/-- Headers with their contents, and the elements of arrays have the size which the dtype says. -/
inductive Paired (size : Str → Nat) : List (Part (List UInt8) N Obj) → Prop
  | nil : Paired size []
  | data {s m d l} : Paired size l → Paired size (.header s m :: .main d :: l)
  | array {s p t sh b l} : (∀ e ∈ b, e.length = size t) → Paired size l → Paired size (.arrayHeader s p t sh :: .bytes b :: l)

theorem Paired.append {size : Str → Nat} {l l' : List (Part (List UInt8) N Obj)} (h : Paired size l) (h' : Paired size l') :
    Paired size (l ++ l') := by
  induction h with
  | nil => exact h'
  | data _ ih => exact .data ih
  | array hb _ ih => exact .array hb ih

theorem Paired.flatten {size : Str → Nat} {L : List (List (Part (List UInt8) N Obj))} (h : ∀ l ∈ L, Paired size l) : Paired size L.flatten := by
  induction L with
  | nil => exact .nil
  | cons l L ih => exact (h l (by simp)).append (ih (fun l' h' => h l' (by simp [h'])))

theorem splitProps_arrays {env : PyEnv N Obj} {props : Dict Str (TVal (List UInt8) N Obj)} {x : Str × NpArr (List UInt8)}
    (h : x ∈ (splitProps env props).2) : (x.1, .array x.2) ∈ props := by
  induction props with
  | nil => simp [splitProps] at h
  | cons y props ih =>
    obtain ⟨k, v⟩ := y
    cases v with
    | array a =>
      simp only [splitProps, List.mem_cons] at h
      rcases h with rfl | h
      · simp
      · exact List.mem_cons_of_mem _ (ih h)
    | number n => exact List.mem_cons_of_mem _ (ih h)
    | dict d => exact List.mem_cons_of_mem _ (ih h)
    | object o => exact List.mem_cons_of_mem _ (ih h)

theorem arrayParts_paired {size : Str → Nat} {s : Str} {x : Str × NpArr (List UInt8)} (hx : ∀ e ∈ x.2.elems, e.length = size x.2.dtype)
    {l : List (Part (List UInt8) N Obj)} (h : arrayParts s x = .ok l) : Paired size l := by
  unfold arrayParts at h
  by_cases hc : x.2.contiguous = true
  · simp only [hc, if_true, NpArr.buffer, Except.ok.injEq] at h
    subst h
    exact .array hx .nil
  · simp only [hc, if_false, NpArr.asContiguous, NpArr.buffer, if_true, Except.ok.injEq, Bool.false_eq_true] at h
    subst h
    exact .array hx .nil

theorem serialize_paired {size : Str → Nat} {env : PyEnv N Obj} {data : TData (List UInt8) N Obj} {metadata : TMeta Obj}
    (hs : KD.Mp.Spec.Sized size data) {out : Serialized (List UInt8) N Obj} (h : serialize env false false data metadata = .ok out) :
    Paired size out.msg := by
  unfold serialize at h
  split at h
  · simp at h
  · next md _ =>
    simp only [Bool.false_eq_true, if_false] at h
    split at h
    · simp at h
    · next msg hm =>
      obtain rfl := Except.ok.inj h
      simp only [packAll, Bool.false_eq_true, if_false] at hm
      split at hm
      · simp at hm
      · next L hL =>
        obtain rfl := Except.ok.inj hm
        refine Paired.flatten (fun l hl => ?_)
        obtain ⟨x, hx, hxl⟩ := (mapE_mem hL).1 hl
        have hx' : x ∈ data := by
          unfold sortData at hx
          exact (List.mem_insertionSort _).1 hx
        unfold sourceParts at hxl
        split at hxl
        · simp at hxl
        · next m _ =>
          simp only at hxl
          split at hxl
          · split at hxl
            · simp at hxl
            · next A hA =>
              obtain rfl := Except.ok.inj hxl
              refine .data (Paired.flatten (fun a ha => ?_))
              obtain ⟨y, hy, hya⟩ := (mapE_mem hA).1 ha
              exact arrayParts_paired (hs x.1 x.2 y.1 y.2 hx' (splitProps_arrays hy)) hya
          · simp at hxl

/-- On bytes, dicts are objects as others. -/
def flatSeen : KD.Spec.Seen (List UInt8) Obj → KD.Spec.Seen (List UInt8) Obj
  | .dict d => .object (.dict d)
  | x => x

/-- What a client of bytes has. -/
def flatGot (g : KD.Spec.Got (List UInt8) Obj) : KD.Mp.Spec.Got :=
  ⟨g.data.map (fun x => (x.1, x.2.map (fun y => (y.1, flatSeen y.2)))), g.metadata⟩

theorem set_map {V W : Type} (f : V → W) (d : Dict Str V) (k : Str) (v : V) :
    Dict.set (d.map (fun x => (x.1, f x.2))) k (f v) = (Dict.set d k v).map (fun x => (x.1, f x.2)) := by
  induction d with
  | nil => rfl
  | cons x d ih =>
    simp only [List.map_cons, Dict.set]
    split <;> simp [ih]

theorem decode_bytes {size : Str → Nat} {parts : List (Part (List UInt8) N Obj)} (hp : Paired size parts) :
    ∀ {msg : List (List UInt8)}, mapE partBytes parts = .ok msg → ∀ {g got : KD.Spec.Got (List UInt8) Obj}, KD.Spec.decode g parts = some got →
      KD.Mp.Spec.decode size (flatGot g) msg = some (flatGot got) := by
  induction hp with
  | nil =>
    intro msg hm g got h
    obtain rfl := Except.ok.inj hm
    simp only [KD.Spec.decode, Option.some.injEq] at h
    simp [KD.Mp.Spec.decode, h]
  | @data s m d l _ ih =>
    intro msg hm g got h
    obtain ⟨b1, r1, h1, hm1, rfl⟩ := mapE_cons_ok.1 hm
    obtain ⟨b2, r2, h2, hm2, rfl⟩ := mapE_cons_ok.1 hm1
    simp only [KD.Spec.decode] at h
    have := ih hm2 h
    simp only [KD.Mp.Spec.decode, header_data h1, packb_unpackb _ _ h2]
    rw [← this]
    congr 1
    unfold flatGot
    simp only [KD.Spec.Got.mk.injEq, and_true]
    rw [← set_map (fun y : Dict Str (KD.Spec.Seen (List UInt8) Obj) => y.map (fun y => (y.1, flatSeen y.2)))]
    congr 1
    simp only [List.map_map]
    apply List.map_congr_left
    intro x _
    cases hx : x.2 <;> simp [mainObj, KD.Spec.unpacked, flatSeen, hx]
  | @array s p t sh b l hb _ ih =>
    intro msg hm g got h
    obtain ⟨b1, r1, h1, hm1, rfl⟩ := mapE_cons_ok.1 hm
    obtain ⟨b2, r2, h2, hm2, rfl⟩ := mapE_cons_ok.1 hm1
    simp only [KD.Spec.decode] at h
    obtain rfl : b.flatten = b2 := Except.ok.inj h2
    cases hg : g.data.get? s with
    | none => rw [hg] at h; simp at h
    | some d =>
      rw [hg] at h
      simp only at h
      split at h
      · next hlen =>
        have := ih hm2 h
        have hg' : (flatGot g).data.get? s = some (d.map (fun y => (y.1, flatSeen y.2))) := by
          simp only [flatGot]
          rw [Dict.get?_map (fun y : Dict Str (KD.Spec.Seen (List UInt8) Obj) => y.map (fun y => (y.1, flatSeen y.2))), hg]
          rfl
        simp only [KD.Mp.Spec.decode, header_array h1, hg']
        rw [if_pos (by rw [length_flatten_eq hb, hlen]), ← hlen, chunks_flatten hb, ← this]
        congr 1
        unfold flatGot
        simp only [KD.Spec.Got.mk.injEq, and_true]
        rw [← set_map (fun y : Dict Str (KD.Spec.Seen (List UInt8) Obj) => y.map (fun y => (y.1, flatSeen y.2)))]
        congr 1
        rw [← set_map flatSeen]
        rfl
      · simp at h

/-- C155. A client which reads the bytes gets for every source its metadata and all its values, and nothing else. -/
theorem message_bytes {env : PyEnv N Obj} {data : TData (List UInt8) N Obj} {metadata : TMeta Obj} {msg : List (List UInt8)} (size : Str → Nat)
    (h : serializeBytes env false data metadata = .ok msg) (hw : KD.Spec.WellFormed data) (hs : KD.Mp.Spec.Sized size data) :
    ∃ g : KD.Mp.Spec.Got, KD.Mp.Spec.client size msg = some g ∧
      (∀ s, data.get? s = none → g.data.get? s = none ∧ g.metadata.get? s = none) ∧
      ∀ s props, data.get? s = some props →
        ∃ d, g.data.get? s = some d ∧ (∀ k, d.get? k = (props.get? k).map (KD.Mp.Spec.seen env)) ∧
          ∃ m, KD.Spec.givenMeta data metadata s = some m ∧ g.metadata.get? s = some m := by
  unfold serializeBytes at h
  split at h
  · simp at h
  · next out ho =>
    obtain ⟨g, hg, h1, h2, -, -⟩ := message_decodes ho hw
    have hget : ∀ s, (flatGot g).data.get? s = (g.data.get? s).map (fun y => y.map (fun y => (y.1, flatSeen y.2))) := by
      intro s
      simp only [flatGot]
      rw [Dict.get?_map (fun y : Dict Str (KD.Spec.Seen (List UInt8) Obj) => y.map (fun y => (y.1, flatSeen y.2)))]
    refine ⟨flatGot g, decode_bytes (serialize_paired hs ho) h hg, fun s hn => ?_, fun s props hp => ?_⟩
    · obtain ⟨e1, e2⟩ := h1 s hn
      exact ⟨by rw [hget, e1]; rfl, e2⟩
    · obtain ⟨d, hd, hk, m, hm1, hm2⟩ := h2 s props hp
      refine ⟨d.map (fun y => (y.1, flatSeen y.2)), by rw [hget, hd]; rfl, fun k => ?_, m, hm1, hm2⟩
      rw [Dict.get?_map flatSeen, hk, Option.map_map]
      congr 1
      funext v
      cases v <;> rfl

/-! ### When there is a message -/

theorem fitsDict_iff (d : List (Str × Obj)) : fitsDict d = true ↔ ∀ x ∈ d, (utf8 x.1).length < 4294967296 ∧ x.2.fits = true := by
  induction d with
  | nil => simp [fitsDict]
  | cons x d ih =>
    obtain ⟨k, o⟩ := x
    simp [fitsDict, ih, Bool.and_eq_true, and_assoc]

theorem fitsList_iff (l : List Obj) : fitsList l = true ↔ ∀ o ∈ l, o.fits = true := by
  induction l with
  | nil => simp [fitsList]
  | cons o l ih => simp [fitsList, ih]

theorem depthList_le (l : List Obj) (n : Nat) : depthList l ≤ n ↔ ∀ o ∈ l, o.depth + 1 ≤ n := by
  induction l with
  | nil => simp [depthList]
  | cons o l ih => simp [depthList, ih]

theorem depthDict_le (d : List (Str × Obj)) (n : Nat) : depthDict d ≤ n ↔ ∀ x ∈ d, x.2.depth + 1 ≤ n := by
  induction d with
  | nil => simp [depthDict]
  | cons x d ih =>
    obtain ⟨k, o⟩ := x
    simp [depthDict, ih]

theorem packb_ok {o : Obj} : (∃ b, packb o = .ok b) ↔ o.fits = true ∧ o.depth ≤ 511 := by
  unfold packb
  by_cases h : (o.fits && decide (o.depth ≤ 511)) = true
  · rw [if_pos h]
    rw [Bool.and_eq_true, decide_eq_true_eq] at h
    exact ⟨fun _ => h, fun _ => ⟨_, rfl⟩⟩
  · rw [if_neg h]
    rw [Bool.and_eq_true, decide_eq_true_eq] at h
    exact ⟨fun ⟨_, hb⟩ => by simp at hb, fun h' => absurd h' h⟩

/-- The parts of a message. -/
theorem serialize_parts {env : PyEnv N Obj} {data : TData (List UInt8) N Obj} {metadata : TMeta Obj}
    {out : Serialized (List UInt8) N Obj} (h : serialize env false false data metadata = .ok out) (part : Part (List UInt8) N Obj) :
    part ∈ out.msg ↔ ∃ s props, (s, props) ∈ data ∧ ((∃ m, KD.Spec.givenMeta data metadata s = some m ∧ part = .header s m) ∨
      part = .main (splitProps env props).1 ∨
      ∃ k a, (k, .array a) ∈ props ∧ (part = .arrayHeader s k a.dtype a.shape ∨ part = .bytes a.elems)) := by
  unfold serialize at h
  split at h
  · simp at h
  · next md hmd =>
    have hget : ∀ s, Dict.get? md s = KD.Spec.givenMeta data metadata s := by
      intro s
      cases metadata with
      | nil =>
        simp only [List.isEmpty_nil, if_true] at hmd
        exact metaItems_get hmd s
      | cons x metadata =>
        simp only [List.isEmpty_cons, Bool.false_eq_true, if_false, Except.ok.injEq] at hmd
        rw [← hmd]
        simp [KD.Spec.givenMeta]
    simp only [Bool.false_eq_true, if_false] at h
    split at h
    · simp at h
    · next msg hm =>
      obtain rfl := Except.ok.inj h
      simp only [packAll, Bool.false_eq_true, if_false] at hm
      split at hm
      · simp at hm
      · next L hL =>
        obtain rfl := Except.ok.inj hm
        have one : ∀ s props l, sourceParts env md (s, props) = .ok l → (part ∈ l ↔
            ((∃ m, KD.Spec.givenMeta data metadata s = some m ∧ part = .header s m) ∨ part = .main (splitProps env props).1 ∨
              ∃ k a, (k, .array a) ∈ props ∧ (part = .arrayHeader s k a.dtype a.shape ∨ part = .bytes a.elems))) := by
          intro s props l hl
          unfold sourceParts at hl
          simp only at hl
          rw [hget] at hl
          split at hl
          · simp at hl
          · next m hgm =>
            split at hl
            · split at hl
              · simp at hl
              · next A hA =>
                obtain rfl := Except.ok.inj hl
                have hA' : part ∈ A.flatten ↔ ∃ k a, (k, .array a) ∈ props ∧ (part = .arrayHeader s k a.dtype a.shape ∨ part = .bytes a.elems) := by
                  rw [List.mem_flatten]
                  constructor
                  · rintro ⟨l, hl, hp⟩
                    obtain ⟨⟨k, a⟩, hy, hya⟩ := (mapE_mem hA).1 hl
                    rw [arrayParts_ok] at hya
                    obtain rfl := Except.ok.inj hya
                    simp only [List.mem_cons, List.not_mem_nil, or_false] at hp
                    exact ⟨k, a, splitProps_arrays hy, hp⟩
                  · rintro ⟨k, a, hk, hp⟩
                    have hy := (KD.splitProps_arrays env k a props).2 hk
                    refine ⟨_, (mapE_mem hA).2 ⟨(k, a), hy, arrayParts_ok _ _⟩, ?_⟩
                    simpa using hp
                rw [List.mem_cons, List.mem_cons, hA']
                constructor
                · rintro (rfl | h | h)
                  · exact .inl ⟨m, hgm, rfl⟩
                  · exact .inr (.inl h)
                  · exact .inr (.inr h)
                · rintro (⟨m', hm', rfl⟩ | h | h)
                  · rw [hgm] at hm'
                    obtain rfl := Option.some.inj hm'
                    exact .inl rfl
                  · exact .inr (.inl h)
                  · exact .inr (.inr h)
            · simp at hl
        simp only [List.mem_flatten]
        constructor
        · rintro ⟨l, hl, hp⟩
          obtain ⟨⟨s, props⟩, hx, hxl⟩ := (mapE_mem hL).1 hl
          exact ⟨s, props, (sortData_perm data).mem_iff.1 hx, (one s props l hxl).1 hp⟩
        · rintro ⟨s, props, hx, hp⟩
          have hx' := (sortData_perm data).mem_iff.2 hx
          obtain ⟨l, hlL, hl⟩ := mapE_ok_all hL hx'
          exact ⟨l, hlL, (one s props l hl).2 hp⟩

/-- C155. If everything is small enough for msgpack, there are bytes for what can be sent. -/
theorem message_bytes_succeeds {env : PyEnv N Obj} {data : TData (List UInt8) N Obj} {metadata : TMeta Obj}
    {out : Serialized (List UInt8) N Obj} (h : serialize env false false data metadata = .ok out)
    (hs : KD.Mp.Spec.Small env data metadata) : ∃ msg, serializeBytes env false data metadata = .ok msg := by
  unfold serializeBytes
  rw [h]
  apply mapE_exists_ok
  intro part hp
  obtain ⟨s, props, hx, hp⟩ := (serialize_parts h part).1 hp
  have k1 : (utf8 (ch! "source")).length < 4294967296 := by decide +kernel
  have k2 : (utf8 (ch! "content")).length < 4294967296 := by decide +kernel
  have k3 : (utf8 (ch! "metadata")).length < 4294967296 := by decide +kernel
  have k4 : (utf8 (ch! "msgpack")).length < 4294967296 := by decide +kernel
  have k5 : (utf8 (ch! "array")).length < 4294967296 := by decide +kernel
  have k6 : (utf8 (ch! "path")).length < 4294967296 := by decide +kernel
  have k7 : (utf8 (ch! "dtype")).length < 4294967296 := by decide +kernel
  have k8 : (utf8 (ch! "shape")).length < 4294967296 := by decide +kernel
  obtain ⟨hshort, hlen⟩ := hs.sources s props hx
  unfold KD.Mp.Spec.Short at hshort
  rcases hp with ⟨m, hm, rfl⟩ | rfl | ⟨k, a, hk, rfl | rfl⟩
  · obtain ⟨this, hdm⟩ := hs.metadata s (List.mem_map.2 ⟨_, hx, rfl⟩) m hm
    refine packb_ok.2 ⟨?_, ?_⟩
    swap
    · simp only [Obj.depth, depthDict] at hdm ⊢
      omega
    rw [Obj.fits]
    simp only [fitsDict, Obj.fits.eq_2, k1, k2, k3, k4, hshort, this, decide_true, Bool.and_self, List.length_cons, List.length_nil]
    simp [Obj.fits, k4, hshort]
  · refine packb_ok.2 ?_
    rw [Obj.fits, Bool.and_eq_true, fitsDict_iff, Obj.depth, depthDict_le, and_assoc, ← forall₂_and]
    constructor
    · have := (splitProps_sublist env props).1.length_le
      simp only [List.length_map] at this ⊢
      simp only [decide_eq_true_eq]
      omega
    · intro x hx'
      obtain ⟨⟨k, p⟩, hy, rfl⟩ := List.mem_map.1 hx'
      obtain ⟨v, hv, hpk⟩ := (splitProps_main env k p props).1 hy
      obtain ⟨v1, v2⟩ := hs.values s props k v hx hv
      suffices hfit : KD.Mp.Spec.Fits (mainObj p) from ⟨⟨v1, hfit.1⟩, Nat.succ_le_succ hfit.2⟩
      cases v with
      | array a => simp [packedOf] at hpk
      | number n => simp only [packedOf, Option.some.injEq] at hpk; subst hpk; exact v2
      | dict d => simp only [packedOf, Option.some.injEq] at hpk; subst hpk; exact v2
      | object o => simp only [packedOf, Option.some.injEq] at hpk; subst hpk; exact v2
  · have hdep : depthList (a.shape.map (fun n : Nat => Obj.int n)) ≤ 1 := by
      rw [depthList_le]
      intro o ho
      obtain ⟨n, hn, rfl⟩ := List.mem_map.1 ho
      simp [Obj.depth]
    refine packb_ok.2 ⟨?_, ?_⟩
    swap
    · simp only [Obj.depth, depthDict]
      omega
    obtain ⟨v1, v2, v3, v4⟩ := hs.values s props k (.array a) hx hk
    unfold KD.Mp.Spec.Short at v1 v2
    have hl : fitsList (a.shape.map (fun n : Nat => Obj.int n)) = true := by
      rw [fitsList_iff]
      intro o ho
      obtain ⟨n, hn, rfl⟩ := List.mem_map.1 ho
      have := v4 n hn
      simp only [Obj.fits, Bool.and_eq_true, decide_eq_true_eq]
      omega
    simp only [Obj.fits, fitsDict, List.length_cons, List.length_nil, List.length_map, hl, k1, k2, k5, k6, k7, k8, v1, v2, v3, hshort,
      decide_true, Bool.and_self]
    simp
  · exact ⟨_, rfl⟩

/-- C155. A number or another object which is too large for msgpack or nested too deep is refused: nothing is sent. -/
theorem message_bytes_refuses {env : PyEnv N Obj} {data : TData (List UInt8) N Obj} {metadata : TMeta Obj} {s : Str}
    {props : Dict Str (TVal (List UInt8) N Obj)} {k : Str} {o : Obj} (hx : (s, props) ∈ data)
    (hk : (k, .object o) ∈ props ∨ ∃ n, (k, .number n) ∈ props ∧ env.item n = o) (ho : ¬ KD.Mp.Spec.Fits o) :
    ∃ e, serializeBytes env false data metadata = .error e := by
  cases h : serializeBytes env false data metadata with
  | error e => exact ⟨e, rfl⟩
  | ok msg =>
    exfalso
    unfold serializeBytes at h
    split at h
    · simp at h
    · next out hout =>
      have hp := (serialize_parts hout (.main (splitProps env props).1)).2 ⟨s, props, hx, .inr (.inl rfl)⟩
      obtain ⟨b, -, hb⟩ := mapE_ok_all h hp
      have hf := packb_ok.1 ⟨b, hb⟩
      rw [Obj.fits, Bool.and_eq_true, fitsDict_iff, Obj.depth, depthDict_le] at hf
      have hmem : (k, Packed.obj o) ∈ (splitProps env props).1 := by
        rw [splitProps_main]
        rcases hk with hk | ⟨n, hk, rfl⟩
        · exact ⟨_, hk, rfl⟩
        · exact ⟨_, hk, rfl⟩
      have hin : (k, o) ∈ (splitProps env props).1.map (fun x => (x.1, mainObj x.2)) := List.mem_map.2 ⟨_, hmem, rfl⟩
      exact ho ⟨(hf.1.2 (k, o) hin).2, Nat.le_of_succ_le_succ (hf.2 (k, o) hin)⟩

/-! ### Examples -/

/-- Python for examples. -/
def exEnv : PyEnv Int Obj := { item := .int, packable := Obj.fits, str := .str, now := .float 0x4029000000000000, nowStr := ch! "12.5" }

/-- Two sources: a number, an array of 2 × 2 numbers of 2 bytes, metadata, and a text. -/
def exData : TData (List UInt8) Int Obj :=
  [(ch! "B", [(ch! "x", .number (-200)), (ch! "img", .array ⟨ch! "uint16", [2, 2], false, [[1, 0], [2, 0], [3, 0], [4, 1]]⟩),
      (ch! "metadata", .dict [(ch! "tid", .int 10000)])]),
   (ch! "A", [(ch! "y", .object (.str (ch! "µm")))])]

/-- The data are as in the theorems, and the bytes of the message are known: that of the number -200, for example. -/
example : KD.Spec.WellFormed exData ∧ KD.Mp.Spec.Sized (fun _ => 2) exData ∧ (∃ msg, serializeBytes exEnv false exData [] = .ok msg ∧
      msg[3]? = some ([0x82, 0xa1, 0x78, 0xd1, 0xff, 0x38, 0xa8] ++ utf8 (ch! "metadata") ++ [0x81, 0xa3, 0x74, 0x69, 0x64, 0xcd, 0x27, 0x10]) ∧
      msg[5]? = some [1, 0, 2, 0, 3, 0, 4, 1] ∧ msg[1]? = some [0x81, 0xa1, 0x79, 0xa3, 0xc2, 0xb5, 0x6d]) := by
  refine ⟨⟨by decide, ?_⟩, ?_, _, rfl, by decide +kernel, by decide +kernel, by decide +kernel⟩
  · intro s props h
    simp only [exData, List.mem_cons, List.not_mem_nil, or_false, Prod.mk.injEq] at h
    rcases h with ⟨rfl, rfl⟩ | ⟨rfl, rfl⟩
    · refine ⟨by decide, ?_⟩
      intro k a h
      simp only [List.mem_cons, List.not_mem_nil, or_false, Prod.mk.injEq, reduceCtorEq, and_false, false_or, or_false,
        TVal.array.injEq] at h
      obtain ⟨-, rfl⟩ := h
      rfl
    · refine ⟨by decide, ?_⟩
      intro k a h
      simp at h
  · intro s props k a h hk
    simp only [exData, List.mem_cons, List.not_mem_nil, or_false, Prod.mk.injEq] at h
    rcases h with ⟨rfl, rfl⟩ | ⟨rfl, rfl⟩
    · simp only [List.mem_cons, List.not_mem_nil, or_false, Prod.mk.injEq, reduceCtorEq, and_false, false_or, or_false,
        TVal.array.injEq] at hk
      obtain ⟨-, rfl⟩ := hk
      decide
    · simp at hk

/-- They are small enough. -/
example : KD.Mp.Spec.Small exEnv exData [] := by
  have short : ∀ s : Str, s.length < 100 → KD.Mp.Spec.Short s := by
    intro s hs
    unfold KD.Mp.Spec.Short utf8
    have : ∀ t : Str, (t.flatMap String.utf8EncodeChar).length ≤ 4 * t.length := by
      intro t
      induction t with
      | nil => simp
      | cons c t ih =>
        simp only [List.flatMap_cons, List.length_append, List.length_cons, String.length_utf8EncodeChar]
        have := Char.utf8Size_le_four c
        omega
    have := this s
    omega
  refine ⟨?_, ?_, ?_⟩
  · intro s props h
    simp only [exData, List.mem_cons, List.not_mem_nil, or_false, Prod.mk.injEq] at h
    rcases h with ⟨rfl, rfl⟩ | ⟨rfl, rfl⟩ <;> exact ⟨short _ (by decide), by simp⟩
  · intro s hs m hm
    simp only [exData, Dict.keys, List.map_cons, List.map_nil, List.mem_cons, List.not_mem_nil, or_false] at hs
    rcases hs with rfl | rfl
    · obtain rfl : [(ch! "tid", Obj.int 10000)] = m := Option.some.inj hm
      exact ⟨by decide +kernel, by decide +kernel⟩
    · obtain rfl : ([] : Dict Str Obj) = m := Option.some.inj hm
      exact ⟨by decide +kernel, by decide +kernel⟩
  · intro s props k v h hk
    simp only [exData, List.mem_cons, List.not_mem_nil, or_false, Prod.mk.injEq] at h
    rcases h with ⟨rfl, rfl⟩ | ⟨rfl, rfl⟩
    · simp only [List.mem_cons, List.not_mem_nil, or_false, Prod.mk.injEq] at hk
      rcases hk with ⟨rfl, rfl⟩ | ⟨rfl, rfl⟩ | ⟨rfl, rfl⟩
      · exact ⟨short _ (by decide), by decide +kernel, by decide +kernel⟩
      · exact ⟨short _ (by decide), short _ (by decide), by decide, by decide⟩
      · exact ⟨short _ (by decide), by decide +kernel, by decide +kernel⟩
    · simp only [List.mem_cons, List.not_mem_nil, or_false, Prod.mk.injEq] at hk
      obtain ⟨rfl, rfl⟩ := hk
      exact ⟨short _ (by decide), by decide +kernel, by decide +kernel⟩

end KD.Mp
