/- Property C152: the text of the cache file. -/
import Verif.Lemmas.JsonRound

namespace KD
open Spec

/-! ### Reading what was written -/

theorem skipSpace_line (k : Nat) (s : Str) : skipSpace (jsonLine k ++ s) = skipSpace s := by
  unfold skipSpace jsonLine
  rw [List.dropWhile_append_of_pos]
  intro c hc
  rcases List.mem_cons.1 hc with rfl | hc
  · rfl
  · rw [(List.mem_replicate.1 hc).2]; rfl

theorem skipSpace_cons {c : Char} (h : isJsonSpace c = false) (s : Str) : skipSpace (c :: s) = c :: s := by
  unfold skipSpace; rw [List.dropWhile_cons_of_neg (by rw [h]; decide)]

theorem floatText_head {t : Str} (h : FloatText t) : ∃ c u, t = c :: u ∧ (c = '-' ∨ c.isDigit = true) := by
  obtain ⟨sign, int, frac, exp, rfl, hs, hi, -⟩ := h
  obtain ⟨c, u, rfl, hd⟩ := intPart_head hi
  rcases hs with rfl | rfl
  · exact ⟨c, _, rfl, Or.inr hd⟩
  · exact ⟨'-', _, rfl, Or.inl rfl⟩

theorem jsonInt_head (i : Int) : ∃ c u, jsonInt i = c :: u ∧ (c = '-' ∨ c.isDigit = true) := by
  cases i with
  | ofNat n =>
    obtain ⟨c, t, hc, hd⟩ := intPart_head (natStr_intPart n)
    exact ⟨c, t, hc, Or.inr hd⟩
  | negSucc n => exact ⟨'-', _, rfl, Or.inl rfl⟩

theorem number_first {c : Char} (h : c = '-' ∨ c.isDigit = true) : isJsonSpace c = false ∧ c ≠ ']' ∧ c ≠ '}' ∧ c ≠ '"' ∧ c ≠ '[' ∧ c ≠ '{' := by
  rcases h with rfl | h
  · decide
  · obtain ⟨-, -, -, -, -, -, h1, h2, h3, h4, h5⟩ := digit_first h
    exact ⟨h5, h4, by rintro rfl; revert h; decide, h1, h2, h3⟩

/-- The text of a value begins with neither white space nor a closing bracket. -/
theorem jsonDump_head {v : Json} (level : Nat) (hv : JsonOk v) :
    ∃ c t, jsonDump level v = c :: t ∧ isJsonSpace c = false ∧ c ≠ ']' ∧ c ≠ '}' := by
  cases v with
  | null => exact ⟨_, _, rfl, by decide⟩
  | bool b => cases b <;> exact ⟨_, _, rfl, by decide⟩
  | int i =>
    obtain ⟨c, t, h, hc⟩ := jsonInt_head i
    exact ⟨c, t, h, (number_first hc).1, (number_first hc).2.1, (number_first hc).2.2.1⟩
  | float x =>
    obtain ⟨c, t, h, hc⟩ := floatText_head hv
    exact ⟨c, t, h, (number_first hc).1, (number_first hc).2.1, (number_first hc).2.2.1⟩
  | str s => exact ⟨_, _, rfl, by decide⟩
  | arr l => cases l <;> exact ⟨_, _, rfl, by decide⟩
  | obj l => cases l <;> exact ⟨_, _, rfl, by decide⟩

theorem ends_items (level : Nat) (vs : List Json) (rest : Str) : Ends (jsonItems level vs ++ rest) := by
  cases vs with
  | nil => exact ⟨'\n', _, rfl, Or.inl rfl⟩
  | cons v vs => exact ⟨',', _, rfl, Or.inr (Or.inl rfl)⟩

theorem ends_pairs (level : Nat) (vs : List (List Nat × Json)) (rest : Str) : Ends (jsonPairs level vs ++ rest) := by
  cases vs with
  | nil => exact ⟨'\n', _, rfl, Or.inl rfl⟩
  | cons v vs => exact ⟨',', _, rfl, Or.inr (Or.inl rfl)⟩

theorem scanValue_atom {n : Nat} {c : Char} {r : Str} (h1 : c ≠ '"') (h2 : c ≠ '[') (h3 : c ≠ '{') :
    scanValue (n + 1) (c :: r) = scanAtom (c :: r) := by
  unfold scanValue
  simp only
  rw [if_neg h1, if_neg h2, if_neg h3]

theorem set_newKey {V : Type _} {d : List (List Nat × V)} {k : List Nat} {v : V} (h : k ∉ d.map Prod.fst) : Dict.set d k v = d ++ [(k, v)] := by
  induction d with
  | nil => rfl
  | cons x d ih =>
    simp only [List.map_cons, List.mem_cons, not_or] at h
    simp only [Dict.set, List.cons_append]
    rw [if_neg (fun e => h.1 e.symm), ih h.2]

theorem update_new {V : Type _} (l : List (List Nat × V)) : ∀ d : List (List Nat × V), ((d ++ l).map Prod.fst).Nodup →
    Dict.update d l = d ++ l := by
  induction l with
  | nil => simp [Dict.update]
  | cons x l ih =>
    intro d h
    have hx : x.1 ∉ d.map Prod.fst := by
      intro hm
      rw [List.map_append, List.nodup_append] at h
      exact h.2.2 _ hm _ (by simp) rfl
    have : Dict.update d (x :: l) = Dict.update (Dict.set d x.1 x.2) l := rfl
    rw [this, set_newKey hx, ih _ (by simpa using h)]
    simp

theorem update_nodup {V : Type _} {l : List (List Nat × V)} (h : (l.map Prod.fst).Nodup) : Dict.update [] l = l :=
  update_new l [] (by simpa using h)

mutual
/-- A value is read as it was written, whatever follows it. -/
theorem scan_dump (v : Json) (level n : Nat) (rest : Str) (hv : JsonOk v) (hn : 2 * (jsonDump level v).length + 1 ≤ n)
    (hr : Ends rest ∨ ∃ l, v = .arr l) : scanValue n (jsonDump level v ++ rest) = some (v, rest) := by
  obtain ⟨n, rfl⟩ : ∃ k, n = k + 1 := ⟨n - 1, by omega⟩
  match v with
  | .null => rfl
  | .bool true => rfl
  | .bool false => rfl
  | .int i =>
    obtain ⟨c, t, h, hc⟩ := jsonInt_head i
    have hr := hr.resolve_right (by rintro ⟨l, h⟩; cases h)
    have := scanAtom_int i hr
    simp only [jsonDump]
    rw [h, List.cons_append] at this ⊢
    obtain ⟨-, -, -, h1, h2, h3⟩ := number_first hc
    rw [scanValue_atom h1 h2 h3, this]
  | .float x =>
    have hv : FloatText x := by simpa only [JsonOk] using hv
    obtain ⟨c, t, h, hc⟩ := floatText_head hv
    have hr := hr.resolve_right (by rintro ⟨l, h⟩; cases h)
    have := scanAtom_float hv hr
    simp only [jsonDump]
    subst h
    rw [List.cons_append] at this ⊢
    obtain ⟨-, -, -, h1, h2, h3⟩ := number_first hc
    rw [scanValue_atom h1 h2 h3, this]
  | .str s =>
    have hv : JsonString s := by simpa only [JsonOk] using hv
    obtain ⟨t, h1, h2⟩ := scanString_jsonStr hv rest
    simp only [jsonDump]
    rw [h1, List.cons_append]
    unfold scanValue
    simp only
    rw [if_pos trivial, h2]
  | .arr [] => rfl
  | .arr (v :: vs) =>
    have hv : JsonOk v ∧ JsonOkAll vs := by simpa only [JsonOk, JsonOkAll] using hv
    simp only [jsonDump, List.length_cons, List.length_append, List.cons_append, List.append_assoc] at hn ⊢
    obtain ⟨c, t, hc, h1, h2, -⟩ := jsonDump_head (level + 1) hv.1
    have hi := scan_items vs level (n - 1) rest (jsonDump (level + 1) v ++ (jsonItems level vs ++ rest)) v hv.2 (by omega)
      (scan_dump v (level + 1) (n - 1) _ hv.1 (by omega) (Or.inl (ends_items level vs rest)))
    rw [show n - 1 + 1 = n by omega] at hi
    unfold scanValue
    simp only
    rw [if_neg (by decide), if_pos trivial, skipSpace_line]
    rw [hc, List.cons_append] at hi ⊢
    rw [skipSpace_cons h1]
    simp only
    rw [if_neg h2, hi]
  | .obj [] => rfl
  | .obj (kv :: kvs) =>
    have hv : ((kv :: kvs).map Prod.fst).Nodup ∧ JsonString kv.1 ∧ JsonOk kv.2 ∧ JsonOkPairs kvs := by simpa only [JsonOk, JsonOkPairs] using hv
    simp only [jsonDump, List.length_cons, List.length_append, List.cons_append, List.append_assoc] at hn ⊢
    obtain ⟨c, t, hc, h1, h2, -⟩ := jsonDump_head (level + 1) hv.2.2.1
    obtain ⟨ks, e1, e2⟩ := scanString_jsonStr hv.2.1 (':' :: ' ' :: (jsonDump (level + 1) kv.2 ++ (jsonPairs level kvs ++ rest)))
    have hd := scan_dump kv.2 (level + 1) (n - 1) (jsonPairs level kvs ++ rest) hv.2.2.1 (by omega) (Or.inl (ends_pairs level kvs rest))
    have hi := scan_pairs kvs level (n - 1) rest _ kv.1 kv.2 _ hv.2.2.2 (by omega) e2 (by rw [hc, List.cons_append, skipSpace_cons h1]) hd
    rw [show n - 1 + 1 = n by omega] at hi
    unfold scanValue
    simp only
    rw [if_neg (by decide), if_neg (by decide), if_pos trivial, skipSpace_line, e1, List.cons_append, skipSpace_cons (by decide)]
    simp only
    rw [if_neg (by decide), hi]
    simp only
    rw [update_nodup hv.1]
theorem scan_items (vs : List Json) (level m : Nat) (rest s : Str) (v : Json) (hv : JsonOkAll vs) (hm : 2 * (jsonItems level vs).length ≤ m)
    (hs : scanValue m s = some (v, jsonItems level vs ++ rest)) : scanItems (m + 1) s = some (v :: vs, rest) := by
  unfold scanItems
  rw [hs]
  simp only
  match vs with
  | [] =>
    simp only [jsonItems, List.append_assoc]
    rw [skipSpace_line, List.cons_append, skipSpace_cons (by decide)]
    simp only
    rw [if_pos trivial]
    rfl
  | v' :: vs' =>
    have hv : JsonOk v' ∧ JsonOkAll vs' := by simpa only [JsonOkAll] using hv
    simp only [jsonItems, List.length_cons, List.length_append, List.cons_append, List.append_assoc] at hm ⊢
    obtain ⟨c, t, hc, h1, h2, -⟩ := jsonDump_head (level + 1) hv.1
    have hi := scan_items vs' level (m - 1) rest (jsonDump (level + 1) v' ++ (jsonItems level vs' ++ rest)) v' hv.2 (by omega)
      (scan_dump v' (level + 1) (m - 1) _ hv.1 (by omega) (Or.inl (ends_items level vs' rest)))
    rw [show m - 1 + 1 = m by omega] at hi
    rw [skipSpace_cons (by decide)]
    simp only
    rw [if_neg (by decide), if_pos trivial, skipSpace_line]
    rw [hc, List.cons_append] at hi ⊢
    rw [skipSpace_cons h1, hi]
theorem scan_pairs (kvs : List (List Nat × Json)) (level m : Nat) (rest s : Str) (k : List Nat) (v : Json) (d : Str) (hv : JsonOkPairs kvs)
    (hm : 2 * (jsonPairs level kvs).length ≤ m) (hk : scanString s = some (k, ':' :: ' ' :: d)) (hd : skipSpace d = d)
    (hs : scanValue m d = some (v, jsonPairs level kvs ++ rest)) : scanPairs (m + 1) ('"' :: s) = some ((k, v) :: kvs, rest) := by
  unfold scanPairs
  simp only
  rw [if_pos trivial, hk]
  simp only
  rw [skipSpace_cons (by decide)]
  simp only
  have hsp : skipSpace (' ' :: d) = d := by
    refine Eq.trans ?_ hd
    unfold skipSpace; rw [List.dropWhile_cons_of_pos (by decide)]
  rw [if_pos trivial, hsp, hs]
  simp only
  match kvs with
  | [] =>
    simp only [jsonPairs, List.append_assoc]
    rw [skipSpace_line, List.cons_append, skipSpace_cons (by decide)]
    simp only
    rw [if_pos trivial]
    rfl
  | kv :: kvs' =>
    have hv : JsonString kv.1 ∧ JsonOk kv.2 ∧ JsonOkPairs kvs' := by simpa only [JsonOkPairs] using hv
    simp only [jsonPairs, List.length_cons, List.length_append, List.cons_append, List.append_assoc] at hm ⊢
    obtain ⟨c, t, hc, h1, h2, -⟩ := jsonDump_head (level + 1) hv.2.1
    obtain ⟨ks, e1, e2⟩ := scanString_jsonStr hv.1 (':' :: ' ' :: (jsonDump (level + 1) kv.2 ++ (jsonPairs level kvs' ++ rest)))
    have hd := scan_dump kv.2 (level + 1) (m - 1) (jsonPairs level kvs' ++ rest) hv.2.1 (by omega) (Or.inl (ends_pairs level kvs' rest))
    have hi := scan_pairs kvs' level (m - 1) rest _ kv.1 kv.2 _ hv.2.2 (by omega) e2 (by rw [hc, List.cons_append, skipSpace_cons h1]) hd
    rw [show m - 1 + 1 = m by omega] at hi
    rw [skipSpace_cons (by decide)]
    simp only
    rw [if_neg (by decide), if_pos trivial, skipSpace_line, e1, List.cons_append, skipSpace_cons (by decide), hi]
end

/-- C152. For every list `json.loads` reads what `json.dumps` has written. -/
theorem json_roundtrip {l : List Json} (h : JsonOk (.arr l)) : jsonLoads (jsonDump 0 (.arr l)) = some (.arr l) := by
  obtain ⟨c, t, hc, h1, -⟩ := jsonDump_head 0 h
  have hd := scan_dump (.arr l) 0 (2 * (jsonDump 0 (.arr l)).length + 2) [] h (by omega) (Or.inr ⟨l, rfl⟩)
  rw [List.append_nil] at hd
  unfold jsonLoads
  have hsk : skipSpace (jsonDump 0 (.arr l)) = jsonDump 0 (.arr l) := by rw [hc, skipSpace_cons h1]
  rw [hsk, hd]
  rfl

/-- C152. A list of which the end was not written is not a JSON document, wherever the text is cut. -/
theorem json_cut_short {l : List Json} (h : JsonOk (.arr l)) {p : Str} (hp : CutShort p (jsonDump 0 (.arr l))) : jsonLoads p = none := by
  obtain ⟨q, hq, hs⟩ := hp
  unfold jsonLoads
  cases hsc : scanValue (2 * p.length + 2) (skipSpace p) with
  | none => rfl
  | some x =>
    obtain ⟨v, r⟩ := x
    simp only
    by_cases hr : skipSpace r = []
    swap
    · rw [if_neg hr]
    exfalso
    have hhead : ∃ t, jsonDump 0 (.arr l) = '[' :: t := by cases l <;> exact ⟨_, rfl⟩
    obtain ⟨t, ht⟩ := hhead
    cases p with
    | nil => simp [skipSpace, scanValue] at hsc
    | cons c p =>
      have hc : c = '[' := by rw [ht, List.cons_append] at hs; exact (List.cons.inj hs).1.symm
      have hsk : skipSpace (c :: p) = c :: p := skipSpace_cons (by rw [hc]; decide) _
      rw [hsk] at hsc
      have harr : ∃ l', v = .arr l' := by
        unfold scanValue at hsc
        simp only at hsc
        rw [if_neg (by rw [hc]; decide), if_pos hc] at hsc
        split at hsc
        · simp at hsc
        · split at hsc
          · exact ⟨_, (Prod.mk.inj (Option.some.inj hsc)).1.symm⟩
          · split at hsc
            · simp at hsc
            · exact ⟨_, (Prod.mk.inj (Option.some.inj hsc)).1.symm⟩
      have hlen : (c :: p).length ≤ (jsonDump 0 (.arr l)).length := by rw [hs, List.length_append]; omega
      have h1 := (scan_ext _).1 _ _ _ (2 * (jsonDump 0 (.arr l)).length + 2) q hsc (Or.inr harr) (by omega)
      have h2 := scan_dump (.arr l) 0 (2 * (jsonDump 0 (.arr l)).length + 2) [] h (by omega) (Or.inr ⟨l, rfl⟩)
      rw [List.append_nil] at h2
      rw [← hs, h2] at h1
      have := (Prod.mk.inj (Option.some.inj h1)).2
      exact hq (List.append_eq_nil_iff.1 this.symm).2

/-! ### The entries of the map -/

theorem charValid (c : Char) : Nat.isValidChar c.toNat := c.valid

theorem strOf_points (s : Str) : strOf (points s) = some s := by
  induction s with
  | nil => rfl
  | cons c s ih =>
    unfold points at ih ⊢
    simp only [List.map_cons, strOf]
    rw [if_pos (charValid c), ih]
    simp only [Char.ofNat_toNat]

theorem points_ok (s : Str) : JsonString (points s) := by
  have hv : ∀ n ∈ points s, Nat.isValidChar n := by
    intro n hn
    obtain ⟨c, -, rfl⟩ := List.mem_map.1 hn
    exact charValid c
  refine ⟨fun n hn => ?_, ?_⟩
  · have := hv n hn; unfold Nat.isValidChar at this; omega
  · rintro ⟨a, h, l, b, e, h1, h2, -⟩
    have := hv h (by rw [e]; simp)
    unfold Nat.isValidChar at this
    omega

theorem mapO_map {α β : Type} {f : β → Option α} {g : α → β} (h : ∀ a, f (g a) = some a) (l : List α) : mapO f (l.map g) = some l := by
  induction l with
  | nil => rfl
  | cons a l ih => simp only [List.map_cons, mapO, h, ih]

theorem points_inj (s t : Str) : points s = points t ↔ s = t := by
  constructor
  · intro h
    have := congrArg strOf h
    rw [strOf_points, strOf_points] at this
    exact Option.some.inj this
  · rintro rfl; rfl

theorem infoOfJson_infoJson {repr : Nat → Str} {float : Str → Nat} (hf : ReprFloat repr float) (i : MapInfo) :
    infoOfJson float (infoJson repr i) = some i := by
  obtain ⟨a, b, c, d, e, f⟩ := i
  have hs : ∀ l : List Str, asList asStr (.arr (l.map fun s => .str (points s))) = some l := fun l =>
    mapO_map (f := asStr) (g := fun s => .str (points s)) strOf_points l
  have hn : ∀ l : List Nat, asList asNat (.arr (l.map fun (t : Nat) => .int t)) = some l := fun l =>
    mapO_map (f := asNat) (g := fun t : Nat => .int t) (fun t => by simp [asNat]) l
  have hs1 : ∀ s : Str, asStr (.str (points s)) = some s := strOf_points
  have hn1 : ∀ n : Nat, asNat (.int n) = some n := fun n => by simp [asNat]
  have hm : ∀ m, asTime float (.float (repr m)) = some m := fun m => by simp [asTime, (hf m).2]
  unfold infoJson infoOfJson
  simp only
  cases a <;> cases b <;> cases c <;> cases d <;> cases e <;> cases f <;>
    simp [fieldOf, Dict.get?, points_inj, hs, hn, hs1, hn1, hm]

theorem jsonOkAll_iff (l : List Json) : JsonOkAll l ↔ ∀ v ∈ l, JsonOk v := by
  induction l with
  | nil => simp [JsonOkAll]
  | cons v l ih => simp [JsonOkAll, ih]

theorem infoJson_ok {repr : Nat → Str} {float : Str → Nat} (hf : ReprFloat repr float) (i : MapInfo) : JsonOk (infoJson repr i) := by
  obtain ⟨a, b, c, d, e, f⟩ := i
  have hs : ∀ l : List Str, JsonOk (.arr (l.map fun s => .str (points s))) := by
    intro l
    simp only [JsonOk, jsonOkAll_iff]
    intro v hv
    obtain ⟨s, -, rfl⟩ := List.mem_map.1 hv
    simp only [JsonOk]
    exact points_ok s
  have hn : ∀ l : List Nat, JsonOk (.arr (l.map fun (t : Nat) => .int t)) := by
    intro l
    simp only [JsonOk, jsonOkAll_iff]
    intro v hv
    obtain ⟨s, -, rfl⟩ := List.mem_map.1 hv
    simp only [JsonOk]
  have hs1 : ∀ s : Str, JsonOk (.str (points s)) := by intro s; simp only [JsonOk]; exact points_ok s
  have hn1 : ∀ n : Nat, JsonOk (.int n) := by intro n; simp only [JsonOk]
  have hm : ∀ m, JsonOk (.float (repr m)) := by intro m; simp only [JsonOk]; exact (hf m).1
  unfold infoJson
  rw [JsonOk]
  cases a <;> cases b <;> cases c <;> cases d <;> cases e <;> cases f <;>
    simp [JsonOkPairs, points_inj, hs, hn, hs1, hn1, hm, points_ok]

theorem cacheText_ok {repr : Nat → Str} {float : Str → Nat} (hf : ReprFloat repr float) (infos : List MapInfo) :
    JsonOk (.arr (infos.map (infoJson repr))) := by
  simp only [JsonOk, jsonOkAll_iff]
  intro v hv
  obtain ⟨i, -, rfl⟩ := List.mem_map.1 hv
  exact infoJson_ok hf i

/-- C152. A cache file which was written whole is read as the entries which were saved, whatever characters the names have; one which was
cut short anywhere counts as damaged. -/
theorem cache_text {repr : Nat → Str} {float : Str → Nat} (hf : ReprFloat repr float) (infos : List MapInfo) :
    cacheOfText float (cacheText repr infos) = some (.document infos) ∧
    ∀ p, CutShort p (cacheText repr infos) → cacheOfText float p = some .garbled := by
  unfold cacheOfText cacheText
  refine ⟨?_, fun p hp => ?_⟩
  · rw [json_roundtrip (cacheText_ok hf infos)]
    simp only [asList]
    rw [mapO_map (infoOfJson_infoJson hf)]
  · rw [json_cut_short (cacheText_ok hf infos) hp]

/-- C152. So a cache file cut short is as good as none: with it, `load` gives what it gives with the candidates after it. -/
theorem load_cut_short {repr : Nat → Str} {float : Str → Nat} (hf : ReprFloat repr float) (infos : List MapInfo) {p : Str}
    (hp : CutShort p (cacheText repr infos)) (others : List CacheFile) (stat : Str → Option Stat) :
    ∃ c, cacheOfText float p = some c ∧
      (FilesMap.load (c :: others) stat).map FilesMap.filesData = (FilesMap.load (.missing :: others) stat).map FilesMap.filesData ∧
      (others = [] → FilesMap.load (c :: others) stat = .ok ⟨[], none⟩) := by
  refine ⟨.garbled, (cache_text hf infos).2 p hp, rfl, ?_⟩
  rintro rfl
  rfl

/-- C152. And `load` with the whole file gives what it gives with the entries which were saved. -/
theorem load_saved_text {repr : Nat → Str} {float : Str → Nat} (hf : ReprFloat repr float) (infos : List MapInfo) :
    ∃ c, cacheOfText float (cacheText repr infos) = some c ∧ ∀ others stat,
      FilesMap.load (c :: others) stat =
        match foldE (loadEntry stat) [] infos with
        | .error e => .error e
        | .ok d => .ok ⟨d, some 0⟩ :=
  ⟨_, (cache_text hf infos).1, fun _ _ => rfl⟩

/-- C152. A run opened with a cache file which was cut short is the run opened without one. -/
theorem run_directory_cut_short {V : Type} {repr : Nat → Str} {float : Str → Nat} (hf : ReprFloat repr float) (infos : List MapInfo) {p : Str}
    (hp : CutShort p (cacheText repr infos)) (others : List CacheFile) (disk : Str → Option (DiskFile V)) (path pattern : Str)
    (listing : List Str) :
    ∃ c, cacheOfText float p = some c ∧
      runDirectory disk (c :: others) path listing pattern = runDirectory disk (.missing :: others) path listing pattern :=
  ⟨.garbled, (cache_text hf infos).2 p hp, rfl⟩

/-! ### Examples -/

/-- Whole numbers of seconds, written as Python writes them. -/
def exRepr (m : Nat) : Str := natStr m ++ ch! ".0"

def exFloat (s : Str) : Nat := Nat.ofDigitChars 10 (s.takeWhile Char.isDigit) 0

theorem exRepr_float : ReprFloat exRepr exFloat := by
  intro m
  refine ⟨⟨[], natStr m, ch! ".0", [], by simp [exRepr], Or.inl rfl, natStr_intPart m, Or.inr ⟨ch! "0", ⟨by decide, by decide⟩, rfl⟩,
    Or.inl rfl, Or.inl (by decide)⟩, ?_⟩
  unfold exFloat exRepr
  rw [List.takeWhile_append_of_pos (fun c hc => natStr_digit hc)]
  simp only [List.takeWhile_cons]
  exact (congrArg (fun l => Nat.ofDigitChars 10 l 0) (by simp [natStr])).trans (Nat.ofDigitChars_ten_toDigits (n := m))

/-- An entry whose names have a quote and characters which are not ASCII. -/
def exEntry : MapInfo := ⟨some (ch! "ä\".h5"), some 7, some 5, some [10, 11], some [], some [ch! "D𝄞"]⟩

example : cacheText exRepr [exEntry] = ch! "[\n  {\n    \"filename\": \"\\u00e4\\\".h5\",\n    \"mtime\": 7.0,\n    \"size\": 5,\n    \"train_ids\": [\n      10,\n      11\n    ],\n    \"control_sources\": [],\n    \"instrument_sources\": [\n      \"D\\ud834\\udd1e\"\n    ]\n  }\n]" ∧
    cacheOfText exFloat ((cacheText exRepr [exEntry]).take 100) = some .garbled :=
  ⟨by decide +kernel, (cache_text exRepr_float [exEntry]).2 _ ⟨(cacheText exRepr [exEntry]).drop 100, by decide +kernel, (List.take_append_drop _ _).symm⟩⟩

/-- Texts which were not written by `save`: a comma at the end; a number cut short is another number, so only lists are safe to be cut. -/
example : cacheOfText exFloat (ch! "[{},]") = some .garbled ∧ cacheOfText exFloat (ch! " [ {\"size\" : 3} ] ") =
      some (.document [⟨none, none, some 3, none, none, none⟩]) ∧
    (jsonLoads (ch! "12") matches some (.int 12)) ∧ (jsonLoads (ch! "1") matches some (.int 1)) := by decide

end KD
