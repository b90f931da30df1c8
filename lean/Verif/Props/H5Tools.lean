/-
C99 names printed by `hdf5_paths`; C100 conversion to CBF.
-/
import Verif.Model.H5Tools
import Verif.Props.H5Index

namespace KD

open Spec

/-! ### Names -/

/-- No group has more members than are printed. -/
def Spec.AllShort (maxlen : Nat) (root : H5Obj) : Prop :=
  ∀ p members, objAt root p = some (.group members) → members.length ≤ maxlen

/-- The line for the object `name` which is in the group at path `p`. -/
def Spec.nameLine (indent : Nat) (p : Path) (name : Str) : Str := List.replicate (indent + 4 * p.length) ' ' ++ name

theorem allShort_member {maxlen : Nat} {members : List (Str × H5Obj)} (hg : GoodNames (.group members))
    (h : AllShort maxlen (.group members)) {m : Str × H5Obj} (hm : m ∈ members) : AllShort maxlen m.2 := by
  intro p ms hp
  apply h (m.1 :: p) ms
  rw [objAt, find_member (hg [] members rfl).1 hm]
  exact hp

mutual

theorem lines_mem {maxlen : Nat} : ∀ {o : H5Obj}, GoodNames o → AllShort maxlen o → ∀ {indent : Nat} {name line : Str},
    line ∈ o.lines indent maxlen name ↔ line = nameLine indent [] name ∨
      ∃ p n o', objAt o (p ++ [n]) = some o' ∧ line = nameLine (indent + 4) p n
  | .data s d, _, _, indent, name, line => by
    simp only [H5Obj.lines, List.mem_cons, List.not_mem_nil, or_false, or_self, nameLine, List.length_nil, Nat.mul_zero,
      Nat.add_zero]
    constructor
    · exact Or.inl
    · rintro (h | ⟨p, n, o', h, -⟩)
      · exact h
      · cases p <;> simp [objAt] at h
  | .group ms, hg, hs, indent, name, line => by
    rw [H5Obj.lines, List.mem_cons, memberLines_mem (fun m hm => goodNames_member hg hm) (fun m hm => allShort_member hg hs hm)
      (hs [] ms rfl)]
    refine or_congr (by simp [nameLine]) ?_
    constructor
    · rintro ⟨m, hm, h | ⟨p, n, o', h1, h2⟩⟩
      · refine ⟨[], m.1, m.2, ?_, h⟩
        rw [List.nil_append, objAt, find_member (hg [] ms rfl).1 hm]
        rfl
      · refine ⟨m.1 :: p, n, o', ?_, ?_⟩
        · rw [List.cons_append, objAt, find_member (hg [] ms rfl).1 hm]
          exact h1
        · rw [h2]; simp only [nameLine, List.length_cons]; congr 2; omega
    · rintro ⟨p, n, o', h1, h2⟩
      cases p with
      | nil =>
        rw [List.nil_append, objAt] at h1
        cases hf : ms.find? (fun m => m.1 == n) with
        | none => rw [hf] at h1; simp at h1
        | some m =>
          have : m.1 = n := by simpa using List.find?_some hf
          exact ⟨m, List.mem_of_find?_eq_some hf, Or.inl (by rw [this]; exact h2)⟩
      | cons a p =>
        rw [List.cons_append, objAt] at h1
        cases hf : ms.find? (fun m => m.1 == a) with
        | none => rw [hf] at h1; simp at h1
        | some m =>
          rw [hf] at h1
          refine ⟨m, List.mem_of_find?_eq_some hf, Or.inr ⟨p, n, o', h1, ?_⟩⟩
          rw [h2]; simp only [nameLine, List.length_cons]; congr 2; omega

theorem memberLines_mem {maxlen : Nat} : ∀ {ms : List (Str × H5Obj)}, (∀ m ∈ ms, GoodNames m.2) → (∀ m ∈ ms, AllShort maxlen m.2) →
    ∀ {k : Nat}, ms.length ≤ k → ∀ {indent : Nat} {line : Str},
    line ∈ memberLines indent maxlen k ms ↔ ∃ m ∈ ms, line = nameLine indent [] m.1 ∨
      ∃ p n o', objAt m.2 (p ++ [n]) = some o' ∧ line = nameLine (indent + 4) p n
  | [], _, _, k, _, indent, line => by
    cases k <;> simp [memberLines]
  | m :: ms, hg, hs, k, hk, indent, line => by
    cases k with
    | zero => simp at hk
    | succ k =>
      rw [memberLines, List.mem_append, lines_mem (hg m (by simp)) (hs m (by simp)),
        memberLines_mem (fun m hm => hg m (by simp [hm])) (fun m hm => hs m (by simp [hm])) (by simpa using hk)]
      simp only [List.mem_cons, exists_eq_or_imp]

end

/-- C99, part. If no group has more than `maxlen` members, the lines printed are those of the objects of the file: the name, indented
by four spaces for each group it is in. Missing for the full claim: a dataset has two lines (`paths_twice_wrong`), and further members
of a group are left out (`paths_omits_wrong`). -/
theorem paths_names_partial {members : List (Str × H5Obj)} {indent maxlen : Nat} (hg : GoodNames (.group members))
    (hs : AllShort maxlen (.group members)) {line : Str} :
    line ∈ hdf5Paths members indent maxlen ↔
      ∃ p n o, objAt (.group members) (p ++ [n]) = some o ∧ line = nameLine indent p n := by
  unfold hdf5Paths
  rw [memberLines_mem (fun m hm => goodNames_member hg hm) (fun m hm => allShort_member hg hs hm) (hs [] members rfl)]
  constructor
  · rintro ⟨m, hm, h | ⟨p, n, o', h1, h2⟩⟩
    · refine ⟨[], m.1, m.2, ?_, h⟩
      rw [List.nil_append, objAt, find_member (hg [] members rfl).1 hm]
      rfl
    · refine ⟨m.1 :: p, n, o', ?_, ?_⟩
      · rw [List.cons_append, objAt, find_member (hg [] members rfl).1 hm]
        exact h1
      · rw [h2]; simp only [nameLine, List.length_cons]; congr 2; omega
  · rintro ⟨p, n, o', h1, h2⟩
    cases p with
    | nil =>
      rw [List.nil_append, objAt] at h1
      cases hf : members.find? (fun m => m.1 == n) with
      | none => rw [hf] at h1; simp at h1
      | some m =>
        have : m.1 = n := by simpa using List.find?_some hf
        exact ⟨m, List.mem_of_find?_eq_some hf, Or.inl (by rw [this]; exact h2)⟩
    | cons a p =>
      rw [List.cons_append, objAt] at h1
      cases hf : members.find? (fun m => m.1 == a) with
      | none => rw [hf] at h1; simp at h1
      | some m =>
        rw [hf] at h1
        refine ⟨m, List.mem_of_find?_eq_some hf, Or.inr ⟨p, n, o', h1, ?_⟩⟩
        rw [h2]; simp only [nameLine, List.length_cons]; congr 2; omega

set_option maxRecDepth 20000 in
example : hdf5Paths [(ch! "METADATA", .group [(ch! "dataSourceId", .data (some [2]) (ch! "|S8"))]), (ch! "a", .group [])] 2 100 =
    [ch! "  METADATA", ch! "      dataSourceId", ch! "      dataSourceId", ch! "  a"] := by decide

/-- The name of a dataset is printed twice. -/
theorem paths_twice_wrong : hdf5Paths [(ch! "b", .group [(ch! "x", .data (some [2]) (ch! "<f8"))])] 0 100 =
    [ch! "b", ch! "    x", ch! "    x"] := by decide

/-- A member which comes after `maxlen` others is not printed. -/
theorem paths_omits_wrong (maxlen : Nat) : hdf5Paths (List.replicate maxlen (ch! "a", .data none []) ++ [(ch! "z", .data none [])]) 0 maxlen =
    List.replicate (2 * maxlen) (ch! "a") := by
  unfold hdf5Paths
  have : ∀ k, memberLines 0 maxlen k (List.replicate k (ch! "a", H5Obj.data none []) ++ [(ch! "z", .data none [])]) =
      List.replicate (2 * k) (ch! "a") := by
    intro k
    induction k with
    | zero => simp [memberLines]
    | succ k ih =>
      rw [List.replicate_succ, List.cons_append, memberLines, ih, Nat.mul_succ, Nat.add_comm (2 * k) 2, List.replicate_add]
      simp [H5Obj.lines, List.replicate]
  exact this maxlen

/-! ### CBF -/

variable {V : Type}

theorem h5Row_eq {rows : List V} {i : Int} :
    (∀ j, j < rows.length → i = j → h5Row rows i = nth rows j) ∧
    (∀ j, j < rows.length → i = (j : Int) - rows.length → h5Row rows i = nth rows j) ∧
    (i < -(rows.length : Int) ∨ (rows.length : Int) ≤ i → h5Row rows i = .error .value) := by
  unfold h5Row nth
  refine ⟨?_, ?_, ?_⟩
  · rintro j hj rfl
    rw [if_neg (by omega), Int.toNat_natCast, List.getElem?_eq_getElem hj]
    simp only
    rw [if_neg (by omega)]
  · rintro j hj rfl
    rw [if_pos (by omega)]
    have : ((j : Int) - rows.length + rows.length).toNat = j := by omega
    rw [this, List.getElem?_eq_getElem hj]
    simp only
    rw [if_neg (by omega)]
  · intro h
    by_cases h0 : i < 0
    · rw [if_pos h0]
      split
      · rw [if_pos (by omega)]
      · rfl
    · rw [if_neg h0, List.getElem?_eq_none (by omega)]

/-- C100. The image written is the one with the number asked for (negative numbers count from the end) in the dataset `data` of the first
source whose name ends with `image`. If there is no such source, no such dataset or no such image, an exception is raised and nothing
is written. -/
theorem cbf_image {h : H5File V} {ids : List Str} (hi : h.sources05 = some ids) {index : Int} :
    ((∀ q ∈ ids, ¬ ch! "image" <:+ q) → hdf5ToCbf h index = .error .index) ∧
    ∀ before p after, ids = before ++ p :: after → (∀ q ∈ before, ¬ ch! "image" <:+ q) → ch! "image" <:+ p →
      (h.datasets.get? (h5path (p ++ ch! "/data")) = none → hdf5ToCbf h index = .error .key) ∧
      ∀ ds, h.datasets.get? (h5path (p ++ ch! "/data")) = some ds →
        (∀ j (hj : j < ds.rows.length), index = j ∨ index = (j : Int) - ds.rows.length → hdf5ToCbf h index = .ok ds.rows[j]) ∧
        (index < -(ds.rows.length : Int) ∨ (ds.rows.length : Int) ≤ index → hdf5ToCbf h index = .error .value) := by
  have hends : ∀ q : Str, endsWith q (ch! "image") = true ↔ ch! "image" <:+ q := by
    intro q; unfold endsWith; exact List.isSuffixOf_iff_suffix
  unfold hdf5ToCbf
  rw [hi]
  simp only [need]
  refine ⟨?_, ?_⟩
  · intro hq
    rw [List.filter_eq_nil_iff.2 (fun q hq' => by rw [hends]; exact hq q hq')]
    rfl
  · rintro before p after rfl hb hp
    have hf : nth ((before ++ p :: after).filter (fun p => endsWith p (ch! "image"))) 0 = .ok p := by
      rw [List.filter_append, List.filter_eq_nil_iff.2 (fun q hq' => by rw [hends]; exact hb q hq'),
        List.filter_cons_of_pos (by rw [hends]; exact hp)]
      rfl
    rw [hf]
    simp only
    refine ⟨?_, ?_⟩
    · intro hn; rw [hn]
    · intro ds hds
      rw [hds]
      simp only
      obtain ⟨r1, r2, r3⟩ := h5Row_eq (rows := ds.rows) (i := index)
      refine ⟨?_, r3⟩
      rintro j hj (h | h)
      · rw [r1 j hj h, nth_ok_of_lt hj]
      · rw [r2 j hj h, nth_ok_of_lt hj]

/-- A file without `METADATA/dataSourceId` raises KeyError. -/
theorem cbf_no_metadata {h : H5File V} (hi : h.sources05 = none) {index : Int} : hdf5ToCbf h index = .error .key := by
  unfold hdf5ToCbf
  rw [hi]
  rfl

example : hdf5ToCbf (V := Nat) ⟨none, none, some [ch! "CONTROL/C", ch! "INSTRUMENT/D:o/image"], none, [], [],
    [([ch! "INSTRUMENT", ch! "D:o", ch! "image", ch! "data"], ⟨[5, 6, 7], [2, 2], 1⟩)]⟩ (-1) = .ok 7 := by decide

end KD
