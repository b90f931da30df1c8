/- C69: what `serve_files` and `karabo-bridge-serve-files` stream. -/
import Verif.Model.Stream
import Verif.Props.Iterate
import Verif.Props.Selection

set_option linter.unusedSimpArgs false

namespace KD
open Spec

variable {V : Type}

/-- What iteration yields is available. -/
theorem trains_available {c : DC V} (hc : NoConflict c.files) {req : Bool} {l : List (Nat × Dict Str (SourceData V))}
    (h : c.trains none none req = .ok l) {t : Nat} {d : Dict Str (SourceData V)} (ht : (t, d) ∈ l) {s : Str} {sd : SourceData V}
    (hs : d.get? s = some sd) {k : Str} (hk : k ∈ sd.data.keys) : Available c s k := by
  rw [trains_pure hc] at h
  cases hm : mapE (pureStep c req) c.trainIds with
  | error e => simp [hm, Except.map] at h
  | ok items =>
    simp [hm, Except.map] at h; subst h
    rw [List.mem_filterMap] at ht
    obtain ⟨x, hx, hxe⟩ := ht
    obtain rfl : x = some (t, d) := hxe
    obtain ⟨t', -, hst⟩ := (mapE_mem hm).1 hx
    have hp : pureAssemble c t' = .ok d := by
      unfold pureStep at hst
      split at hst
      · simp at hst
      · simp at hst
      · split at hst
        · simp at hst
        · next d0 hd =>
          simp at hst
          rw [hd, hst.2]
    have src : ∀ {entry : Str → FileAccess V × Nat × Dataset V → Str → R (Entry V)} {s' : Str} {x : Str × SourceData V},
        pureSource c entry t' s' = .ok x → s' ∈ c.allSources → ∀ k ∈ x.2.data.keys, Available c x.1 k := by
      intro entry s' x hx hs' k hk
      unfold pureSource at hx
      split at hx
      · simp at hx
      · next ks hks =>
        split at hx
        · simp at hx
        · next items hit =>
          obtain rfl := Except.ok.inj hx
          obtain ⟨⟨k', e⟩, hin, rfl⟩ := List.mem_map.1 hk
          rw [List.mem_filterMap] at hin
          obtain ⟨y, hy, hye⟩ := hin
          obtain rfl : y = some (k', e) := hye
          obtain ⟨k2, hk2, hy2⟩ := (mapE_mem hit).1 hy
          have : k2 = k' := by
            unfold pureKey at hy2
            split at hy2
            · simp at hy2
            · simp at hy2
            · split at hy2
              · simp at hy2
              · simp at hy2; exact hy2.1
          subst this
          exact ⟨hs', ks, hks, hk2⟩
    unfold pureAssemble at hp
    split at hp
    · simp at hp
    · next ctrl hctrl =>
      split at hp
      · simp at hp
      · next inst hinst =>
        obtain rfl := Except.ok.inj hp
        have hmem := Dict.mem_of_get? hs
        have mem_upd : ∀ {a : Dict Str (SourceData V)} {b : List (Str × SourceData V)} {y : Str × SourceData V},
            y ∈ Dict.update a b → y ∈ a ∨ y ∈ b := by
          intro a b
          induction b generalizing a with
          | nil => intro y hy; exact Or.inl hy
          | cons z b ih =>
            intro y hy
            rw [Dict.update_cons] at hy
            rcases ih hy with hy | hy
            · have set_mem : ∀ {a : Dict Str (SourceData V)} {k : Str} {v : SourceData V} {y : Str × SourceData V},
                  y ∈ a.set k v → y ∈ a ∨ y = (k, v) := by
                intro a k v y hy
                induction a with
                | nil => simp [Dict.set] at hy; exact Or.inr hy
                | cons w a ih =>
                  obtain ⟨wk, wv⟩ := w
                  unfold Dict.set at hy
                  split at hy
                  · next hwk =>
                    subst hwk
                    rw [List.mem_cons] at hy
                    rcases hy with hy | hy
                    · exact Or.inr hy
                    · exact Or.inl (by simp [hy])
                  · rw [List.mem_cons] at hy
                    rcases hy with hy | hy
                    · exact Or.inl (by simp [hy])
                    · rcases ih hy with h | h
                      · exact Or.inl (by simp [h])
                      · exact Or.inr h
              rcases set_mem hy with h | h
              · exact Or.inl h
              · exact Or.inr (by simp [h])
            · exact Or.inr (by simp [hy])
        rcases mem_upd hmem with hmem | hmem
        · rcases mem_upd hmem with hmem | hmem
          · simp at hmem
          · obtain ⟨s', hs', hx'⟩ := (mapE_mem hctrl).1 hmem
            exact src hx' (by simp [DC.allSources, hs']) k hk
        · obtain ⟨s', hs', hx'⟩ := (mapE_mem hinst).1 hmem
          exact src hx' (by simp [DC.allSources, hs']) k hk

/-- C69 for `serve_files`. What is streamed are the trains of the data in the path with only the sources and keys matching
the patterns, without trains for which nothing is selected, in order. -/
theorem serve_files_selects_partial {c : DC V} {sg kg : Str} {l : List (Dict Str (SourceData V))} (h : serveFiles (.ok c) sg kg = .ok l)
    (hc : NoConflict c.files) (hstar : kg = ch! "*" → ∀ s ∈ c.allSources, globMatch sg s = true → c.selection.get? s = some none) :
    ∃ (d : DC V) (ts : List (Nat × Dict Str (SourceData V))), c.select (.globs [(sg, kg)]) = .ok d ∧ d.trains none none false = .ok ts ∧
      (∀ x ∈ l, x ≠ []) ∧ l = (ts.map Prod.snd).filter (fun x => x ≠ []) ∧
      ∀ x ∈ l, ∀ s sd, x.get? s = some sd → ∀ k ∈ sd.data.keys, Available c s k ∧ globMatch sg s = true ∧
        KeyMatches (s ∈ c.controlSources) kg k := by
  unfold serveFiles at h
  simp only at h
  split at h
  · simp at h
  · next d hd =>
    split at h
    · simp at h
    · next ts hts =>
      obtain rfl := Except.ok.inj h
      have hfil : (fun x : Dict Str (SourceData V) => !x.isEmpty) = (fun x => decide (x ≠ [])) := by
        funext x; cases x <;> rfl
      have hdc : NoConflict d.files := by
        obtain ⟨sel, -, -, rfl⟩ := select_ok_iff.1 hd
        exact filesFor_noConflict hc sel
      refine ⟨d, ts, hd, hts, ?_, by rw [hfil], ?_⟩
      · intro x hx
        rw [List.mem_filter] at hx
        intro e
        rw [e] at hx
        simp at hx
      · intro x hx s sd hs k hk
        rw [List.mem_filter] at hx
        obtain ⟨⟨t, y⟩, hty, rfl⟩ := List.mem_map.1 hx.1
        have hav := trains_available hdc hts hty hs hk
        have := (select_globs_exact hd (by
          intro p hp hst
          rw [List.mem_singleton] at hp
          subst hp
          exact hstar hst) s k).1 hav
        obtain ⟨h1, p, hp, h2, h3⟩ := this
        rw [List.mem_singleton] at hp
        subst hp
        exact ⟨h1, h2, h3⟩

/-- Errors in reading the files, in the selection or in the iteration are raised. -/
theorem serve_files_error {sg kg : Str} : (∀ e, serveFiles (V := V) (.error e) sg kg = .error e) ∧
    (∀ (c : DC V) e, c.select (.globs [(sg, kg)]) = .error e → serveFiles (.ok c) sg kg = .error e) ∧
    (∀ (c d : DC V) e, c.select (.globs [(sg, kg)]) = .ok d → d.trains none none false = .error e → serveFiles (.ok c) sg kg = .error e) := by
  refine ⟨fun _ => rfl, ?_, ?_⟩
  · intro c e h; simp only [serveFiles, h]
  · intro c d e h1 h2; simp only [serveFiles, h1, h2]

/-- C69 is wrong: the command line program streams everything, whatever is given as `--source` and `--key`. -/
theorem cli_ignores_options (files : Str → R (DC V)) (args : ServeArgs) (s k : Str) :
    serveMain files { args with source := s, key := k } = serveMain files args := rfl

/-- C69 is wrong: with `--source C` the source `D:o` is streamed. -/
theorem cli_options_ignored_wrong : ∃ x l, serveMain (fun _ => .ok exTrains) ⟨ch! "run", ch! "4545", ch! "C", ch! "*"⟩ = .ok (x :: l) ∧
    ch! "D:o" ∈ x.keys ∧ globMatch (ch! "C") (ch! "D:o") = false := by
  have h : (match serveMain (fun _ => .ok exTrains) ⟨ch! "run", ch! "4545", ch! "C", ch! "*"⟩ with
      | .ok (x :: _) => decide (ch! "D:o" ∈ Dict.keys x)
      | _ => false) = true := by decide
  split at h
  · rename_i x l hx
    exact ⟨x, l, hx, by simpa using h, by decide⟩
  · simp at h

/-- The program serves what is in the path, without restriction. -/
theorem cli_serves_all {files : Str → R (DC V)} {args : ServeArgs} {c : DC V} (hf : files args.path = .ok c) :
    serveMain files args = serveFiles (.ok c) (ch! "*") (ch! "*") := by
  unfold serveMain; rw [hf]

/-- `serve_files` with a pattern, for the collection of the examples. -/
example : (serveFiles (.ok exTrains) (ch! "C") (ch! "*")).map (List.map Dict.keys) = .ok [[ch! "C"], [ch! "C"], [ch! "C"], [ch! "C"]] := by
  decide

end KD
