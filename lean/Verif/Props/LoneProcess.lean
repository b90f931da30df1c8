/- Property C45: a process which opens a run alone does what the functions do one after another. -/
import Verif.Spec.LoneProcess
import Verif.Props.FilesMapHistory

namespace KD
open Spec

variable {V : Type}

/-- The world with another state of one process. -/
def World.setProc (w : World V) (p : Nat) (q : Proc V) : World V :=
  { w with procs := fun i => if i = p then q else w.procs i }

theorem setProc_step {w : World V} {ncand p : Nat} {q : Proc V} {b : Bool} {o : R Unit} {r : Proc V × Option (Nat × List MapInfo)}
    (h : w.procStep ncand q b o = r) :
    (w.setProc p q).step ncand (.act p b o) = { w.setProc p r.1 with caches := cachesAfter w.caches r.2 } := by
  have h' : (w.setProc p q).procStep ncand ((w.setProc p q).procs p) b o = r := by
    have : (w.setProc p q).procs p = q := by simp [World.setProc]
    rw [this]; exact h
  unfold World.step
  simp only
  rw [h']
  unfold World.setProc
  obtain ⟨r1, r2⟩ := r
  congr 1
  · rcases r2 with - | ⟨pos, doc⟩ <;> rfl
  · funext i
    by_cases hi : i = p <;> simp [hi]

section
variable {ncand : Nat} {making : R Unit} {attempt : Nat → R Unit} {b : Bool} {p : Nat}

theorem alone_next {w w' : World V} {q q' : Proc V} (h : w.procStep ncand q b (outcomeAt making attempt q.phase) = (q', none))
    (hr : Alone ncand making attempt b p (w.setProc p q') w') : Alone ncand making attempt b p (w.setProc p q) w' := by
  apply Alone.step
  have : (w.setProc p q).procs p = q := by simp [World.setProc]
  rw [this, setProc_step h]
  exact hr

/-- Looking for a cache file. -/
theorem alone_loading {w w' : World V} {names : List Str} {op : List (Opened V)} (n : Nat) :
    ∀ pos, pos + n = ncand →
    (∀ e, loadCandidates pos ((List.range' pos n).map w.caches) = .error e →
      Alone ncand making attempt b p (w.setProc p ⟨.failed e, names, op⟩) w') →
    (∀ infos k, loadCandidates pos ((List.range' pos n).map w.caches) = .ok (infos, k) →
      Alone ncand making attempt b p (w.setProc p ⟨.checking infos [], names, op⟩) w') →
    Alone ncand making attempt b p (w.setProc p ⟨.loading pos, names, op⟩) w' := by
  induction n with
  | zero =>
    intro pos hp _ hok
    refine alone_next (q' := ⟨.checking [] [], names, op⟩) ?_ (hok [] none rfl)
    unfold World.procStep
    simp only
    rw [if_neg (by omega)]
  | succ n ih =>
    intro pos hp herr hok
    rw [List.range'_succ, List.map_cons] at herr hok
    have hlt : pos < ncand := by omega
    cases hc : w.caches pos with
    | missing =>
      rw [hc] at herr hok
      refine alone_next (q' := ⟨.loading (pos + 1), names, op⟩) ?_ (ih (pos + 1) (by omega) herr hok)
      unfold World.procStep; simp only; rw [if_pos hlt, hc]
    | garbled =>
      rw [hc] at herr hok
      refine alone_next (q' := ⟨.loading (pos + 1), names, op⟩) ?_ (ih (pos + 1) (by omega) herr hok)
      unfold World.procStep; simp only; rw [if_pos hlt, hc]
    | unreadable e =>
      rw [hc] at herr hok
      refine alone_next (q' := ⟨.failed e, names, op⟩) ?_ (herr e rfl)
      unfold World.procStep; simp only; rw [if_pos hlt, hc]
    | document infos =>
      rw [hc] at herr hok
      refine alone_next (q' := ⟨.checking infos [], names, op⟩) ?_ (hok infos _ rfl)
      unfold World.procStep; simp only; rw [if_pos hlt, hc]

/-- Checking the entries. -/
theorem alone_checking {w w' : World V} {names : List Str} {op : List (Opened V)} (infos : List MapInfo) :
    ∀ d, (∀ e, foldE (loadEntry w.statAt) d infos = .error e →
      Alone ncand making attempt b p (w.setProc p ⟨.failed e, names, op⟩) w') →
    (∀ d', foldE (loadEntry w.statAt) d infos = .ok d' →
      Alone ncand making attempt b p (w.setProc p ⟨.opening names d', names, op⟩) w') →
    Alone ncand making attempt b p (w.setProc p ⟨.checking infos d, names, op⟩) w' := by
  induction infos with
  | nil => intro d _ hok; exact alone_next rfl (hok d rfl)
  | cons info infos ih =>
    intro d herr hok
    unfold foldE at herr hok
    cases hl : loadEntry w.statAt d info with
    | error e =>
      rw [hl] at herr
      refine alone_next (q' := ⟨.failed e, names, op⟩) ?_ (herr e rfl)
      unfold World.procStep; simp only; rw [hl]
    | ok d' =>
      rw [hl] at herr hok
      refine alone_next (q' := ⟨.checking infos d', names, op⟩) ?_ (ih d' herr hok)
      unfold World.procStep; simp only; rw [hl]

/-- The files which were opened are these; `save` finds the stat of each by its name. -/
def OpenedAs (w : World V) (op : List (Opened V)) (files : List (FileAccess V)) : Prop :=
  op.map Opened.file = files ∧ ∀ o ∈ op, ∀ byName, (⟨true, o.fname, w.saveStat o byName, o.file.info⟩ : SaveFile) = toSave w o.file

theorem openFile_name {disk : Str → Option (DiskFile V)} {path fname : Str} {ci : Option CacheInfo} {f : FileAccess V}
    (h : openFile disk path fname ci = .ok f) : f.filename = path := by
  unfold openFile at h
  have init_name : ∀ {hf : H5File V} {c : Option CacheInfo}, FileAccess.init path hf c = .ok f → f.filename = path := by
    intro hf c h
    unfold FileAccess.init at h
    split at h
    · obtain rfl := Except.ok.inj h; rfl
    · split at h
      · simp at h
      · split at h
        · simp at h
        · obtain rfl := Except.ok.inj h; rfl
  split at h
  · exact init_name h
  · exact init_name h
  · exact init_name h
  · simp at h
  · simp at h

theorem pathJoin_nil (name : Str) : pathJoin [] name = name := rfl

theorem openOne_opened {w : World V} {name : Str} {ci : Option CacheInfo} {op : List (Opened V)} {files : List (FileAccess V)}
    (h : OpenedAs w op files) :
    OpenedAs w (op ++ w.openOne name ci)
      (files ++ [openFile w.fileAt (pathJoin [] name) name ci].filterMap Except.toOption) := by
  rw [pathJoin_nil]
  unfold World.openOne
  cases ho : openFile w.fileAt name name ci with
  | error e => exact (List.append_nil op).symm ▸ (List.append_nil files).symm ▸ h
  | ok f =>
    obtain ⟨h1, h2⟩ := h
    refine ⟨by simp [h1, Except.toOption], ?_⟩
    intro o hm byName
    rcases List.mem_append.1 hm with hm | hm
    · exact h2 o hm byName
    obtain rfl := List.mem_singleton.1 hm
    have hn := openFile_name ho
    subst hn
    unfold toSave FileAccess.info World.saveStat World.statAt World.fileAt
    cases ci with
    | some ci => rfl
    | none =>
      cases hw : w.names f.filename with
      | none => rfl
      | some ino => cases byName <;> rfl

/-- Opening the files. -/
theorem alone_opening {w : World V} {names : List Str} {d : Dict Str MapInfo} (rest : List Str) :
    ∀ op files, OpenedAs w op files →
    (∃ e op', openAll w.fileAt [] d rest = .error e ∧ ∀ w',
      Alone ncand making attempt b p (w.setProc p ⟨.failed e, names, op'⟩) w' →
      Alone ncand making attempt b p (w.setProc p ⟨.opening rest d, names, op⟩) w') ∨
    ∃ l op', openAll w.fileAt [] d rest = .ok l ∧ OpenedAs w op' (files ++ l.filterMap Except.toOption) ∧ ∀ w',
      Alone ncand making attempt b p (w.setProc p ⟨.opening [] d, names, op'⟩) w' →
      Alone ncand making attempt b p (w.setProc p ⟨.opening rest d, names, op⟩) w' := by
  induction rest with
  | nil => intro op files hop; exact Or.inr ⟨[], op, rfl, by simpa using hop, fun _ h => h⟩
  | cons name rest ih =>
    intro op files hop
    unfold openAll
    cases hg : getInfo d true name with
    | error e =>
      refine Or.inl ⟨e, op, rfl, fun w' h => alone_next ?_ h⟩
      unfold World.procStep; simp only; rw [hg]
    | ok ci =>
      have hstep : w.procStep ncand ⟨.opening (name :: rest) d, names, op⟩ b
          (outcomeAt making attempt (.opening (name :: rest) d)) =
          (⟨.opening rest d, names, op ++ w.openOne name ci⟩, none) := by
        unfold World.procStep; simp only; rw [hg]
      rcases ih _ _ (openOne_opened (name := name) (ci := ci) hop) with ⟨e, op', h1, h2⟩ | ⟨l, op', h1, h2, h3⟩
      · exact Or.inl ⟨e, op', by rw [h1], fun w' h => alone_next hstep (h2 w' h)⟩
      · refine Or.inr ⟨openFile w.fileAt (pathJoin [] name) name ci :: l, op', by rw [h1], ?_,
          fun w' h => alone_next hstep (h3 w' h)⟩
        rw [show openFile w.fileAt (pathJoin [] name) name ci :: l = [openFile w.fileAt (pathJoin [] name) name ci] ++ l
          from rfl, List.filterMap_append, ← List.append_assoc]
        exact h2

/-- Making the entries to save. -/
theorem alone_saving {w w' : World V} {names : List Str} {op : List (Opened V)} {files : List (FileAccess V)}
    (hop : OpenedAs w op files) (n : Nat) :
    ∀ pos d needSave, pos + n = op.length →
    (∀ e, foldE saveEntry (d, needSave) ((files.drop pos).map (toSave w)) = .error e →
      Alone ncand making attempt b p (w.setProc p ⟨.failed e, names, op⟩) w') →
    (∀ d', foldE saveEntry (d, needSave) ((files.drop pos).map (toSave w)) = .ok (d', true) →
      Alone ncand making attempt b p (w.setProc p ⟨.writing 0 (saveDoc d'), names, op⟩) w') →
    (∀ d', foldE saveEntry (d, needSave) ((files.drop pos).map (toSave w)) = .ok (d', false) →
      Alone ncand making attempt b p (w.setProc p ⟨.finished, names, op⟩) w') →
    Alone ncand making attempt b p (w.setProc p ⟨.saving pos d needSave, names, op⟩) w' := by
  obtain ⟨rfl, h2⟩ := hop
  induction n with
  | zero =>
    intro pos d needSave hp _ htrue hfalse
    rw [List.drop_eq_nil_of_le (by simp; omega)] at htrue hfalse
    have hnone : op[pos]? = none := List.getElem?_eq_none (by omega)
    cases needSave with
    | true =>
      refine alone_next (q' := ⟨.writing 0 (saveDoc d), names, op⟩) ?_ (htrue d rfl)
      unfold World.procStep; simp only; rw [hnone]; rfl
    | false =>
      refine alone_next (q' := ⟨.finished, names, op⟩) ?_ (hfalse d rfl)
      unfold World.procStep; simp only; rw [hnone]; rfl
  | succ n ih =>
    intro pos d needSave hp herr htrue hfalse
    have hlt : pos < op.length := by omega
    have hsome : op[pos]? = some op[pos] := List.getElem?_eq_getElem hlt
    rw [List.drop_eq_getElem_cons (by simpa using hlt), List.map_cons] at herr htrue hfalse
    rw [List.getElem_map] at herr htrue hfalse
    unfold foldE at herr htrue hfalse
    have hs := h2 op[pos] (List.getElem_mem hlt) b
    cases he : saveEntry (d, needSave) (toSave w op[pos].file) with
    | error e =>
      rw [he] at herr
      refine alone_next (q' := ⟨.failed e, names, op⟩) ?_ (herr e rfl)
      unfold World.procStep; simp only; rw [hsome]; simp only; rw [hs, he]
    | ok r =>
      obtain ⟨d', n'⟩ := r
      rw [he] at herr htrue hfalse
      refine alone_next (q' := ⟨.saving (pos + 1) d' n', names, op⟩) ?_ (ih (pos + 1) d' n' (by omega) herr htrue hfalse)
      unfold World.procStep; simp only; rw [hsome]; simp only; rw [hs, he]

/-- Writing the cache. -/
theorem alone_writing {w : World V} {names : List Str} {op : List (Opened V)} {doc : List MapInfo} (n : Nat) :
    ∀ pos, pos + n = ncand → ∃ phase, Alone ncand making attempt b p (w.setProc p ⟨.writing pos doc, names, op⟩)
      { w.setProc p ⟨phase, names, op⟩ with
        caches := cachesAfter w.caches
          (match trySave attempt (List.range' pos n) with | .ok (some k) => some (k, doc) | _ => none) } ∧
      phase = (match trySave attempt (List.range' pos n) with | .ok _ => .finished | .error e => .failed e) := by
  induction n with
  | zero =>
    intro pos hp
    refine ⟨.finished, alone_next (q' := ⟨.finished, names, op⟩) ?_ .done, rfl⟩
    unfold World.procStep; simp only; rw [if_neg (by omega)]
  | succ n ih =>
    intro pos hp
    have hlt : pos < ncand := by omega
    rw [List.range'_succ]
    unfold trySave
    cases ha : attempt pos with
    | ok u =>
      refine ⟨.finished, ?_, rfl⟩
      apply Alone.step
      have : (w.setProc p ⟨.writing pos doc, names, op⟩).procs p = ⟨.writing pos doc, names, op⟩ := by simp [World.setProc]
      rw [this, setProc_step (r := (⟨.finished, names, op⟩, some (pos, doc)))]
      · exact .done
      · unfold World.procStep outcomeAt; simp only; rw [if_pos hlt, ha]
    | error e =>
      by_cases he : e = .permission
      · subst he
        obtain ⟨phase, h1, h2⟩ := ih (pos + 1) (by omega)
        refine ⟨phase, alone_next (q' := ⟨.writing (pos + 1) doc, names, op⟩) ?_ h1, h2⟩
        unfold World.procStep outcomeAt; simp only; rw [if_pos hlt, ha]
      · refine ⟨.failed e, alone_next (q' := ⟨.failed e, names, op⟩) ?_ ?_, ?_⟩
        · unfold World.procStep outcomeAt; simp only; rw [if_pos hlt, ha]
          cases e <;> simp_all
        · cases e <;> first | exact absurd rfl he | exact .done
        · cases e <;> first | exact absurd rfl he | rfl

/-- C45. A process which opens a run while nothing else happens does what `load`, opening the files and `save` do one
after another: it ends with the same exception, or with the same files and the same cache document in the same place. -/
theorem lone_process {w : World V} {names : List Str} (hidle : (w.procs p).phase = .idle) :
    ∃ w', Alone ncand making attempt b p (w.step ncand (.begin p names)) w' ∧ w'.fileAt = w.fileAt ∧
      (∀ i, i ≠ p → w'.procs i = w.procs i) ∧
      (∀ e, oneAfterAnother w ncand names making attempt = .error e → (w'.procs p).phase = .failed e ∧ w'.caches = w.caches) ∧
      ∀ files written, oneAfterAnother w ncand names making attempt = .ok (files, written) →
        (w'.procs p).phase = .finished ∧ (w'.procs p).opened.map Opened.file = files ∧
        w'.caches = cachesAfter w.caches written := by
  have hb : w.step ncand (.begin p names) = w.setProc p ⟨.loading 0, names, []⟩ := by
    unfold World.step World.setProc; simp only; rw [if_pos hidle]
  rw [hb]
  -- an end with an exception
  have hfail : ∀ (e : PyErr) (op : List (Opened V)), oneAfterAnother w ncand names making attempt = .error e →
      Alone ncand making attempt b p (w.setProc p ⟨.loading 0, names, []⟩) (w.setProc p ⟨.failed e, names, op⟩) →
      ∃ w', Alone ncand making attempt b p (w.setProc p ⟨.loading 0, names, []⟩) w' ∧ w'.fileAt = w.fileAt ∧
      (∀ i, i ≠ p → w'.procs i = w.procs i) ∧
      (∀ e, oneAfterAnother w ncand names making attempt = .error e → (w'.procs p).phase = .failed e ∧ w'.caches = w.caches) ∧
      ∀ files written, oneAfterAnother w ncand names making attempt = .ok (files, written) →
        (w'.procs p).phase = .finished ∧ (w'.procs p).opened.map Opened.file = files ∧
        w'.caches = cachesAfter w.caches written := by
    intro e op h ha
    refine ⟨_, ha, rfl, fun i hi => by simp [World.setProc, hi], fun e' h' => ?_, fun f wr h' => ?_⟩
    · rw [h] at h'; obtain rfl := Except.error.inj h'; exact ⟨by simp [World.setProc], rfl⟩
    · rw [h] at h'; simp at h'
  cases hload : loadCandidates 0 ((List.range' 0 ncand).map w.caches) with
  | error e =>
    refine hfail e [] ?_ (alone_loading ncand 0 (by omega) (fun e' h => ?_) (fun infos k h => ?_))
    · unfold oneAfterAnother FilesMap.load; rw [List.range_eq_range', hload]
    · rw [hload] at h; obtain rfl := Except.error.inj h; exact .done
    · rw [hload] at h; simp at h
  | ok r =>
  obtain ⟨infos, k⟩ := r
  have s1 : ∀ w', Alone ncand making attempt b p (w.setProc p ⟨.checking infos [], names, []⟩) w' →
      Alone ncand making attempt b p (w.setProc p ⟨.loading 0, names, []⟩) w' := by
    intro w' h
    refine alone_loading ncand 0 (by omega) (fun e' h' => ?_) (fun infos' k' h' => ?_)
    · rw [hload] at h'; simp at h'
    · rw [hload] at h'; obtain ⟨rfl, -⟩ := Prod.mk.inj (Except.ok.inj h'); exact h
  cases hcheck : foldE (loadEntry w.statAt) [] infos with
  | error e =>
    refine hfail e [] ?_ (s1 _ (alone_checking infos [] (fun e' h => ?_) (fun d h => ?_)))
    · unfold oneAfterAnother FilesMap.load; rw [List.range_eq_range', hload]; simp only; rw [hcheck]
    · rw [hcheck] at h; obtain rfl := Except.error.inj h; exact .done
    · rw [hcheck] at h; simp at h
  | ok d =>
  have hl : FilesMap.load ((List.range ncand).map w.caches) w.statAt = .ok ⟨d, k⟩ := by
    unfold FilesMap.load; rw [List.range_eq_range', hload]; simp only; rw [hcheck]
  have s2 : ∀ w', Alone ncand making attempt b p (w.setProc p ⟨.opening names d, names, []⟩) w' →
      Alone ncand making attempt b p (w.setProc p ⟨.loading 0, names, []⟩) w' := by
    intro w' h
    refine s1 _ (alone_checking infos [] (fun e' h' => ?_) (fun d' h' => ?_))
    · rw [hcheck] at h'; simp at h'
    · rw [hcheck] at h'; obtain rfl := Except.ok.inj h'; exact h
  -- the files opened are the same in every case
  have hopen : (∃ e op, openAll w.fileAt [] d names = .error e ∧
        Alone ncand making attempt b p (w.setProc p ⟨.loading 0, names, []⟩) (w.setProc p ⟨.failed e, names, op⟩)) ∨
      ∃ l op, openAll w.fileAt [] d names = .ok l ∧ OpenedAs w op (l.filterMap Except.toOption) ∧
        ∀ w', Alone ncand making attempt b p (w.setProc p ⟨.opening [] d, names, op⟩) w' →
          Alone ncand making attempt b p (w.setProc p ⟨.loading 0, names, []⟩) w' := by
    obtain ⟨x, hx⟩ | ⟨l, op, h1, h2, h3⟩ := alone_opening (ncand := ncand) (making := making) (attempt := attempt) (b := b)
      (p := p) (w := w) (names := names) (d := d) names [] [] ⟨rfl, by simp⟩
    · obtain ⟨op, h1, h2⟩ := hx
      exact Or.inl ⟨x, op, h1, s2 _ (h2 _ .done)⟩
    · exact Or.inr ⟨l, op, h1, by simpa using h2, fun w' h => s2 _ (h3 w' h)⟩
  rcases hopen with ⟨e, op, h1, h2⟩ | ⟨l, op, h1, h2, s3⟩
  · refine hfail e op ?_ h2
    unfold oneAfterAnother; rw [hl]; simp only; rw [h1]
  cases making with
  | error e =>
    refine hfail e op ?_ (s3 _ (alone_next rfl .done))
    unfold oneAfterAnother; rw [hl]; simp only; rw [h1]
  | ok u =>
  have s4 : ∀ w', Alone ncand (.ok u) attempt b p (w.setProc p ⟨.saving 0 d false, names, op⟩) w' →
      Alone ncand (.ok u) attempt b p (w.setProc p ⟨.loading 0, names, []⟩) w' := fun w' h => s3 _ (alone_next rfl h)
  have hlen : 0 + op.length = op.length := by omega
  cases hfold : foldE saveEntry (d, false) ((l.filterMap Except.toOption).map (toSave w)) with
  | error e =>
    refine hfail e op ?_ (s4 _ (alone_saving h2 op.length 0 d false hlen (fun e' h => ?_) (fun d' h => ?_) (fun d' h => ?_)))
    · unfold oneAfterAnother FilesMap.save; rw [hl]; simp only; rw [h1]; simp only; rw [hfold]
    · rw [List.drop_zero, hfold] at h; obtain rfl := Except.error.inj h; exact .done
    · rw [List.drop_zero, hfold] at h; simp at h
    · rw [List.drop_zero, hfold] at h; simp at h
  | ok r =>
  obtain ⟨d', needSave⟩ := r
  cases needSave with
  | false =>
    have hseq : oneAfterAnother w ncand names (.ok u) attempt = .ok (l.filterMap Except.toOption, none) := by
      unfold oneAfterAnother FilesMap.save; rw [hl]; simp only; rw [h1]; simp only; rw [hfold]; rfl
    refine ⟨w.setProc p ⟨.finished, names, op⟩, s4 _ (alone_saving h2 op.length 0 d false hlen (fun e' h => ?_)
      (fun d'' h => ?_) (fun d'' h => .done)), rfl, fun i hi => by simp [World.setProc, hi], fun e h => ?_, fun f wr h => ?_⟩
    · rw [List.drop_zero, hfold] at h; simp at h
    · rw [List.drop_zero, hfold] at h; simp at h
    · rw [hseq] at h; simp at h
    · rw [hseq] at h
      obtain ⟨rfl, rfl⟩ := Prod.mk.inj (Except.ok.inj h)
      refine ⟨by simp [World.setProc], ?_, rfl⟩
      rw [← h2.1]
      simp [World.setProc]
  | true =>
  obtain ⟨phase, hw, hphase⟩ := alone_writing (ncand := ncand) (making := .ok u) (attempt := attempt) (b := b) (p := p)
    (w := w) (names := names) (op := op) (doc := saveDoc d') ncand 0 (by omega)
  have hseq : oneAfterAnother w ncand names (.ok u) attempt =
      (match trySave attempt (List.range' 0 ncand) with
      | .error e => .error e
      | .ok none => .ok (l.filterMap Except.toOption, none)
      | .ok (some k) => .ok (l.filterMap Except.toOption, some (k, saveDoc d'))) := by
    unfold oneAfterAnother FilesMap.save
    rw [hl]; simp only; rw [h1]; simp only; rw [hfold]; simp only [if_true]
    rw [List.range_eq_range']
    cases trySave attempt (List.range' 0 ncand) with
    | error e => rfl
    | ok r => cases r <;> rfl
  have hgo := s4 _ (alone_saving h2 op.length 0 d false hlen (fun e' h => by rw [List.drop_zero, hfold] at h; simp at h)
    (fun d'' h => by rw [List.drop_zero, hfold] at h; obtain ⟨rfl, -⟩ := Prod.mk.inj (Except.ok.inj h); exact hw)
    (fun d'' h => by rw [List.drop_zero, hfold] at h; simp at h))
  refine ⟨_, hgo, rfl, fun i hi => by simp [World.setProc, hi], fun e h => ?_, fun f wr h => ?_⟩
  · rw [hseq] at h
    cases ht : trySave attempt (List.range' 0 ncand) with
    | error e' =>
      rw [ht] at h hphase
      obtain rfl := Except.error.inj h
      exact ⟨by simp [World.setProc, hphase], rfl⟩
    | ok r => rw [ht] at h; cases r <;> simp at h
  · rw [hseq] at h
    cases ht : trySave attempt (List.range' 0 ncand) with
    | error e' => rw [ht] at h; simp at h
    | ok r =>
      rw [ht] at h hphase
      have hop : op.map Opened.file = f := by
        rw [h2.1]; cases r <;> exact (Prod.mk.inj (Except.ok.inj h)).1
      refine ⟨by simp [World.setProc, hphase], by simp [World.setProc, hop], ?_⟩
      cases r <;> (obtain ⟨-, rfl⟩ := Prod.mk.inj (Except.ok.inj h); rfl)

end

/-- A directory with two files, of which the second is not an HDF5 file; the first cache file is damaged, the second
one says something else than the first data file. -/
def exLoneWorld : World Nat :=
  ⟨fun n => if n = ch! "a.h5" then some 0 else if n = ch! "b.h5" then some 1 else none,
    fun i => if i = 0 then exVersion ⟨1, 5⟩ 10 else ⟨⟨2, 2⟩, .error .os⟩, 2,
    fun pos => if pos = 0 then .garbled else .document [⟨some (ch! "a.h5"), some 7, some 5, some [3], some [], some []⟩],
    fun _ => ⟨.idle, [], []⟩⟩

/-- The file is read, and the cache written in the second place because the first is not allowed. -/
example : (oneAfterAnother exLoneWorld 2 [ch! "a.h5", ch! "b.h5"] (.ok ())
    (fun pos => if pos = 0 then .error .permission else .ok ())).toOption.map (fun r => (r.1.map FileAccess.trainIds, r.2)) =
    some ([[10]], some (1, [⟨some (ch! "a.h5"), some 1, some 5, some [10], some [], some []⟩])) := by decide

end KD
