/-
Histories of opening runs through the cache: what they start from, and what is assumed of them.
-/
import Verif.Model.FilesMapHistory
import Verif.Spec.FilesMap

namespace KD.Spec

variable {V : Type}

/-- This file is there under this name at some time of the history: at the start, or put there by an event. -/
def Occurs (w : World V) (events : List (Event V)) (name : Str) (file : DiskFile V) : Prop :=
  w.fileAt name = some file ∨ .replace name file ∈ events

/-- Modification time and size identify the content of a file. -/
def StatIdentifies (w : World V) (events : List (Event V)) : Prop :=
  ∀ name a b, Occurs w events name a → Occurs w events name b → a.stat = b.stat → a.content = b.content

/-- A cache file is honest if its entries are right about every file which occurs in the history: if name, time and
size are those recorded, reading the file gives what the entry says. Missing and damaged files are honest. -/
def Honest (w : World V) (events : List (Event V)) (c : CacheFile) : Prop :=
  ∀ infos, c = .document infos → ∀ info ∈ infos, ∀ name file, Occurs w events name file →
    RecordedFor info name file.stat → ∃ h ci, file.content = .ok h ∧ readInfo h = .ok ci ∧ Describes info ci

/-- The start of a history: no process is running, cache files are honest, and no inode in use counts as free. -/
def Start (w : World V) (events : List (Event V)) : Prop :=
  (∀ p, w.procs p = ⟨.idle, [], []⟩) ∧ (∀ pos, Honest w events (w.caches pos)) ∧
    ∀ name ino, w.names name = some ino → ino < w.nextIno

/-- Events which the claim allows: data files may be replaced and removed, but are not modified in place; cache files may
be damaged or replaced by honest ones; file handles can be had for open files; crashes are allowed. -/
def Allowed (w : World V) (events : List (Event V)) : Event V → Prop
  | .modify _ _ => False
  | .putCache _ c => Honest w events c
  | .act _ byName _ => byName = false
  | _ => True

/-- The object shows the train IDs and sources which reading this file gives. -/
def Shows (f : FileAccess V) (file : DiskFile V) : Prop :=
  ∃ h ci, file.content = .ok h ∧ readInfo h = .ok ci ∧ SameInfo f.info ci

end KD.Spec
