/- Saving the cache file atomically: where histories start, and what may be seen. -/
import Verif.Model.AtomicDump

namespace KD.Spec

/-- The start: nobody is writing or reading, and files in the directory do not count as free. -/
def DumpStart (w : DumpFS) : Prop :=
  (∀ p, w.writers p = .idle) ∧ (∀ r, w.readers r = .idle) ∧ ∀ n ino, w.names n = some ino → ino < w.nextIno

/-- A content which may be seen at the path: what was there at the start, or a complete document of some process. -/
def Whole (path : Str) (w : DumpFS) (events : List DumpEvent) (text : Str) : Prop :=
  w.content path = some text ∨ ∃ p suffix, .start p suffix text ∈ events

/-- The process has not called `atomic_dump`, or its last call has returned or raised after removing its temporary file. -/
def AtRest (s : Writer) : Prop := s = .idle ∨ s = .finished ∨ s = .failed

end KD.Spec
