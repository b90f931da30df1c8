/-
The line which lsxfel prints for a run, karabo_data/lsxfel.py:96-98.
-/
import Verif.Model.LsXfel

namespace KD

/-- `'{:>w}'.format(n)`: spaces before the number, up to the width. -/
def alignRight (w n : Nat) : Str := List.replicate (w - (natStr n).length) ' ' ++ natStr n

/-- The line printed by `summarise_run`, lsxfel.py:96-98. -/
def runLine (indent basename : Str) (trains detector other : Nat) : Str :=
  indent ++ basename ++ ch! " : Run of " ++ alignRight 4 trains ++ ch! " trains, with " ++ alignRight 3 detector ++
    ch! " detector files and " ++ alignRight 3 other ++ ch! " others"

/-- What `summarise_run(path, indent)` prints for a run, lsxfel.py:70-98. -/
def runText (fs : LsFs) (indent path : Str) : R Str :=
  match countRun fs path with
  | .error e => .error e
  | .ok c => .ok (runLine indent (osBasename path) c.1 c.2.1 c.2.2)

end KD
