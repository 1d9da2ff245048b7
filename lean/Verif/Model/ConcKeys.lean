import Verif.Model.Concurrent

/-!
# `src/oidcmsg/storage/abfile.py`: interleaved operations on any number of keys

The directory holds one data file and one lock file per (converted) key (abfile.py:117-119, :92-94, :129-132); the
dictionaries `self.storage` and `self.fmtime` have one entry per key (abfile.py:94, :124, :126).  So the state is one
`Sys` per key; the clock is common.  Simplifications: no key is another key followed by `.lock` (see C54); a process may be in the
middle of operations on several keys (the schedules in which it is not are among these); a process that dies
does so key by key.
-/

namespace Verif.Conc

/-- a step on the files of one key, abfile.py:82-138 -/
structure KEv where
  key : String
  ev : Ev
deriving DecidableEq, Repr

/-- the time passes for the files of a key on which nothing happens, abfile.py:157 -/
def wait (s : Sys) (dt : Nat) : Sys := { s with g := later s.g dt }

/-- one step of the whole system; `none` if the process cannot do that, abfile.py:82-138 -/
def kstep (S : String → Sys) (e : KEv) : Option ((String → Sys) × Option Ret) :=
  match step (S e.key) e.ev with
  | none => none
  | some (s', r) => some (fun k => if k = e.key then s' else wait (S k) e.ev.dt, r)

/-- a schedule; events that are not possible are skipped, abfile.py:82-138 -/
def krun (S : String → Sys) : List KEv → (String → Sys)
  | [] => S
  | e :: es =>
    match kstep S e with
    | none => krun S es
    | some (S', _) => krun S' es

/-- an empty directory, abfile.py:56-57 -/
def kstart : String → Sys := fun _ => start

end Verif.Conc
