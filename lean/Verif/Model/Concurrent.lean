/-!
# `src/oidcmsg/storage/abfile.py`: the individual file-system steps of several processes on one key

One data file and its lock file; any number of instances ("processes", each sequential), interleaved step by step.
Texts are what `value_conv` produces for the values written (serialisable ones) and what it is given when reading.
The lock (`FileLock`) is exclusive, is freed when its holder dies, and the lock file itself is not removed (no `clear`).
Each step of a process may be preceded by any amount of time; files get the current time as modification time.
-/

namespace Verif.Conc

/-- file contents, abfile.py:122 and 197 -/
abbrev Text := List Char

/-- Where a process is in the code. abfile.py:82-138, 148-204 -/
inductive PC where
  | idle
  | dead
  /-- abfile.py:119-120 `with lock:` of `__setitem__` -/
  | wLock (t : Text)
  /-- abfile.py:121 `open(fname, 'w')` -/
  | wOpen (t : Text)
  /-- abfile.py:122 `fp.write`, `q` has reached the file -/
  | wWrite (t q : Text)
  /-- closed, about to free the lock and to set `self.storage[_key]`, abfile.py:124 -/
  | wRel (t : Text)
  /-- abfile.py:126 `self.get_mtime(fname)`; `again` after the `sleep` at abfile.py:161-162 -/
  | wStat (again : Bool)
  /-- abfile.py:175 `self.get_mtime(fname)` in `is_changed`, after `isfile` -/
  | rStat (again : Bool)
  /-- abfile.py:193 `isfile` in `_read_info` -/
  | rFile
  /-- abfile.py:196 -/
  | rLock
  /-- abfile.py:197 `open(fname, 'r')` -/
  | rOpen
  /-- abfile.py:197 `.read()`, `q` has been read -/
  | rRead (q : Text)
  /-- read to the end when the file was at version `v`; the lock still held -/
  | rRel (q : Text) (v : Nat)
  /-- `FileNotFoundError` with the lock held -/
  | lockedErr
  /-- abfile.py:132 -/
  | dLock
  /-- abfile.py:133 -/
  | dUnlink
  /-- removed, the lock still held -/
  | dRel
deriving DecidableEq, Repr

/-- An instance: where it is, its cache entry (`some none` is a cached `None`) with the version it comes from, the
recorded modification time.  Versions, `low` and `start` are for the theorems only: `low` is the version of the last write
this process has completed, `start` is the last write anybody had completed when its present read began.
abfile.py:56-57 -/
structure Proc where
  pc : PC
  cache : Option (Option Text × Nat)
  fmtime : Option Nat
  low : Nat
  start : Nat
deriving DecidableEq, Repr

/-- What the processes share.  `hist` (texts for which a file was opened for writing; its length is the version),
`done` (version of the last write completed) and `crashed` are for the theorems only. The files of abfile.py:118-119. -/
structure Shared where
  file : Option (Text × Nat)
  lock : Option Nat
  now : Nat
  hist : List Text
  done : Nat
  crashed : Bool
deriving DecidableEq, Repr

/-- How an operation ends. abfile.py:97, 190, 204 -/
inductive Ret where
  /-- a read: the value, its version, and whether it was read from the file under the lock -/
  | value (t : Option Text) (v : Nat) (locked : Bool)
  | keyError
  | osError
  | done
deriving DecidableEq, Repr

/-- what a process can do: abfile.py:99 (`write`), 82 (`read`), 128 (`delete`) -/
inductive Act where
  | write (t : Text)
  | read
  | delete
  /-- the next step of the operation; writes and reads transfer at most `n + 1` characters at a time -/
  | go (n : Nat)
  | crash
deriving DecidableEq, Repr

/-- the result of a step, if it is possible (abfile.py:82-138) -/
abbrev Next := Option (Shared × Proc × Option Ret)

/-- the comparison in `is_changed`, abfile.py:177-187, and the return from the cache, abfile.py:97 -/
def compared (g : Shared) (p : Proc) (m : Nat) : Next :=
  match p.fmtime with
  | none => some (g, { p with fmtime := some m, pc := .rFile }, none)
  | some m0 =>
    if m > m0 then some (g, { p with fmtime := some m, pc := .rFile }, none)
    else
      match p.cache with
      | none => some (g, { p with pc := .idle }, some .keyError)
      | some (t, v) => some (g, { p with pc := .idle }, some (.value t v false))

/-- `with lock:` waits until the lock is free, abfile.py:120, 132, 196 -/
def locking (g : Shared) (me : Nat) (p : Proc) (pc : PC) : Next :=
  match g.lock with
  | none => some ({ g with lock := some me }, { p with pc := pc }, none)
  | some _ => none

/-- one chunk of `write` (or close, when all is written), abfile.py:121-122 -/
def writing (g : Shared) (p : Proc) (t q : Text) (n : Nat) : Next :=
  if q.length = t.length then some ({ g with done := g.hist.length }, { p with pc := .wRel t }, none)
  else
    some ({ g with file := some (t.take (q.length + n + 1), g.now) }, { p with pc := .wWrite t (t.take (q.length + n + 1)) },
      none)

/-- one chunk of `read`, abfile.py:197 -/
def reading (g : Shared) (p : Proc) (c q : Text) (n : Nat) : Next :=
  if q.length = c.length then some (g, { p with pc := .rRel q g.hist.length }, none)
  else some (g, { p with pc := .rRead (c.take (q.length + n + 1)) }, none)

/-- the next step of the operation under way, abfile.py:89-138, 156-204 -/
def cont (g : Shared) (me : Nat) (p : Proc) (n : Nat) : Next :=
  match p.pc with
  | .idle => none
  | .dead => none
  | .wLock t => locking g me p (.wOpen t)
  | .wOpen t => some ({ g with file := some ([], g.now), hist := g.hist ++ [t] }, { p with pc := .wWrite t [] }, none)
  | .wWrite t q => writing g p t q n
  | .wRel t => some ({ g with lock := none },
      { p with pc := .wStat false, cache := some (some t, g.hist.length), low := g.hist.length }, none)
  | .wStat again =>
    match g.file with
    | some (_, m) => some (g, { p with pc := .idle, fmtime := some m }, some .done)
    | none => if again then some (g, { p with pc := .idle }, some .osError) else some (g, { p with pc := .wStat true }, none)
  | .rStat again =>
    match g.file with
    | some (_, m) => compared g p m
    | none => if again then some (g, { p with pc := .idle }, some .osError) else some (g, { p with pc := .rStat true }, none)
  | .rFile =>
    match g.file with
    | some _ => some (g, { p with pc := .rLock }, none)
    | none => some (g, { p with pc := .idle, cache := some (none, g.hist.length) }, some (.value none g.hist.length false))
  | .rLock => locking g me p .rOpen
  | .rOpen =>
    match g.file with
    | some _ => some (g, { p with pc := .rRead [] }, none)
    | none => some (g, { p with pc := .lockedErr }, none)
  | .rRead q =>
    match g.file with
    | some (c, _) => reading g p c q n
    | none => none
  | .rRel q v => some ({ g with lock := none }, { p with pc := .idle, cache := some (some q, v) },
      some (.value (some q) v true))
  | .lockedErr => some ({ g with lock := none }, { p with pc := .idle }, some .osError)
  | .dLock => locking g me p .dUnlink
  | .dUnlink =>
    match g.file with
    | some _ => some ({ g with file := none }, { p with pc := .dRel }, none)
    | none => some (g, { p with pc := .lockedErr }, none)
  | .dRel => some ({ g with lock := none }, { p with pc := .idle, cache := none }, some .done)

/-- the first step of an operation, for an idle process: `__setitem__`; `isfile` in `__getitem__` (abfile.py:174) and in
`__delitem__` (abfile.py:130) -/
def begin_ (g : Shared) (p : Proc) : Act → Next
  | .write t => some (g, { p with pc := .wLock t }, none)
  | .read =>
    match g.file with
    | some _ => some (g, { p with pc := .rStat false, start := g.done }, none)
    | none => some (g, p, some .keyError)
  | .delete =>
    match g.file with
    | some _ => some (g, { p with pc := .dLock }, none)
    | none => some (g, { p with cache := none }, some .done)
  | _ => none

/-- death of a process at any point (the lock: `with lock:`, abfile.py:120, 132, 196) -/
def crash (g : Shared) (me : Nat) (p : Proc) : Next :=
  some ({ g with lock := if g.lock = some me then none else g.lock, crashed := true }, { p with pc := .dead }, none)

/-- one step of process `me`, abfile.py:82-138 -/
def act (g : Shared) (me : Nat) (p : Proc) : Act → Next
  | .go n => cont g me p n
  | .crash => crash g me p
  | a => if p.pc = .idle then begin_ g p a else none

/-- the shared files and the instances, abfile.py:56-57, 118-119 -/
structure Sys where
  g : Shared
  proc : Nat → Proc

/-- after `dt` units of time, process `who` does `act`, abfile.py:82-138 -/
structure Ev where
  who : Nat
  dt : Nat
  act : Act
deriving DecidableEq, Repr

/-- the time passes (modification times: abfile.py:157) -/
def later (g : Shared) (dt : Nat) : Shared := { g with now := g.now + dt }

/-- one step of the system; `none` if the process cannot do that, abfile.py:82-138 -/
def step (s : Sys) (e : Ev) : Option (Sys × Option Ret) :=
  match act (later s.g e.dt) e.who (s.proc e.who) e.act with
  | none => none
  | some (g, p, r) => some (⟨g, fun j => if j = e.who then p else s.proc j⟩, r)

/-- a schedule; events that are not possible are skipped, abfile.py:82-138 -/
def run (s : Sys) : List Ev → Sys
  | [] => s
  | e :: es =>
    match step s e with
    | none => run s es
    | some (s', _) => run s' es

/-- no file, nobody does anything, nothing cached, abfile.py:56-57 -/
def start : Sys := ⟨⟨none, none, 0, [], 0, false⟩, fun _ => ⟨.idle, none, none, 0, 0⟩⟩

end Verif.Conc
