import Verif.Py.Url
import Verif.Py.Json

/-!
# `src/oidcmsg/storage/abfile.py`: `AbstractFileSystem`, operations as complete steps

The directory `fdir` holds regular files only.  Each file has a content and a modification time.  `now` is the
time stamp the operating system gives to files changed by the operation.  `FileLock` (filelock, Unix) opens the lock
file with `O_TRUNC`, creating it if needed, and does not remove it on release.  The keys are converted with `QPKey`
(the default).  Interleavings within an operation are in `Model/Concurrent.lean`.
-/

namespace Verif

/-- a file: content and modification time, abfile.py:157, 197 -/
structure File where
  content : String
  mtime : Nat
deriving DecidableEq, Repr

/-- the directory `self.fdir`, abfile.py:47-54 -/
abbrev Dir := Assoc File

/-- The state of an instance: `self.storage` and `self.fmtime` (abfile.py:55-56), by file name. -/
structure Inst where
  cache : Assoc Val
  fmtime : Assoc Nat
deriving DecidableEq, Repr

/-- The result of an operation, with the instance and the directory afterwards. abfile.py:76-291 -/
structure Out (α : Type) where
  res : Res α
  inst : Inst
  dir : Dir

/-- A value converter: `value_conv.serialize` followed by `fp.write` (a `TypeError` unless the result is a text), and
`deserialize`. abfile.py:65-69, 122, 198 -/
structure Conv where
  ser : Val → Res String
  deser : String → Res Val

/-- `PassThru`, converter.py:22-27 -/
def passThru : Conv where
  ser
    | .str s => .ok s
    | _ => .error .typeError
  deser s := .ok (.str s)

/-- `JSON`, converter.py:14-19 -/
def jsonConv : Conv where
  ser := dumps
  deser := loads

/-- `'{}.lock'.format(fname)`, abfile.py:119, 131, 195 -/
def lockName (n : String) : String := n ++ ".lock"

/-- `fname.endswith('.lock')`, abfile.py:219 -/
def isLock (n : String) : Bool := (".lock".toList).isSuffixOf n.toList

/-- the names of a directory entry that is not a file (`isfile`, abfile.py:130, 174, 193) -/
def isDirName (n : String) : Bool := n == "" || n == "." || n == ".."

/-- `with FileLock(..)`: the lock file is there afterwards, empty.  A name over 255 bytes is an `OSError`.
abfile.py:120, 132, 196 -/
def acquire (now : Nat) (dir : Dir) (n : String) : Res Dir :=
  if (lockName n).utf8ByteSize ≤ 255 then .ok (dset dir (lockName n) ⟨"", now⟩) else .error .osError

/-- `AbstractFileSystem.__setitem__`, abfile.py:99-126.  `open(fname, 'w')` empties the file before the value is
serialised; for the directory itself it is an `OSError`. -/
def fsSet (conv : Conv) (now : Nat) (k : String) (v : Val) (i : Inst) (dir : Dir) : Out Unit :=
  match acquire now dir (quotePlus k) with
  | .error e => ⟨.error e, i, dir⟩
  | .ok dir1 =>
    if isDirName (quotePlus k) then ⟨.error .osError, i, dir1⟩
    else
      match conv.ser v with
      | .error e => ⟨.error e, i, dset dir1 (quotePlus k) ⟨"", now⟩⟩
      | .ok txt =>
        ⟨.ok (), ⟨dset i.cache (quotePlus k) v, dset i.fmtime (quotePlus k) now⟩,
          dset dir1 (quotePlus k) ⟨txt, now⟩⟩

/-- universal newlines of a text file opened with `'r'`; `cr` tells whether the last character was a carriage
return, abfile.py:197 -/
def univNewlines (cr : Bool) : List Char → List Char
  | [] => []
  | c :: rest =>
    if c = '\r' then '\n' :: univNewlines true rest
    else if c = '\n' && cr then univNewlines false rest
    else c :: univNewlines false rest

/-- `open(fname, 'r').read().strip()`, abfile.py:197 -/
def readText (s : String) : String := String.ofList (stripC (univNewlines false s.toList))

/-- `is_changed`, abfile.py:166-190: the answer and `fmtime` afterwards -/
def isChanged (i : Inst) (dir : Dir) (n : String) : Res Bool × Inst :=
  match dget dir n with
  | none => (.error .keyError, i)
  | some f =>
    match dget i.fmtime n with
    | none => (.ok true, { i with fmtime := dset i.fmtime n f.mtime })
    | some t =>
      if f.mtime > t then (.ok true, { i with fmtime := dset i.fmtime n f.mtime }) else (.ok false, i)

/-- `_read_info`, abfile.py:192-204, for an existing file: the value and the directory afterwards -/
def readInfo (conv : Conv) (now : Nat) (dir : Dir) (n : String) : Res Val × Dir :=
  match dget dir n with
  | none => (.ok .none, dir)
  | some f =>
    match acquire now dir n with
    | .error e => (.error e, dir)
    | .ok dir' => (conv.deser (readText f.content), dir')

/-- abfile.py:92-97: the value from the cache -/
def fromCache (i : Inst) (n : String) : Res Val :=
  match dget i.cache n with
  | some v => .ok v
  | none => .error .keyError

/-- read the file and remember it, abfile.py:93-95 and 222-223 -/
def refresh (conv : Conv) (now : Nat) (n : String) (i : Inst) (dir : Dir) : Out Unit :=
  match readInfo conv now dir n with
  | (.error e, dir') => ⟨.error e, i, dir'⟩
  | (.ok v, dir') => ⟨.ok (), { i with cache := dset i.cache n v }, dir'⟩

/-- refresh if changed, abfile.py:92-95 and 221-223 -/
def refreshChanged (conv : Conv) (now : Nat) (n : String) (i : Inst) (dir : Dir) : Out Unit :=
  match isChanged i dir n with
  | (.error e, i') => ⟨.error e, i', dir⟩
  | (.ok false, i') => ⟨.ok (), i', dir⟩
  | (.ok true, i') => refresh conv now n i' dir

/-- `__getitem__`, abfile.py:82-97 -/
def fsGet (conv : Conv) (now : Nat) (k : String) (i : Inst) (dir : Dir) : Out Val :=
  match refreshChanged conv now (quotePlus k) i dir with
  | ⟨.error e, i', dir'⟩ => ⟨.error e, i', dir'⟩
  | ⟨.ok (), i', dir'⟩ => ⟨fromCache i' (quotePlus k), i', dir'⟩

/-- `get`, abfile.py:76-80, with default `None` -/
def fsGetD (conv : Conv) (now : Nat) (k : String) (i : Inst) (dir : Dir) : Out Val :=
  match fsGet conv now k i dir with
  | ⟨.error .keyError, i', dir'⟩ => ⟨.ok .none, i', dir'⟩
  | o => o

/-- `__contains__`, abfile.py:264-265 -/
def fsContains (k : String) (i : Inst) : Bool := dhas i.cache (quotePlus k)

/-- `__call__`, abfile.py:270-271: the keys of the cache -/
def fsCall (i : Inst) : List String := (dkeys i.cache).map unquotePlus

/-- a file seen for the first time, abfile.py:225-232: unreadable content is skipped with a warning -/
def firstSeen (conv : Conv) (now : Nat) (n : String) (f : File) (i : Inst) (dir : Dir) : Out Unit :=
  match readInfo conv now dir n with
  | (.error _, dir') => ⟨.ok (), i, dir'⟩
  | (.ok v, dir') => ⟨.ok (), ⟨dset i.cache n v, dset i.fmtime n f.mtime⟩, dir'⟩

/-- one round of the loop in `synch`, abfile.py:213-232 -/
def synchOne (conv : Conv) (now : Nat) (n : String) (i : Inst) (dir : Dir) : Out Unit :=
  match dget dir n with
  | none => ⟨.ok (), i, dir⟩
  | some f =>
    if isLock n then ⟨.ok (), i, dir⟩
    else if dhas i.fmtime n then refreshChanged conv now n i dir
    else firstSeen conv now n f i dir

/-- the loop, abfile.py:214-232 -/
def synchAll (conv : Conv) (now : Nat) : List String → Inst → Dir → Out Unit
  | [], i, dir => ⟨.ok (), i, dir⟩
  | n :: ns, i, dir =>
    match synchOne conv now n i dir with
    | ⟨.error e, i', dir'⟩ => ⟨.error e, i', dir'⟩
    | ⟨.ok (), i', dir'⟩ => synchAll conv now ns i' dir'

/-- `synch`, abfile.py:206-232.  `listdir` is the list of names before the loop, in any order; this model takes the
order of the directory. -/
def synch (conv : Conv) (now : Nat) (i : Inst) (dir : Dir) : Out Unit := synchAll conv now (dkeys dir) i dir

/-- A new instance, abfile.py:26-74: empty cache, then `synch`. -/
def fsOpen (conv : Conv) (now : Nat) (dir : Dir) : Out Unit := synch conv now ⟨[], []⟩ dir

/-- `keys`, abfile.py:140-147 -/
def fsKeys (conv : Conv) (now : Nat) (i : Inst) (dir : Dir) : Out (List String) :=
  match synch conv now i dir with
  | ⟨.error e, i', dir'⟩ => ⟨.error e, i', dir'⟩
  | ⟨.ok (), i', dir'⟩ => ⟨.ok ((dkeys i'.cache).map unquotePlus), i', dir'⟩

/-- `items`, abfile.py:234-240 -/
def fsItems (conv : Conv) (now : Nat) (i : Inst) (dir : Dir) : Out (List (String × Val)) :=
  match synch conv now i dir with
  | ⟨.error e, i', dir'⟩ => ⟨.error e, i', dir'⟩
  | ⟨.ok (), i', dir'⟩ => ⟨.ok (i'.cache.map (fun p => (unquotePlus p.1, p.2))), i', dir'⟩

/-- `__len__`, abfile.py:273-288 -/
def fsLen (dir : Dir) : Nat := ((dkeys dir).filter (fun n => !isLock n)).length

/-- What `os.path.join(fdir, key)` denotes for a key that is *not* converted. abfile.py:129 -/
inductive Target where
  /-- a file of the directory -/
  | inside (n : String)
  /-- not a file: the directory itself or a path with a trailing slash -/
  | notFile
  /-- a path that leaves the directory (or is absolute) -/
  | outside (path : String)
deriving DecidableEq, Repr

/-- The components before the last one: an empty one and `.` stay in the directory, `..` leaves it, and any other is
not a directory since there are no subdirectories. abfile.py:129 -/
def resolveComps (key : String) : List String → Target
  | [] => .notFile
  | [c] => if isDirName c then .notFile else .inside c
  | c :: cs =>
    if c == "" || c == "." then resolveComps key cs else if c == ".." then .outside key else .notFile

/-- `os.path.join(fdir, key)`, abfile.py:129.  (A path that leaves the directory and comes back is counted as
outside.) -/
def resolveRaw (key : String) : Target :=
  if key.toList.head? = some '/' then .outside key else resolveComps key (pySplit '/' key)

/-- `del self.storage[key]`, ignoring a `KeyError`, abfile.py:135-138 -/
def dropCache (key : String) (i : Inst) : Inst := { i with cache := ddel i.cache key }

/-- `__delitem__`, abfile.py:128-138: the key is *not* converted.  What happens to a file outside the
directory is in Model/FileTree.lean (here `unmodelled`). -/
def fsDel (now : Nat) (key : String) (i : Inst) (dir : Dir) : Out Unit :=
  match resolveRaw key with
  | .outside _ => ⟨.error .unmodelled, i, dir⟩
  | .notFile => ⟨.ok (), dropCache key i, dir⟩
  | .inside n =>
    if dhas dir n then
      match acquire now dir n with
      | .error e => ⟨.error e, i, dir⟩
      | .ok dir' => ⟨.ok (), dropCache key i, ddel dir' n⟩
    else ⟨.ok (), dropCache key i, dir⟩

/-- `for f in ..: del self[f]`, abfile.py:251-252 -/
def delEach (now : Nat) : List String → Inst → Dir → Out Unit
  | [], i, dir => ⟨.ok (), i, dir⟩
  | n :: ns, i, dir =>
    match fsDel now n i dir with
    | ⟨.error e, i', dir'⟩ => ⟨.error e, i', dir'⟩
    | ⟨.ok (), i', dir'⟩ => delEach now ns i' dir'

/-- `clear`, abfile.py:242-252 -/
def fsClear (now : Nat) (i : Inst) (dir : Dir) : Out Unit := delEach now (dkeys dir) i dir

/-- `update`, abfile.py:254-262 -/
def fsUpdate (conv : Conv) (now : Nat) : List (String × Val) → Inst → Dir → Out Unit
  | [], i, dir => ⟨.ok (), i, dir⟩
  | (k, v) :: rest, i, dir =>
    match fsSet conv now k v i dir with
    | ⟨.error e, i', dir'⟩ => ⟨.error e, i', dir'⟩
    | ⟨.ok (), i', dir'⟩ => fsUpdate conv now rest i' dir'

end Verif
