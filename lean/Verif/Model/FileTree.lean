import Verif.Model.FileStore

/-!
# Deletion and writing in the whole file system: `src/oidcmsg/storage/abfile.py`, `__delitem__` and `__setitem__`

`Model/FileStore.lean` knows the storage directory only.  Here is the file system around it: directories and regular files
(no links, no limit on the length of a path, and the process may read and write everywhere), so that the keys that leave the directory have a meaning too.
-/

namespace Verif

/-- what a path leads to, abfile.py:130 -/
inductive Node where
  | dir
  | file (f : File)
deriving DecidableEq

/-- the file system: what is at a path, given by its names from the root on, abfile.py:129-133 -/
abbrev Tree := List String → Option Node

/-- change one place, abfile.py:131-133 -/
def Tree.set (t : Tree) (p : List String) (n : Option Node) : Tree := fun q => if q = p then n else t q

/-- the operating system follows the parts of a path from a place on, abfile.py:130-133 -/
def walk (t : Tree) : List String → List String → Option (List String)
  | cur, [] => some cur
  | cur, c :: cs =>
    if t cur = some .dir then
      if c = "" ∨ c = "." then walk t cur cs
      else if c = ".." then walk t cur.dropLast cs
      else if (t (cur ++ [c])).isSome then walk t (cur ++ [c]) cs
      else none
    else none

/-- where `os.path.join(fdir, key)` begins: a key with a slash in front replaces the directory, abfile.py:129 -/
def startOf (fdir : List String) (key : String) : List String := if key.toList.head? = some '/' then [] else fdir

/-- `open(.., 'w')`: the file has this content afterwards; an `OSError` if its directory is not there, its name is too long
or it is a directory, abfile.py:121, 131-132 -/
def openWrite (f : File) (t : Tree) (start comps : List String) : Res Tree :=
  match walk t start comps.dropLast with
  | none => .error .osError
  | some d =>
    if t d = some .dir ∧ isDirName (comps.getLastD "") = false ∧ (comps.getLastD "").utf8ByteSize ≤ 255 ∧
        t (d ++ [comps.getLastD ""]) ≠ some .dir then
      .ok (t.set (d ++ [comps.getLastD ""]) (some (.file f)))
    else .error .osError

/-- `__delitem__` on the file system, abfile.py:128-133 (what it does to the cache is `dropCache`) -/
def treeDel (now : Nat) (fdir : List String) (key : String) (t : Tree) : Res Unit × Tree :=
  match walk t (startOf fdir key) (pySplit '/' key) with
  | none => (.ok (), t)
  | some q =>
    match t q with
    | some (.file _) =>
      match openWrite ⟨"", now⟩ t (startOf fdir key) (pySplit '/' (key ++ ".lock")) with
      | .error e => (.error e, t)
      | .ok t' => (.ok (), t'.set q none)
    | _ => (.ok (), t)

/-- `os.makedirs`, from a place on: what is missing is made, abfile.py:71-72, 110-111 -/
def makeDirs (t : Tree) : List String → List String → Res Tree
  | _, [] => .ok t
  | cur, c :: cs =>
    match t (cur ++ [c]) with
    | some .dir => makeDirs t (cur ++ [c]) cs
    | some (.file _) => .error .osError
    | none => makeDirs (t.set (cur ++ [c]) (some .dir)) (cur ++ [c]) cs

/-- the value is written once the lock is there: the file is emptied before the value is serialised, abfile.py:121-123 -/
def treeWrite (conv : Conv) (now : Nat) (fdir : List String) (name : String) (v : Val) (t : Tree) : Res Unit × Tree :=
  match openWrite ⟨"", now⟩ t (startOf fdir name) (pySplit '/' name) with
  | .error e => (.error e, t)
  | .ok t' =>
    match conv.ser v with
    | .error e => (.error e, t')
    | .ok txt =>
      match openWrite ⟨txt, now⟩ t (startOf fdir name) (pySplit '/' name) with
      | .error e => (.error e, t')
      | .ok t'' => (.ok (), t'')

/-- `__setitem__` on the file system, abfile.py:110-123: the directory is made if it is not there, the key is converted,
and the path is joined as for a deletion -/
def treeSet (conv : Conv) (now : Nat) (fdir : List String) (key : String) (v : Val) (t : Tree) : Res Unit × Tree :=
  match makeDirs t [] fdir with
  | .error e => (.error e, t)
  | .ok t0 =>
    match openWrite ⟨"", now⟩ t0 (startOf fdir (quotePlus key)) (pySplit '/' (quotePlus key ++ ".lock")) with
    | .error e => (.error e, t0)
    | .ok t1 => treeWrite conv now fdir (quotePlus key) v t1

end Verif
