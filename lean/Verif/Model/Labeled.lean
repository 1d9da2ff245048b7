import Verif.Model.FileStore
import Verif.Model.Config

/-!
# Labelled storage: `src/oidcmsg/storage/extension.py`, and `LabeledAbstractFileSystem` in `storage/abfile.py`

Keys and labels are texts (`"{}{}".format(..)` converts anything else).
-/

namespace Verif

/-- `'__{}__'.format(label)` unless the label is empty, extension.py:27-32 and abfile.py:299-303 -/
def labelOf (label : String) : String := if label = "" then "" else "__" ++ label ++ "__"

/-- `k[len(self.label):]`, extension.py:65, 68 -/
def dropLabel (lab k : String) : String := String.ofList (k.toList.drop lab.toList.length)

/-- A `LabeledDict`: `self.label` and `self.storage`, extension.py:24-32. -/
structure LDict where
  label : String
  storage : Assoc Val
deriving DecidableEq

/-- `LabeledDict(label)`, extension.py:24-32 -/
def ldNew (label : String) : LDict := ⟨labelOf label, []⟩

/-- `get`, extension.py:34-36 with 1-6 and 13-17.  A default has to be a positional argument. -/
def ldGet (k : String) (dflt : Val) (d : LDict) : Val := (dget d.storage (d.label ++ k)).getD dflt

/-- `__getitem__`, extension.py:42-44: `None` for an absent key -/
def ldItem (k : String) (d : LDict) : Val := ldGet k .none d

/-- `__setitem__` and `set`, extension.py:46-52 -/
def ldSet (k : String) (v : Val) (d : LDict) : LDict := { d with storage := dset d.storage (d.label ++ k) v }

/-- `__delitem__`, extension.py:54-56 -/
def ldDel (k : String) (d : LDict) : Res Unit × LDict :=
  if dhas d.storage (d.label ++ k) then (.ok (), { d with storage := ddel d.storage (d.label ++ k) })
  else (.error .keyError, d)

/-- `__contains__`, extension.py:58-60 -/
def ldHas (k : String) (d : LDict) : Bool := dhas d.storage (d.label ++ k)

/-- `keys`, extension.py:67-68 -/
def ldKeys (d : LDict) : List String := ((dkeys d.storage).filter (startsWith d.label)).map (dropLabel d.label)

/-- `dict.update(text)`: the elements of the text are pairs only if they have two characters, and they have one.
extension.py:40 -/
def dictUpdateText (s : String) (d : Assoc Val) : Res Unit × Assoc Val :=
  if s = "" then (.ok (), d) else (.error .valueError, d)

/-- `update`, extension.py:38-40: the label is put before the *text* of the argument; `shown` is `str(ava)`. -/
def ldUpdate (shown : String) (d : LDict) : Res Unit × LDict :=
  ((dictUpdateText (d.label ++ shown) d.storage).1,
    { d with storage := (dictUpdateText (d.label ++ shown) d.storage).2 })

/-- `for key, val in self.storage.__iter__()`, extension.py:62-65: the keys of the dictionary are unpacked.  What is
yielded, and the exception. -/
def ldIterLoop (lab : String) : List String → List (String × String) × Option Exc
  | [] => ([], none)
  | s :: rest =>
    match s.toList with
    | [a, b] =>
      if startsWith lab (String.ofList [a]) then
        ((dropLabel lab (String.ofList [a]), String.ofList [b]) :: (ldIterLoop lab rest).1, (ldIterLoop lab rest).2)
      else ldIterLoop lab rest
    | _ => ([], some .valueError)

/-- `__iter__`, extension.py:62-65 -/
def ldIter (d : LDict) : List (String × String) × Option Exc := ldIterLoop d.label (dkeys d.storage)

/-! ## `LabeledAbstractFileSystem`, abfile.py:292-357

`lab` is `self.label`, the instance and the directory are those of `self.storage`. -/

/-- `keys`, abfile.py:334-335 -/
def labKeys (conv : Conv) (lab : String) (now : Nat) (i : Inst) (dir : Dir) : Out (List String) :=
  match fsKeys conv now i dir with
  | ⟨.error e, i', dir'⟩ => ⟨.error e, i', dir'⟩
  | ⟨.ok ks, i', dir'⟩ => ⟨.ok ((ks.filter (startsWith lab)).map (dropLabel lab)), i', dir'⟩

/-- `__iter__` and `items`, abfile.py:329-332 and 337-340 -/
def labItems (conv : Conv) (lab : String) (now : Nat) (i : Inst) (dir : Dir) : Out (List (String × Val)) :=
  match fsItems conv now i dir with
  | ⟨.error e, i', dir'⟩ => ⟨.error e, i', dir'⟩
  | ⟨.ok ps, i', dir'⟩ =>
    ⟨.ok ((ps.filter (fun p => startsWith lab p.1)).map (fun p => (dropLabel lab p.1, p.2))), i', dir'⟩

/-- `__len__`, abfile.py:342-357 -/
def labLen (lab : String) (dir : Dir) : Nat :=
  ((dkeys dir).filter (fun n => startsWith lab n && !isLock n)).length

/-- `get` and `__getitem__`, abfile.py:305-307 and 313-315 -/
def labGet (conv : Conv) (lab : String) (now : Nat) (k : String) (i : Inst) (dir : Dir) : Out Val :=
  fsGetD conv now (lab ++ k) i dir

/-- `__setitem__`, abfile.py:317-319 -/
def labSet (conv : Conv) (lab : String) (now : Nat) (k : String) (v : Val) (i : Inst) (dir : Dir) : Out Unit :=
  fsSet conv now (lab ++ k) v i dir

/-- `__delitem__`, abfile.py:321-323 -/
def labDel (lab : String) (now : Nat) (k : String) (i : Inst) (dir : Dir) : Out Unit := fsDel now (lab ++ k) i dir

/-- `__contains__`, abfile.py:325-327 -/
def labContains (lab : String) (k : String) (i : Inst) : Bool := fsContains (lab ++ k) i

/-- `update`, abfile.py:309-311: the label is put before the text of the argument, and a text has no `items`. -/
def labUpdate (_shown : String) (i : Inst) (dir : Dir) : Out Unit := ⟨.error .attributeError, i, dir⟩

end Verif
