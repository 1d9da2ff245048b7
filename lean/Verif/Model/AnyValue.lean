import Verif.Model.Message

/-!
# Values of any type: `SINGLE_OPTIONAL_ANY`, `any_ser`, `any_deser` (message.py:995-1017)

No class of the library uses this specification; it is exported for the classes of others.
-/

namespace Verif

/-- `Message._add_value`, message.py:322-441, where the type is `any` (1017), a function: `isinstance(val, any)` (400) is a
`TypeError` -/
def addAny (st : Dict) (k : String) (val : Val) : Res Dict :=
  match val with
  | .list [] => .ok st
  | .list (.none :: _) => .ok st
  | .none => .ok (dset st k .none)
  | .bool _ => .error .valueError
  | _ => .error .typeError

/-- one item of `from_dict`, message.py:284-319, for such a parameter -/
def addAnyItem (st : Dict) (k : String) (val : Val) : Res Dict :=
  if isBlank val then .ok st else addAny st k val

/-- `msg_ser` of a message at level 0, message.py:916-939 -/
def msgSerMsg (env : SerEnv) (c : Cls) (d : Dict) (f : Fmt) : Res Val :=
  match f with
  | .urlencoded => (urlFinish env c (env.params c) d (urlPairsAll env false (env.params c) d)).map .str
  | .json => (toJson env c d).map .str
  | .dict => (toDict env c d).map .dict

/-- `any_ser(val, sformat)`, message.py:995-1005.  A list is written in the format of `msg_list_ser`, whatever `sformat` is. -/
def anySer (env : SerEnv) (v : Val) (f : Fmt) : Res Val :=
  match v with
  | .str s => .ok (.str s)
  | .int i => .ok (.int i)
  | .bool b => .ok (.bool b)
  | .msg c d => msgSerMsg env c d f
  | .dict d => (dumps (.dict d)).map .str
  | .list l => (msgUrlEach env l).map .list
  | _ => .error .valueError

/-- `any_deser(val, sformat)`, message.py:1008-1014 -/
def anyDeser (v : Val) (f : Fmt) : Res Val :=
  match v with
  | .dict d => ctor messageSchema d
  | .list l => (mapDeser msgDeser f l).map .list
  | _ => .error .valueError

end Verif
