import Verif.Model.Message

/-!
# Deserialisers of `src/oidcmsg/oidc/__init__.py`
-/

namespace Verif

/-- The loop `for _format in flist: try .. except FormatError: pass`, oidc/__init__.py:75-80 -/
def tryFormats (sch : Schema) (val : Val) : List Fmt → Res Val
  | [] => .error .formatError
  | f :: fs =>
    match deserializeMsg sch val f with
    | .ok m => .ok m
    | .error .formatError => tryFormats sch val fs
    | .error e => .error e

/-- `val = json.dumps(val)` unless it is a string, oidc/__init__.py:70-71 -/
def textOf (val : Val) : Res Val := if val.isStr then .ok val else dumpsVal val

/-- `deserialize_from_one_of`, oidc/__init__.py:67-80 -/
def deserializeFromOneOf (sch : Schema) (val : Val) (f : Fmt) : Res Val :=
  match f with
  | .urlencoded => tryFormats sch val [.urlencoded, .json]
  | _ =>
    match textOf val with
    | .ok v => tryFormats sch v [.json, .urlencoded]
    | .error e => .error e

/-- `dict_deser`, oidc/__init__.py:189-200: the JSON *text*. -/
def dictDeser (val : Val) (_ : Fmt) : Res Val := textOf val

/-- `claims_request_deser`, oidc/__init__.py:173-186, and `place_of_birth_deser` (which no class uses),
identity_assurance.py:31-44, for a given class -/
def jsonMsgDeser (sch : Schema) (val : Val) (f : Fmt) : Res Val :=
  match f with
  | .dict =>
    match val with
    | .str s =>
      match loads s with
      | .ok v => deserializeMsg sch v .dict
      | .error e => .error e
    | v => deserializeMsg sch v .dict
  | _ =>
    match textOf val with
    | .ok v => deserializeMsg sch v .json
    | .error e => .error e

/-- `_l_deser`, oidc/__init__.py:1058-1065 -/
def lDeser (link : Schema) (val : Val) (f : Fmt) : Res Val :=
  match val with
  | .msg c d => if c = link.cls then .ok (.msg c d) else .error .typeError
  | v =>
    match f with
    | .urlencoded => deserializeMsg link v .urlencoded
    | f =>
      match v with
      | .str s => deserializeMsg link (.str s) f
      | v =>
        match dumpsVal v with
        | .ok t => deserializeMsg link t .json
        | .error e => .error e

/-- `link_deser`, oidc/__init__.py:1068-1072 -/
def linkDeser (link : Schema) (val : Val) (f : Fmt) : Res Val :=
  match val with
  | .list l => (mapDeser (lDeser link) f l).map .list
  | v => lDeser link v f

/-- `evidence_list_deser`, identity_assurance.py:264-269 -/
def evidenceListDeser (evidence : Schema) (val : Val) (f : Fmt) : Res Val :=
  match val with
  | .dict d => (ctor messageSchema d).map (fun m => .list [m])
  | v =>
    match v.iter with
    | .ok l => (mapDeser (deserializeFromOneOf evidence) f l).map .list
    | .error e => .error e

/-- A message class as a type; `subs` are its proper subclasses. message.py:349-351, 371, 400 -/
def tyOf (sch : Schema) (subs : List Cls := []) : Ty :=
  .msg sch.cls (fun c => c == sch.cls || subs.contains c) (ctor sch)

end Verif
