import Verif.Py.Repr
import Verif.Model.IsoTime

/-!
# `src/oidcmsg/message.py`: the message core

The instance state is the dict `_dict` (insertion ordered, `Verif.Dict`).  The attributes `lax`
(set by nobody in the library), `jwt`, `jws_header`, `jwe_header` are separate arguments or results
of the functions that use them.
-/

namespace Verif

/-- Serialisation formats handed to serialisers and deserialisers as `sformat`. message.py:148-175 -/
inductive Fmt where
  | urlencoded | json | dict
deriving DecidableEq, Repr

/-- The Python types used as value types in parameter specifications.  `msg c sub ctor`: the
message class `c`; `sub c'` tells whether `c'` is `c` or a subclass; `ctor d` is the call `c(**d)`.
message.py:33, 965-1019 -/
inductive Ty where
  | str | int | bool | dict
  | msg (c : Cls) (sub : Cls → Bool) (ctor : Dict → Res Val)

/-- `vtyp`: a type, or a one-element list `[type]`.  (message.py:339 also unpacks tuples; no
specification in the library uses one.) -/
inductive VTyp where
  | single (t : Ty)
  | list (t : Ty)

/-- The serialisers occurring in specifications.  message.py: `list_serializer` 863,
`sp_sep_list_serializer` 882, `json_serializer` 898 (= oidc `json_ser` 83), `msg_ser` 916,
`msg_list_ser` 952 (= oidc 135); oidc: `msg_ser_json` 111, `claims_ser` 139, `link_list_ser` 1101;
identity_assurance: `time_stamp_ser` 101, `date_ser` 126. -/
inductive Ser where
  | list | spSep | json | msg | msgList | msgJson | claims | linkList | timeStamp
deriving DecidableEq, Repr

/-- A parameter specification `(vtype, required, serializer, deserializer, null allowed)`,
message.py:959-963. -/
structure Spec where
  vtyp : VTyp
  required : Bool
  ser : Option Ser
  deser : Option (Val → Fmt → Res Val)
  nullAllowed : Bool

/-- A message class: `c_param`, `c_default`, `c_allowed_values` (message.py:33-35). -/
structure Schema where
  cls : Cls
  params : Assoc Spec
  default : Dict := []
  allowed : Assoc (List Val) := []

/-- `isinstance(v, t)` (`bool` is a subclass of `int`; `Message` is not a `dict`). message.py:350, 377, 400 -/
def Ty.isInst : Ty → Val → Bool
  | .str, .str _ => true
  | .int, .int _ => true
  | .int, .bool _ => true
  | .bool, .bool _ => true
  | .dict, .dict _ => true
  | .msg _ sub _, .msg c' _ => sub c'
  | _, _ => false

/-- `key.split("#")[0]`, message.py:101, 296 -/
def langBase (k : String) : String := String.ofList (splitFirst '#' k.toList).1

/-- The lookup used by `from_dict` (message.py:291-317), `to_dict` (248-258), `to_urlencoded`
(97-108) and `from_urlencoded` (202-216): the name itself, the name without language tag, then
`*`.  The flag is true when only `*` matched.  (`"..".split("#")` never raises, so the
`except ValueError` branch at 297-305 is dead.) -/
def lookupSpec (ps : Assoc Spec) (k : String) : Option (Bool × Spec) :=
  match dget ps k with
  | some s => some (false, s)
  | none =>
    match dget ps (langBase k) with
    | some s => some (false, s)
    | none =>
      match dget ps "*" with
      | some s => some (true, s)
      | none => none

/-- `except Exception as exc: raise DecodeError(..)`, message.py:356-357, 364-365, 373-374, 385-386, 406-407 -/
def orDecodeError (r : Res α) : Res α :=
  match r with
  | .ok a => .ok a
  | .error .unmodelled => .error .unmodelled
  | .error _ => .error .decodeError

/-- `v.items()` as a dict of keyword arguments; `AttributeError` for anything without `items`. message.py:371 -/
def Val.itemsOf : Val → Res Dict
  | .dict d | .msg _ d => .ok d
  | _ => .error .attributeError

/-- `[vtype(**v.items()) for v in vals]`, message.py:369-371 -/
def buildEach (ctor : Dict → Res Val) : List Val → Res (List Val)
  | [] => .ok []
  | v :: vs => do
    let d ← v.itemsOf
    let m ← ctor d
    let ms ← buildEach ctor vs
    .ok (m :: ms)

/-- message.py:361-365 -/
def deserList (deser : Option (Val → Fmt → Res Val)) (l : List Val) : Res Val :=
  match deser with
  | some f => orDecodeError (f (.list l) .dict)
  | none => .ok (.list l)

/-- message.py:367-379: check or rebuild the items.  `for v in val` (376) is outside any `try`: a
non-iterable result of the deserialiser is a `TypeError`. -/
def checkItems (t : Ty) (val : Val) : Res Val :=
  match t with
  | .msg _ _ ctor => orDecodeError (do
      let vs ← val.iter
      let ms ← buildEach ctor vs
      .ok (.list ms))
  | t => do
    let vs ← val.iter
    if vs.all (fun v => t.isInst v) then .ok val else .error .decodeError

/-- message.py:360-381, the branch for a list value of a list-typed parameter. -/
def addListOfList (t : Ty) (deser : Option (Val → Fmt → Res Val)) (l : List Val) : Res Val := do
  let val ← deserList deser l
  checkItems t val

/-- message.py:335-337: a list value that is silently ignored. -/
def ignoredList (sp : Spec) : Val → Bool
  | .list [] => !sp.nullAllowed
  | .list (v :: _) => v.isNone && !sp.nullAllowed
  | _ => false

/-- message.py:342-390, the branch for list-typed parameters.  `setattr(self, skey, [val])` (359)
leaves `_dict` unchanged. -/
def addToList (t : Ty) (sp : Spec) (st : Dict) (k : String) (val : Val) : Res Dict :=
  if val.isNone then
    if sp.nullAllowed then .ok (dset st k val) else .error .valueError
  else if t.isInst val then
    match t with
    | .msg _ _ _ => .ok (dset st k (.list [val]))
    | _ =>
      match sp.deser with
      | some f =>
        match orDecodeError (f val .urlencoded) with
        | .ok v => .ok (dset st k v)
        | .error e => .error e
      | none => .ok st
  else
    match val with
    | .list l =>
      match addListOfList t sp.deser l with
      | .ok v => .ok (dset st k v)
      | .error e => .error e
    | .dict d =>
      match sp.deser with
      | some f =>
        match orDecodeError (f (.dict d) .dict) with
        | .ok v => .ok (dset st k v)
        | .error e => .error e
      | none => .error .decodeError
    | _ => .error .decodeError

/-- message.py:420-441, a single value that is not an instance of the type and has no
deserialiser. -/
def coerceSingle (t : Ty) (val : Val) : Res Val :=
  match t with
  | .int =>
    match pyInt val with
    | some i => .ok (.int i)
    | none => .error .valueError
  | .msg c _ _ =>
    -- `vtyp == Message` (431): the base class itself
    if c = ⟨"message", "Message"⟩ then
      match val with
      | .dict d => .ok (.dict d)
      | .str s => .ok (.str s)
      | _ => .error .valueError
    else .error .valueError
  | _ => .error .valueError

/-- message.py:391-441, the branch for single-valued parameters: the value stored. -/
def singleValue (t : Ty) (sp : Spec) (val : Val) : Res Val :=
  match val with
  | .none => .ok .none
  | .bool b =>
    match t with
    | .bool => .ok (.bool b)
    | _ => .error .valueError
  | val =>
    if t.isInst val then .ok val
    else
      match sp.deser with
      | some f => orDecodeError (f val .dict)
      | none => coerceSingle t val

/-- `Message._add_value`, message.py:322-441.  Returns the new `_dict`.  The key and `skey` are the
same string.  (The value is formatted into the text of a `ValueError`; for a message that cannot be written as a dict Python
raises that exception instead.) -/
def addValue (sp : Spec) (st : Dict) (k : String) (val : Val) : Res Dict :=
  if ignoredList sp val then .ok st
  else
    match sp.vtyp with
    | .list t => addToList t sp st k val
    | .single t =>
      match singleValue t sp val with
      | .ok v => .ok (dset st k v)
      | .error e => .error e

/-- `val in ["", [""]]`, message.py:287 -/
def isBlank : Val → Bool
  | .str s => s == ""
  | .list [.str s] => s == ""
  | _ => false

/-- One iteration of the loop in `from_dict`, message.py:284-319. -/
def addItem (sch : Schema) (st : Dict) (k : String) (val : Val) : Res Dict :=
  if isBlank val then .ok st
  else
    match lookupSpec sch.params k with
    | none => .ok (dset st k val)
    | some (star, sp) =>
      if star && val.isNone then .ok (dset st k val)
      else addValue sp st k val

/-- `Message.from_dict`, message.py:273-320: the instance state afterwards, and the exception if one
was raised (the items before the failing one have been stored). -/
def fromDict (sch : Schema) : Dict → List (String × Val) → Dict × Option Exc
  | st, [] => (st, none)
  | st, (k, v) :: rest =>
    match addItem sch st k v with
    | .error e => (st, some e)
    | .ok st' => fromDict sch st' rest

/-- `from_dict` as a result. message.py:284-320 -/
def fromDictR (sch : Schema) (st : Dict) (d : List (String × Val)) : Res Dict :=
  match fromDict sch st d with
  | (st', none) => .ok st'
  | (_, some e) => .error e

/-- message.py:38-41, the initial `_dict` -/
def initialDict (sch : Schema) (d : List (String × Val)) : Dict :=
  match dget d "set_defaults" with
  | some v => if v.truthy then sch.default else []
  | none => sch.default

/-- `c(**d)`, message.py:37-47: a `set_defaults` item is taken as the parameter of that name, a
`self` item is a `TypeError`.  `c_default.copy()` is a shallow copy (aliasing: see `Model/Heap`). -/
def construct (sch : Schema) (d : List (String × Val)) : Res Dict :=
  if dhas d "self" then .error .typeError
  else fromDictR sch (initialDict sch d) (ddel d "set_defaults")

/-- `c(**d)` as a value. message.py:37-47 -/
def ctor (sch : Schema) (d : Dict) : Res Val := (construct sch d).map (.msg sch.cls)

/-- `Message.__setitem__`, message.py:701-706: no blank test, no language tag or `*` lookup.
(`_add_value` never raises `KeyError`.) -/
def setItem (sch : Schema) (st : Dict) (k : String) (v : Val) : Res Dict :=
  match dget sch.params k with
  | some sp => addValue sp st k v
  | none => .ok (dset st k v)

/-! ## verify -/

/-- `Message._type_check`, message.py:570-586 -/
def typeCheck (t : VTyp) (allowed : List Val) (val : Val) (na : Bool) : Bool :=
  match t with
  | .single .str => Val.memList val allowed
  | .single .int => Val.memList val allowed
  | .list _ =>
    match val with
    | .list l => l.all (fun v => Val.memList v allowed)
    | _ => true
  | _ => !(val.isNone && !na)

/-- `typ == bool`, message.py:610 -/
def VTyp.isBool : VTyp → Bool
  | .single .bool => true
  | _ => false

/-- One iteration of the loop in `verify`, message.py:599-623. -/
def verifyParam (allowed : Assoc (List Val)) (st : Dict) (attr : String) (sp : Spec) : Res Unit :=
  if attr = "*" then .ok ()
  else
    match dget st attr with
    | none => if sp.required then .error .missingRequiredAttribute else .ok ()
    | some val =>
      if !sp.vtyp.isBool && !val.truthy then
        if sp.required then .error .missingRequiredAttribute else .ok ()
      else
        match dget allowed attr with
        | none => .ok ()
        | some av => if typeCheck sp.vtyp av val sp.nullAllowed then .ok () else .error .notAllowedValue

/-- the loop in `verify`, message.py:599-623 -/
def verifyParams (allowed : Assoc (List Val)) (st : Dict) : List (String × Spec) → Res Unit
  | [] => .ok ()
  | (a, sp) :: rest =>
    match verifyParam allowed st a sp with
    | .error e => .error e
    | .ok () => verifyParams allowed st rest

/-- `Message.verify`, message.py:588-625 (returns `True` or raises). -/
def verifyBase (sch : Schema) (st : Dict) : Res Unit := verifyParams sch.allowed st sch.params

/-! ## to_dict, to_json, from_json -/

/-- the serialiser found by the three-step lookup, message.py:97-108, 248-258 -/
def serFor (ps : Assoc Spec) (k : String) : Option Ser := (lookupSpec ps k).bind (fun p => p.2.ser)

/-- The `c_param` of every class, used for the messages inside a message. message.py:33, 86, 243 -/
structure SerEnv where
  params : Cls → Assoc Spec

/-- The serialiser a class uses for a parameter name. message.py:248-258 -/
def SerEnv.ser (env : SerEnv) (c : Cls) (k : String) : Option Ser := serFor (env.params c) k

instance : CoeFun SerEnv (fun _ => Cls → String → Option Ser) := ⟨SerEnv.ser⟩

/-- `null_allowed` found by the same lookup, message.py:97-108 -/
def nullFor (ps : Assoc Spec) (k : String) : Bool :=
  match lookupSpec ps k with
  | some (_, sp) => sp.nullAllowed
  | none => false

/-- `" ".join(vals)`: `TypeError` unless every item is a string. message.py:882-886 -/
def joinStrs : List Val → Option (List String)
  | [] => some []
  | .str s :: vs => (joinStrs vs).map (s :: ·)
  | _ :: _ => none

/-- `" ".join(vals)`, message.py:882-886 -/
def spaceJoin (l : List Val) : Res Val :=
  match joinStrs l with
  | some ss => .ok (.str (pyJoin ' ' ss))
  | none => .error .typeError

/-- the class `Link`, oidc/__init__.py:1045 -/
def linkCls : Cls := ⟨"oidc", "Link"⟩

/-- Serialisers applied with `sformat="dict"` to a value that is neither a list nor a message.
message.py:863-956 and the lines given at each case -/
def serPlain (s : Option Ser) (v : Val) : Res Val :=
  match s with
  | none => .ok v
  | some .list => .error .valueError                                       -- 863-865
  | some .spSep =>                                                         -- 882-886
    match v with
    | .str t => .ok (.str t)
    | .dict d => .ok (.str (pyJoin ' ' (dkeys d)))
    | _ => .error .typeError
  | some .json => (dumps v).map .str                                       -- 898
  | some .msg =>                                                           -- 927-935
    match v with
    | .dict d => .ok (.dict d)
    | .str t => .ok (.str t)
    | _ => .error .messageException
  | some .msgJson =>                                                       -- oidc 116-122
    match v with
    | .dict d => .ok (.dict d)
    | _ => .error .messageException
  | some .msgList =>                                                       -- 952-956
    match v with
    | .str t => .ok (.list (t.toList.map (fun c => .str (String.ofList [c]))))
    | .dict d => .ok (.list (d.map (fun p => .str p.1)))
    | _ => .error .typeError
  | some .claims =>                                                        -- oidc 158-162
    match v with
    | .dict d => .ok (.dict d)
    | _ => .error .messageException
  | some .linkList =>                                                      -- oidc 1086-1094
    match v with
    | .dict d => .ok (.dict d)
    | .str t => .ok (.str t)
    | _ => .error .messageException
  | some .timeStamp => timeStampSer v                                      -- identity_assurance 101-112

mutual
/-- `Message.to_dict`, message.py:236-271, on the entries of an instance of class `c`.  The level
argument is always positive when a serialiser is called (246), so it never changes the result. -/
def toDict (env : SerEnv) (c : Cls) : List (String × Val) → Res Dict
  | [] => .ok []
  | (k, v) :: rest => do
    let v' ← serDict env (env c k) v
    let rest' ← toDict env c rest
    .ok ((k, v') :: rest')
/-- A serialiser with `sformat="dict"` followed by message.py:263-269. -/
def serDict (env : SerEnv) : Option Ser → Val → Res Val
  | s, .msg c d =>
    match s with
    | none | some .msg | some .msgJson | some .claims => (toDict env c d).map .dict
    | some .list =>                                         -- the message is formatted for the exception, 865
      match toDict env c d with
      | .error e => .error e
      | .ok _ => .error .valueError
    | some .spSep => .ok (.str (pyJoin ' ' (dkeys d)))      -- iterating a message gives its keys
    | some .json => .error .typeError
    | some .msgList => .ok (.list (d.map (fun p => .str p.1)))
    | some .linkList => if c = linkCls then (toDict env c d).map .dict else .error .messageException
    | some .timeStamp => .error .valueError
  | s, .list l =>
    match s with
    | none | some .list =>
      match l with
      | .msg c d :: rest => do
        let x ← toDict env c d
        let xs ← toDictEach env rest
        .ok (.list (.dict x :: xs))
      | l => .ok (.list l)
    | some .spSep => spaceJoin l
    | some .json => (dumps (.list l)).map .str
    | some .msg | some .msgJson => .error .messageException
    | some .claims =>
      match l with
      | [] => .error .indexError
      | .msg c d :: _ => (toDict env c d).map .dict
      | .dict d :: _ => .ok (.dict d)
      | _ :: _ => .error .messageException
    | some .msgList => (msgSerEach env l).map .list
    | some .linkList => (linkSerEach env l).map .list
    | some .timeStamp => .error .valueError
  | s, v => serPlain s v
/-- `[v.to_dict(lev) for v in val]`, message.py:267 -/
def toDictEach (env : SerEnv) : List Val → Res (List Val)
  | [] => .ok []
  | .msg c d :: rest => do
    let x ← toDict env c d
    let xs ← toDictEach env rest
    .ok (.dict x :: xs)
  | _ :: _ => .error .attributeError
/-- `[msg_ser(v, "dict") for v in val]`, message.py:952-956 -/
def msgSerEach (env : SerEnv) : List Val → Res (List Val)
  | [] => .ok []
  | .msg c d :: rest => do
    let x ← toDict env c d
    let xs ← msgSerEach env rest
    .ok (.dict x :: xs)
  | v :: rest => do
    let x ← serPlain (some .msg) v
    let xs ← msgSerEach env rest
    .ok (x :: xs)
/-- `[link_ser(v, "dict") for v in inst]`, oidc/__init__.py:1075-1103 -/
def linkSerEach (env : SerEnv) : List Val → Res (List Val)
  | [] => .ok []
  | .msg c d :: rest =>
    if c = linkCls then do
      let x ← toDict env c d
      let xs ← linkSerEach env rest
      .ok (.dict x :: xs)
    else .error .messageException
  | v :: rest => do
    let x ← serPlain (some .msg) v
    let xs ← linkSerEach env rest
    .ok (x :: xs)
end

/-- `Message.to_json()`, message.py:443-454 (default `indent`). -/
def toJson (env : SerEnv) (c : Cls) (st : Dict) : Res String := do
  let d ← toDict env c st
  dumps (.dict d)

/-- `from_json`, message.py:456-466: a document that is not an object has no `items`. -/
def fromJson (sch : Schema) (st : Dict) (txt : String) : Res Dict := do
  let v ← loads txt
  let d ← v.itemsOf
  fromDictR sch st d

/-! ## urlencoded -/

/-- `str(v)`; for a message `'{}'.format(self.to_dict())`. message.py:118-122, 128, 135, 562-568 -/
def pyStrOf (env : SerEnv) : Val → Res String
  | .msg c d => do
    let x ← toDict env c d
    pyStr (.dict x)
  | v => pyStr v

/-- `str(item)` for each item of a list, paired with the key (message.py:121-122) -/
def pyStrEach (env : SerEnv) (k : String) : List Val → Res (List (String × String))
  | [] => .ok []
  | v :: vs => do
    let s ← pyStrOf env v
    let r ← pyStrEach env k vs
    .ok ((k, s) :: r)

/-- `str(v)` for the values of a dict, `urlencode`, message.py:922 and oidc/__init__.py:151 -/
def pyStrValues (env : SerEnv) : List (String × Val) → Res (List (String × String))
  | [] => .ok []
  | (k, v) :: d => do
    let s ← pyStrOf env v
    let r ← pyStrValues env d
    .ok ((k, s) :: r)

/-- `urlencode(d)` for a dict, message.py:922 and oidc/__init__.py:151 -/
def urlencodeDict (env : SerEnv) (d : Dict) : Res String := (pyStrValues env d).map urlencode

/-- `str(_ser(val, sformat="urlencoded", lev=lev))` for a list value, message.py:117-119, for the serialisers that do not
write the messages in the list.  `pos` tells whether the level is positive: `msg_ser_json` then refuses a list
(oidc/__init__.py:113-122). -/
def serUrlList (pos : Bool) (s : Ser) (l : List Val) : Res String :=
  match s with
  | .list | .spSep =>
    match joinStrs l with
    | some ss => .ok (pyJoin ' ' ss)
    | none => .error .typeError
  | .json => dumps (.list l)
  | .timeStamp => .error .valueError
  | .msgJson => if pos then .error .messageException else pyStr (.list l)
  | _ => pyStr (.list l)                   -- returned unchanged

/-- `except Exception: .. str(val)`, message.py:134-135 -/
def orStr (r : Res String) (v : Val) : Res String :=
  match r with
  | .ok t => .ok t
  | .error .unmodelled => .error .unmodelled
  | .error _ => pyStr v

/-- `_ser(val, lev=0)` with the serialiser's default format, falling back to `str(val)` on any
exception (message.py:131-135), for int, bool, float and dict values.  A result that is not a string is formatted by
`urlencode`.  `msg_list_ser` is the one of message.py (that of oidc is used by no specification).  With a positive level
`msg_ser_json` returns a dict unchanged and refuses the rest (oidc/__init__.py:113-122). -/
def serUrlOther (env : SerEnv) (pos : Bool) (s : Option Ser) (v : Val) : Res String :=
  match s with
  | none => pyStr v                        -- `None(..)` is a TypeError
  | some .list => pyStr v                  -- ValueError: not a list
  | some .spSep =>
    match v with
    | .dict d => .ok (pyJoin ' ' (dkeys d))
    | _ => pyStr v
  | some .json => orStr (dumps v) v
  | some .msg => pyStr v                   -- `sformat` has no default: TypeError
  | some .linkList => pyStr v              -- the same
  | some .msgJson =>
    match v with
    | .dict _ => if pos then pyStr v else orStr (dumps v) v
    | _ => pyStr v                         -- returned unchanged, or refused
  | some .msgList =>
    match v with
    | .dict d => pyStr (.list (d.map (fun p => .str p.1)))
    | _ => pyStr v                         -- TypeError: not iterable
  | some .claims =>
    match v with
    | .dict d => orStr (urlencodeDict env d) v
    | _ => pyStr v                         -- TypeError of `urlencode`
  | some .timeStamp => orStr (timeStampText v) v

/-- A nested message, message.py:123-128: a JSON document of its `to_dict`, `str(val)` after a `TypeError`.  (Python calls
that `str` in `urlencode`, after the loop; the order matters only for which of two exceptions is raised.) -/
def urlMsg (env : SerEnv) (s : Option Ser) (c : Cls) (d : Dict) : Res String :=
  match s with
  | none => pyStrOf env (.msg c d)         -- `None(..)`
  | some s =>
    match serDict env (some s) (.msg c d) with
    | .ok v =>
      match dumps v with
      | .ok t => .ok t
      | .error .typeError => pyStrOf env (.msg c d)
      | .error e => .error e
    | .error .typeError => pyStrOf env (.msg c d)
    | .error e => .error e

/-- message.py:91-92: the message is formatted for the exception, which fails if `to_dict` does -/
def raiseMissing (env : SerEnv) (c : Cls) (st : Dict) : Res String :=
  match toDict env c st with
  | .error e => .error e
  | .ok _ => .error .missingRequiredAttribute

/-- message.py:87-92, 137-138 around the loop that makes the pairs, for `lax = False` -/
def urlFinish (env : SerEnv) (c : Cls) (ps : Assoc Spec) (st : Dict) (pairs : Res (List (String × String))) : Res String :=
  if ps.any (fun p => p.2.required && !dhas st p.1) then raiseMissing env c st
  else pairs.map urlencode

/-- `link_ser` of a message with `sformat="urlencoded"`, oidc/__init__.py:1076-1085: a link is written as a form, any other
message is returned unchanged -/
def linkText (env : SerEnv) (c : Cls) (d : Dict) (pairs : Res (List (String × String))) : Res Val :=
  if c = linkCls then (urlFinish env c (env.params c) d pairs).map .str else .ok (.msg c d)

mutual
/-- The pairs one entry contributes, message.py:96-135. -/
def urlPairs (env : SerEnv) (pos : Bool) (ps : Assoc Spec) (k : String) : Val → Res (List (String × String))
  | .none => if nullFor ps k then .ok [(k, "None")] else .ok []
  | .str s => .ok [(k, s)]
  | .list l =>
    match serFor ps k with
    | none => pyStrEach env k l
    | some .msgList => do
      let r ← msgUrlEach env l
      let t ← pyStr (.list r)
      .ok [(k, t)]
    | some .linkList => do
      let r ← linkUrlEach env l
      let t ← pyStr (.list r)
      .ok [(k, t)]
    | some .claims => (claimsUrl env l).map (fun t => [(k, t)])
    | some s => (serUrlList pos s l).map (fun t => [(k, t)])
  | .msg c d => (urlMsg env (serFor ps k) c d).map (fun t => [(k, t)])
  | v => (serUrlOther env pos (serFor ps k) v).map (fun t => [(k, t)])
/-- the loop of `to_urlencoded`, message.py:96-135 -/
def urlPairsAll (env : SerEnv) (pos : Bool) (ps : Assoc Spec) : List (String × Val) → Res (List (String × String))
  | [] => .ok []
  | (k, v) :: rest => do
    let p ← urlPairs env pos ps k v
    let r ← urlPairsAll env pos ps rest
    .ok (p ++ r)
/-- `[msg_ser(v, "urlencoded") for v in vals]`, message.py:916-926, 952-956: a message is written as a form of its own, at
level 0 -/
def msgUrlEach (env : SerEnv) : List Val → Res (List Val)
  | [] => .ok []
  | .msg c d :: vs => do
    let t ← urlFinish env c (env.params c) d (urlPairsAll env false (env.params c) d)
    let r ← msgUrlEach env vs
    .ok (.str t :: r)
  | .dict d :: vs => do
    let t ← urlencodeDict env d
    let r ← msgUrlEach env vs
    .ok (.str t :: r)
  | v :: vs => do
    let r ← msgUrlEach env vs
    .ok (v :: r)
/-- `[link_ser(v, "urlencoded") for v in inst]`, oidc/__init__.py:1075-1085, 1101-1103 -/
def linkUrlEach (env : SerEnv) : List Val → Res (List Val)
  | [] => .ok []
  | .msg c d :: vs => do
    let x ← linkText env c d (urlPairsAll env false (env.params c) d)
    let r ← linkUrlEach env vs
    .ok (x :: r)
  | .dict d :: vs => do
    let t ← urlencodeDict env d
    let r ← linkUrlEach env vs
    .ok (.str t :: r)
  | v :: vs => do
    let r ← linkUrlEach env vs
    .ok (v :: r)
/-- `claims_ser` of a list with `sformat="urlencoded"`, oidc/__init__.py:139-151: a message is written as a form at a
positive level.  `urlencode` of a non-empty string, a number or a list is a `TypeError`. -/
def claimsUrl (env : SerEnv) : List Val → Res String
  | [] => .error .indexError
  | .msg c d :: _ => urlFinish env c (env.params c) d (urlPairsAll env true (env.params c) d)
  | .dict d :: _ => urlencodeDict env d
  | .str s :: _ => if s = "" then .ok "" else .error .typeError
  | .list [] :: _ => .ok ""
  | _ :: _ => .error .typeError
end

/-- `Message.to_urlencoded`, message.py:80-146, for `lax = False`. -/
def toUrlencoded (env : SerEnv) (sch : Schema) (st : Dict) : Res String :=
  urlFinish env sch.cls sch.params st (urlPairsAll env false sch.params st)

/-- One parsed name with its (non-empty) list of values, message.py:201-232. -/
def addUrl (sch : Schema) (st : Dict) (k : String) (vals : List String) : Res Dict :=
  let asVal := fun (l : List String) => Val.list (l.map .str)
  match lookupSpec sch.params k with
  | none =>
    match vals with
    | [v] => .ok (dset st k (.str v))
    | _ => .ok (dset st k (asVal vals))
  | some (_, sp) =>
    match sp.vtyp with
    | .list _ =>
      match sp.deser with
      | some f =>
        match vals with
        | v :: _ => do
          let x ← f (.str v) .urlencoded
          .ok (dset st k x)
        | [] => .error .indexError
      | none => .ok (dset st k (asVal vals))
    | .single _ =>
      match vals with
      | [v] =>
        match sp.deser with
        | some f => do
          let x ← f (.str v) .urlencoded
          .ok (dset st k x)
        | none => .ok (dset st k (.str v))
      | _ => .error .tooManyValues

/-- the loop of `from_urlencoded`, message.py:201-232 -/
def addUrls (sch : Schema) : Dict → List (String × List String) → Res Dict
  | st, [] => .ok st
  | st, (k, vs) :: rest =>
    match addUrl sch st k vs with
    | .error e => .error e
    | .ok st' => addUrls sch st' rest

/-- `Message.from_urlencoded`, message.py:177-234, for a string argument. -/
def fromUrlencoded (sch : Schema) (st : Dict) (txt : String) : Res Dict :=
  let info := parseQs txt
  if txt ≠ "" ∧ info = [] then .error .formatError
  else addUrls sch st info

/-- the loop of `from_urlencoded`, message.py:201-232: the content afterwards, and the exception if one was raised -/
def addUrlsState (sch : Schema) : Dict → List (String × List String) → Dict × Option Exc
  | st, [] => (st, none)
  | st, (k, vs) :: rest =>
    match addUrl sch st k vs with
    | .error e => (st, some e)
    | .ok st' => addUrlsState sch st' rest

/-- `Message.from_urlencoded`, message.py:177-234: the content afterwards, and the exception if one was raised -/
def fromUrlencodedState (sch : Schema) (st : Dict) (txt : String) : Dict × Option Exc :=
  let info := parseQs txt
  if txt ≠ "" ∧ info = [] then (st, some .formatError) else addUrlsState sch st info

/-- `from_json`, message.py:456-466: the content afterwards, and the exception if one was raised -/
def fromJsonState (sch : Schema) (st : Dict) (txt : String) : Dict × Option Exc :=
  match loads txt with
  | .error e => (st, some e)
  | .ok v =>
    match v.itemsOf with
    | .error e => (st, some e)
    | .ok d => fromDict sch st d

/-- `msg.request(location, fragment_enc)`, message.py:681-699. -/
def request (env : SerEnv) (sch : Schema) (st : Dict) (location : String) (frag : Bool) : Res String := do
  let qp ← toUrlencoded env sch st
  if frag then .ok (location ++ "#" ++ qp)
  else if location.toList.contains '?' then .ok (location ++ "&" ++ qp)
  else .ok (location ++ "?" ++ qp)

/-- `from_urlencoded` on something that is neither a string nor a list of strings, message.py:196-199: `parse_qs` takes a
false value as `""` and calls `decode` on any other; `len()` fails for false values that are not containers. -/
def notText (sch : Schema) (v : Val) : Res Dict :=
  if v.truthy then .error .attributeError
  else
    match v with
    | .list _ | .dict _ | .msg _ _ => .ok sch.default
    | _ => .error .typeError

/-- `inst.deserialize(val, fmt)`, message.py:161-175, on a fresh instance. -/
def deserialize (sch : Schema) (val : Val) (fmt : Fmt) : Res Dict :=
  match fmt with
  | .json => do
    let v ← loadsVal val
    let d ← v.itemsOf
    fromDictR sch sch.default d
  | .dict => do
    let d ← val.itemsOf
    fromDictR sch sch.default d
  | .urlencoded =>
    match val with
    | .str s => fromUrlencoded sch sch.default s
    | .list (.str s :: _) => fromUrlencoded sch sch.default s
    | .list [] => .error .indexError
    | .list (v :: _) => notText sch v
    | v => notText sch v

/-- `Cls().deserialize(val, fmt)` as a value, message.py:161-175 -/
def deserializeMsg (sch : Schema) (val : Val) (fmt : Fmt) : Res Val :=
  (deserialize sch val fmt).map (.msg sch.cls)

/-! ## the mapping interface -/

/-- `extra()`, message.py:739-748 -/
def extra (sch : Schema) (st : Dict) : Dict := st.filter (fun p => !dhas sch.params p.1)

/-- `only_extras()`, message.py:750-761 -/
def onlyExtras (sch : Schema) (st : Dict) : Bool :=
  ((dkeys st).filter (fun k => dhas sch.params k)).isEmpty

/-- `weed()`, message.py:813-819 -/
def weed (sch : Schema) (st : Dict) : Dict :=
  ((dkeys st).filter (fun k => !dhas sch.params k)).foldl ddel st

/-- `not self._dict[key]`, message.py:821-827 -/
def falsyAt (st : Dict) (k : String) : Bool :=
  match dget st k with
  | some v => !v.truthy
  | none => false

/-- `rm_blanks()`, message.py:821-827 -/
def rmBlanks (st : Dict) : Dict := ((dkeys st).filter (falsyAt st)).foldl ddel st

/-- `update(item)`, message.py:763-775 -/
def update (st : Dict) (item : Val) : Res Dict :=
  match item with
  | .dict d | .msg _ d => .ok (dupdate st d)
  | _ => .error .valueError

/-- `by_schema(cls, **kwa)`, message.py:851-852 -/
def bySchema (sch : Schema) (kwa : Dict) : Dict := kwa.filter (fun p => dhas sch.params p.1)

/-- `add_non_standard(msg1, msg2)`, message.py:855-858: the state of `msg1` afterwards. -/
def addNonStandard (s1 : Schema) (st1 : Dict) (s2 : Schema) (st2 : Dict) : Res Dict :=
  (extra s2 st2).foldlM (fun st p => if dhas s1.params p.1 then .ok st else setItem s1 st p.1 p.2) st1

/-- `set_defaults()`, message.py:73-78 -/
def setDefaults (sch : Schema) (st : Dict) : Dict :=
  sch.default.foldl (fun st p => if dhas st p.1 then st else dset st p.1 p.2) st

/-- `required_parameters()`, message.py:829-833 -/
def requiredParameters (sch : Schema) : List String :=
  (sch.params.filter (fun p => p.2.required)).map Prod.fst

/-! ## deserialisers -/

/-- `val[0].split(" ")`: `AttributeError` unless `val[0]` is a string. message.py:877, 893 -/
def splitItem : Val → Res Val
  | .str s => .ok (.list ((pySplit ' ' s).map .str))
  | _ => .error .attributeError

/-- `list_deserializer`, message.py:872-879 -/
def listDeser (val : Val) (f : Fmt) : Res Val :=
  if f = .urlencoded then
    match val with
    | .str s => .ok (.list ((pySplit ' ' s).map .str))
    | .list [v] => splitItem v
    | _ => .ok .none
  else .ok val

/-- `sp_sep_list_deserializer`, message.py:889-895 -/
def spSepDeser (val : Val) (_ : Fmt) : Res Val :=
  match val with
  | .str s => .ok (.list ((pySplit ' ' s).map .str))
  | .list [v] => splitItem v
  | v => .ok v

/-- `json_deserializer`, message.py:902-903 and oidc `json_deser` 87-88 -/
def jsonDeser (val : Val) (_ : Fmt) : Res Val := loadsVal val

/-! ## specification tuples, message.py:965-993, oidc/__init__.py:92-95, 203-217 -/

/-- message.py:965 -/
def singleRequiredString : Spec := ⟨.single .str, true, none, none, false⟩
/-- message.py:966 -/
def singleOptionalString : Spec := ⟨.single .str, false, none, none, false⟩
/-- message.py:967 -/
def singleOptionalInt : Spec := ⟨.single .int, false, none, none, false⟩
/-- message.py:968 -/
def singleRequiredInt : Spec := ⟨.single .int, true, none, none, false⟩
/-- message.py:969 -/
def singleRequiredBoolean : Spec := ⟨.single .bool, true, none, none, false⟩
/-- oidc/__init__.py:92 -/
def singleOptionalBoolean : Spec := ⟨.single .bool, false, none, none, false⟩
/-- message.py:971-972 -/
def optionalListOfStrings : Spec := ⟨.list .str, false, some .list, some listDeser, false⟩
/-- message.py:973-974 -/
def requiredListOfStrings : Spec := ⟨.list .str, true, some .list, some listDeser, false⟩
/-- message.py:975-976 -/
def optionalListOfSpSepStrings : Spec := ⟨.list .str, false, some .spSep, some spSepDeser, false⟩
/-- message.py:977-978 -/
def requiredListOfSpSepStrings : Spec := ⟨.list .str, true, some .spSep, some spSepDeser, false⟩
/-- message.py:979-980 -/
def singleOptionalJson : Spec := ⟨.single .dict, false, some .json, some jsonDeser, false⟩
/-- message.py:982-983 -/
def singleRequiredJson : Spec := ⟨.single .dict, true, some .json, some jsonDeser, false⟩

/-- The base class `Message` (no parameters). message.py:29-35 -/
def messageSchema : Schema := { cls := ⟨"message", "Message"⟩, params := [] }

/-- The type `Message` in a specification: every message class is a subclass. message.py:988-992 -/
def messageTy : Ty := .msg messageSchema.cls (fun _ => true) (ctor messageSchema)

/-- `json.dumps` on values that may contain messages, for `val = json.dumps(val)` in deserialisers, message.py:911 -/
def dumpsVal (v : Val) : Res Val := (dumps v).map .str

/-- The deserialiser shape shared by `msg_deser` (message.py:906-913) and its copies
(identity_assurance.py:174-181 etc.) for a message class. -/
def msgDeserFor (sch : Schema) (val : Val) (f : Fmt) : Res Val :=
  if val.isMsg then .ok val
  else if f = .urlencoded then deserializeMsg sch val .urlencoded
  else if val.isStr then deserializeMsg sch val f
  else do
    let t ← dumpsVal val
    deserializeMsg sch t .json

/-- `msg_deser`, message.py:906-913 -/
def msgDeser : Val → Fmt → Res Val := msgDeserFor messageSchema

/-- `[msg_deser(v, sformat) for v in val]`, message.py:946-949 -/
def mapDeser (g : Val → Fmt → Res Val) (f : Fmt) : List Val → Res (List Val)
  | [] => .ok []
  | v :: vs => do
    let x ← g v f
    let xs ← mapDeser g f vs
    .ok (x :: xs)

/-- `msg_list_deser`, message.py:942-949 -/
def msgListDeser (val : Val) (f : Fmt) : Res Val :=
  match val with
  | .dict d => do
    let m ← ctor messageSchema d
    .ok (.list [m])
  | v => do
    let l ← v.iter
    let r ← mapDeser msgDeser f l
    .ok (.list r)

/-- message.py:988 -/
def optionalMessage : Spec := ⟨.single messageTy, false, some .msg, some msgDeser, false⟩
/-- message.py:989 -/
def requiredMessage : Spec := ⟨.single messageTy, true, some .msg, some msgDeser, false⟩
/-- message.py:991-992 -/
def optionalListOfMessages : Spec := ⟨.list messageTy, false, some .msgList, some msgListDeser, false⟩

/-- message.py:1018 -/
def requiredListOfDicts : Spec := ⟨.list .dict, true, some .list, some listDeser, false⟩
/-- message.py:1019 -/
def optionalListOfDicts : Spec := ⟨.list .dict, false, some .list, some listDeser, false⟩

/-- `time_stamp_deser`, identity_assurance.py:115-119 -/
def timeStampDeser (val : Val) (_ : Fmt) : Res Val := isoDeser localZone .time val

/-- identity_assurance.py:123, `OPTIONAL_TIME_STAMP` -/
def optionalTimeStamp : Spec := ⟨.single .str, false, some .timeStamp, some timeStampDeser, false⟩

end Verif
