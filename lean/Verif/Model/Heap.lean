import Verif.Model.Oidc

/-!
# Shared mutable objects

The rest of the model treats values as immutable.  This file models the places where it matters that two names denote
the same object: the copies made by `add_issuer`, the defaults of message classes, and the list of allowed error codes
shared by two classes.
-/

namespace Verif

/-! ## `add_issuer` -/

/-- A value of a storage configuration: a dictionary object (by its address) or anything else. context.py:15 -/
inductive SecVal where
  | obj (n : Nat)
  | other (v : Val)
deriving DecidableEq

/-- the dictionary objects, by address, context.py:14-21 -/
abbrev Objs := List Dict

/-- the loop of `add_issuer`, context.py:15-21.  `copy.copy` of a dictionary is a new object with the same entries.
Strings, numbers, lists and `None` do not support the item assignment (`TypeError`).  A section that is a `Message` is
not modelled. -/
def addIssuerLoop (issuer : String) : List (String × SecVal) → Assoc SecVal → Objs → Res (Assoc SecVal) × Objs
  | [], res, h => (.ok res, h)
  | (key, val) :: rest, res, h =>
    if key = "abstract_storage_cls" then addIssuerLoop issuer rest (dset res key val) h
    else
      match val with
      | .obj n =>
        addIssuerLoop issuer rest (dset res key (.obj h.length))
          (h ++ [dset (h.getD n []) "issuer" (.str (quotePlus issuer))])
      | .other _ => (.error .typeError, h)

/-- `add_issuer`, context.py:13-22 -/
def addIssuer (conf : Assoc SecVal) (issuer : String) (h : Objs) : Res (Assoc SecVal) × Objs :=
  addIssuerLoop issuer conf [] h

/-! ## defaults of message classes -/

/-- the list objects, by address (objects: message.py:33-47) -/
abbrev Cells := List (List Val)

/-- what a dictionary of a message holds: an immutable value or a list object, message.py:33-47 -/
inductive Slot where
  | lit (v : Val)
  | cell (n : Nat)
deriving DecidableEq

/-- Classes (their `c_default`) and message instances (class and `_dict`). message.py:29-47 -/
structure Prog where
  cells : Cells
  classes : List (Assoc Slot)
  msgs : List (Nat × Assoc Slot)

/-- a freshly made value becomes a slot, message.py:33-35 -/
def allocVal (v : Val) (cells : Cells) : Slot × Cells :=
  match v with
  | .list l => (.cell cells.length, cells ++ [l])
  | v => (.lit v, cells)

/-- a class body is executed: every list of the literal `c_default` is a new object (e.g. oidc/__init__.py:633) -/
def allocDict : List (String × Val) → Cells → Assoc Slot × Cells
  | [], cells => ([], cells)
  | (k, v) :: rest, cells =>
    let a := allocVal v cells
    let r := allocDict rest a.2
    ((k, a.1) :: r.1, r.2)

/-- what a program can do with messages, message.py:37-47, 701-706 -/
inductive MOp where
  /-- `Cls()`, message.py:37-47: `self._dict = self.c_default.copy()` -/
  | new (c : Nat)
  /-- `Cls(set_defaults=False)` -/
  | bare (c : Nat)
  /-- `m[k] = v` for a freshly made value that the class takes as it is (message.py:701-706) -/
  | assign (m : Nat) (k : String) (v : Val)
  /-- `del m[k]`, message.py:728 -/
  | del (m : Nat) (k : String)
  /-- `m.set_defaults()`, message.py:73-78 -/
  | setDefaults (m : Nat)
  /-- an in-place change of the list `m[k]` (`append`, `remove`, `sort`, ...) -/
  | mutate (m : Nat) (k : String) (f : List Val → List Val)

/-- `for key, val in c_default.items(): self._dict.setdefault(key, val)`, message.py:77-78 -/
def setDefaultsLoop : List (String × Slot) → Assoc Slot → Assoc Slot
  | [], d => d
  | (k, s) :: rest, d => setDefaultsLoop rest (if dhas d k then d else dset d k s)

/-- the slot at a key of a message, message.py:636-643 -/
def Prog.slot (p : Prog) (m : Nat) (k : String) : Option Slot :=
  match p.msgs[m]? with
  | some md => dget md.2 k
  | none => none

/-- change the dictionary of a message, message.py:701-706 -/
def Prog.modify (p : Prog) (m : Nat) (f : Nat → Assoc Slot → Assoc Slot) : Prog :=
  { p with msgs := p.msgs.modify m (fun md => (md.1, f md.1 md.2)) }

/-- the effect of an operation, message.py:37-47, 701-706 -/
def mStep (p : Prog) : MOp → Prog
  | .new c => { p with msgs := p.msgs ++ [(c, p.classes.getD c [])] }
  | .bare c => { p with msgs := p.msgs ++ [(c, [])] }
  | .assign m k v =>
    { p with cells := (allocVal v p.cells).2 }.modify m (fun _ d => dset d k (allocVal v p.cells).1)
  | .del m k => p.modify m (fun _ d => ddel d k)
  | .setDefaults m => p.modify m (fun c d => setDefaultsLoop (p.classes.getD c []) d)
  | .mutate m k f =>
    match p.slot m k with
    | some (.cell n) => { p with cells := p.cells.modify n f }
    | _ => p

/-- a history of operations, message.py:37-47, 701-706 -/
def mRun : List MOp → Prog → Prog
  | [], p => p
  | o :: rest, p => mRun rest (mStep p o)

/-- what a slot is seen as, message.py:636-643 -/
def Prog.view (p : Prog) : Slot → Val
  | .lit v => v
  | .cell n => .list (p.cells.getD n [])

/-- `m[k]`, message.py:636-643 -/
def Prog.msgVal (p : Prog) (m : Nat) (k : String) : Option Val := (p.slot m k).map p.view

/-- `Cls.c_default[k]`, message.py:33 -/
def Prog.clsVal (p : Prog) (c : Nat) (k : String) : Option Val := (dget (p.classes.getD c []) k).map p.view

/-- a program after its class bodies have been executed, message.py:29-35 -/
def loadClasses : List Dict → Prog → Prog
  | [], p => p
  | d :: rest, p =>
    loadClasses rest { p with cells := (allocDict d p.cells).2, classes := p.classes ++ [(allocDict d p.cells).1] }

/-! ## the list of allowed error codes -/

/-- oauth2/__init__.py:62-67 -/
def oauth2ErrorCodes : List Val :=
  [.str "invalid_request", .str "unauthorized_client", .str "access_denied", .str "unsupported_response_type",
    .str "invalid_scope", .str "server_error", .str "temporarily_unavailable"]

/-- oidc/__init__.py:393-401 -/
def oidcErrorCodes : List Val :=
  [.str "interaction_required", .str "login_required", .str "session_selection_required", .str "consent_required",
    .str "invalid_request_uri", .str "invalid_request_object", .str "registration_not_supported",
    .str "request_not_supported", .str "request_uri_not_supported"]

/-- the list objects and the `c_allowed_values` of the two `AuthorizationErrorResponse` classes, once defined,
oauth2/__init__.py:54-68, oidc/__init__.py:390-401 -/
structure Loaded where
  cells : Cells
  oauth2 : Option (Assoc Nat)
  oidc : Option (Assoc Nat)

/-- a module is imported: a module body runs at the first import only.  `other` is a module that imports neither.
oauth2/__init__.py:1, oidc/__init__.py:1 -/
inductive Mod where
  | oauth2
  | oidc
  | other
deriving DecidableEq

/-- the class body oauth2/__init__.py:60-68 -/
def loadOauth2 (s : Loaded) : Loaded :=
  match s.oauth2 with
  | some _ => s
  | none => { s with cells := s.cells ++ [oauth2ErrorCodes], oauth2 := some [("error", s.cells.length)] }

/-- `c_allowed_values["error"].extend(..)`, oidc/__init__.py:393-401 -/
def extendError (d : Assoc Nat) (cells : Cells) : Cells :=
  match dget d "error" with
  | some n => cells.modify n (· ++ oidcErrorCodes)
  | none => cells

/-- the class body oidc/__init__.py:391-401: the dictionary is copied, the list in it is not -/
def loadOidc (s : Loaded) : Loaded :=
  match s.oidc with
  | some _ => s
  | none =>
    { loadOauth2 s with
      oidc := (loadOauth2 s).oauth2
      cells := extendError ((loadOauth2 s).oauth2.getD []) (loadOauth2 s).cells }

/-- `import`, oidc/__init__.py:1-60 -/
def importMod (s : Loaded) : Mod → Loaded
  | .oauth2 => loadOauth2 s
  | .oidc => loadOidc s
  | .other => s

/-- a program that imports the modules in this order, oidc/__init__.py:1-60 -/
def importAll (ms : List Mod) : Loaded := ms.foldl importMod ⟨[], none, none⟩

/-- `oauth2.AuthorizationErrorResponse` as it is after the imports, oauth2/__init__.py:54-68 -/
def Loaded.schema (s : Loaded) : Schema :=
  { oauth2_AuthorizationErrorResponse with
    allowed := (s.oauth2.getD []).map (fun p => (p.1, s.cells.getD p.2 [])) }

end Verif
