import Verif.Py.Url
import Verif.Py.Val

/-!
# Configuration helpers: `src/oidcmsg/__init__.py`, `storage/utils.py`, `storage/init.py`
-/

namespace Verif

/-- `path.startswith(p)`, oidcmsg/__init__.py:16-23, 47, 54 -/
def startsWith (p s : String) : Bool := startsWithC p.toList s.toList

/-- `path.endswith("/")`, oidcmsg/__init__.py:28 -/
def endsWithSlash (s : String) : Bool := s.toList.getLast? == some '/'

/-- `while path.startswith("."): path = path[1:]`, oidcmsg/__init__.py:21-22 -/
def stripDots (s : String) : String := String.ofList (s.toList.dropWhile (· == '.'))

/-- oidcmsg/__init__.py:16-26 -/
def properPrefix (path : String) : String :=
  if startsWith "./" path then path
  else if startsWith "/" path then "." ++ path
  else if startsWith "." path then
    if startsWith "/" (stripDots path) then "." ++ stripDots path else stripDots path
  else "./" ++ path

/-- `proper_path`, oidcmsg/__init__.py:11-31 -/
def properPath (path : String) : String :=
  if endsWithSlash (properPrefix path) then properPrefix path else properPrefix path ++ "/"

/-- The values of `item_paths`: a list of attributes, `None`, or a dictionary of the same kind.
oidcmsg/__init__.py:36, 43, 53, 60 -/
inductive Items where
  | attrs (l : List String)
  | path
  | sub (l : List (String × Items))

/-- the configuration after the call and the exception, if any, oidcmsg/__init__.py:35-61 -/
abbrev Rewrite := Val × Option Exc

/-- one attribute, oidcmsg/__init__.py:45-52.  `join` is `os.path.join`. -/
def baseAttr (join : String → String → Res String) (base : String) (part : Val) (attr : String) : Rewrite :=
  match part with
  | .dict d =>
    match dget d attr with
    | none => (part, none)
    | some (.str p) =>
      if p = "" then (part, none)
      else if startsWith "/" p then (part, none)
      else
        match join base p with
        | .ok r => (.dict (dset d attr (.str r)), none)
        | .error e => (part, some e)
    | some v => if v.truthy then (part, some .attributeError) else (part, none)
  | _ => (part, some .attributeError)

/-- `for attr in items`, oidcmsg/__init__.py:44 -/
def baseAttrs (join : String → String → Res String) (base : String) : List String → Val → Rewrite
  | [], part => (part, none)
  | a :: as, part =>
    match baseAttr join base part a with
    | (part', some e) => (part', some e)
    | (part', none) => baseAttrs join base as part'

/-- `conf[section] = value`, oidcmsg/__init__.py:57, 59 -/
def confSet (conf : Val) (sec : String) (v : Val) : Rewrite :=
  match conf with
  | .dict d => (.dict (dset d sec v), none)
  | _ => (conf, some .typeError)

/-- `items is None`, oidcmsg/__init__.py:53-59 -/
def basePathItem (join : String → String → Res String) (base : String) (conf : Val) (sec : String) (part : Val) :
    Rewrite :=
  match part with
  | .str p =>
    if startsWith "/" p then (conf, none)
    else
      match join base p with
      | .ok r => confSet conf sec (.str r)
      | .error e => (conf, some e)
  | _ => (conf, some .attributeError)

/-- `conf` after its part `section` has been changed in place, oidcmsg/__init__.py:37-40 -/
def putPart (conf : Val) (sec : String) (r : Rewrite) : Rewrite :=
  if sec = "" then r
  else
    match conf with
    | .dict d => (.dict (dset d sec r.1), r.2)
    | _ => (conf, r.2)

/-- `part`, oidcmsg/__init__.py:37-40 -/
def confPart (conf : Val) (sec : String) : Res Val :=
  if sec = "" then .ok conf
  else
    match conf with
    | .dict d => .ok ((dget d sec).getD .none)
    | _ => .error .attributeError

mutual

/-- one section, oidcmsg/__init__.py:37-61 -/
def baseSection (join : String → String → Res String) (base : String) (sec : String) (items : Items) (conf : Val) :
    Rewrite :=
  match confPart conf sec with
  | .error e => (conf, some e)
  | .ok part =>
    if part.truthy then
      match items with
      | .attrs l => putPart conf sec (baseAttrs join base l part)
      | .path => basePathItem join base conf sec part
      | .sub l => putPart conf sec (baseSections join base l part)
    else (conf, none)

/-- The loop of `add_base_path`, oidcmsg/__init__.py:35-61, for a configuration made of dictionaries in which no
dictionary occurs twice.  The branches for an empty path (48-49, 56-57) are not reachable: the guards 42 and 46
require a non-empty value. -/
def baseSections (join : String → String → Res String) (base : String) : List (String × Items) → Val → Rewrite
  | [], conf => (conf, none)
  | (sec, items) :: rest, conf =>
    match baseSection join base sec items conf with
    | (conf', some e) => (conf', some e)
    | (conf', none) => baseSections join base rest conf'

end

/-- `os` is not imported in oidcmsg/__init__.py, hence `os.path.join` is a `NameError`. -/
def unboundJoin (_ _ : String) : Res String := .error .nameError

/-- `add_base_path`, oidcmsg/__init__.py:35-61 -/
def addBasePath (conf : Val) (itemPaths : List (String × Items)) (base : String) : Rewrite :=
  baseSections unboundJoin base itemPaths conf

/-- `modsplit`, storage/utils.py:4-16 -/
def modsplit (name : String) : Res (String × String) :=
  if ':' ∈ name.toList then
    match pySplit ':' name with
    | [m, c] => .ok (m, c)
    | _ => .error .valueError
  else if (pySplit '.' name).length < 2 then .error .valueError
  else .ok (pyJoin '.' (pySplit '.' name).dropLast, (pySplit '.' name).getLastD "")

/-- `get_storage_conf`, storage/init.py:28-39.  The result `Val.none` is `None`; a configuration of `None` is the same
as an empty one. -/
def getStorageConf (db : Dict) (typ : String) : Res Val :=
  if db.isEmpty then .ok .none
  else if ((dget db typ).getD .none).truthy then .ok ((dget db typ).getD .none)
  else if typ ≠ "default" then .ok ((dget db "default").getD .none)
  else .error .configurationError

/-- `storage_factory`, storage/init.py:42-49.  `imp` is `importer`: it gives the class, as a function from its
configuration. -/
def storageFactory {α : Type} (imp : Val → Res (Dict → Res α)) (conf : Dict) : Res α :=
  if ((dget conf "handler").getD .none).truthy then
    match imp ((dget conf "handler").getD .none) with
    | .error e => .error e
    | .ok cls => cls (conf.filter (fun p => p.1 != "handler"))
  else .error .configurationError

/-- `init_storage`, storage/init.py:52-66.  `mem key` is `LabeledDict({'label': key})`.  A section that is neither a
dictionary nor a message has no `get` or `items`. -/
def initStorage {α : Type} (imp : Val → Res (Dict → Res α)) (mem : String → α) (db : Dict) (key : String) : Res α :=
  if db.isEmpty then .ok (mem key)
  else
    match getStorageConf db key with
    | .error e => .error e
    | .ok conf =>
      if conf.truthy then
        match conf with
        | .dict d | .msg _ d => storageFactory imp d
        | _ => .error .attributeError
      else .ok (mem key)

end Verif
