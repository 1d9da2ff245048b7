import Verif.Model.Context

/-!
# `src/oidcmsg/context.py`: the key jar of an `OidcContext`, and its boxes

The key library (`cryptojwt.KeyJar`, `cryptojwt.key_jar.init_key_jar`) is a parameter.
-/

namespace Verif

/-- What a context uses of the key library; `α` are storages. context.py:4-5 -/
structure KeyLib (α : Type) where
  Jar : Type
  /-- `init_key_jar(**args)`, the storage given separately -/
  init : Dict → Option α → Res Jar
  /-- `KeyJar(storage=..)` -/
  new : Option α → Res Jar
  /-- `keyjar.import_jwks(jwks, owner)` -/
  importJwks : Jar → Val → String → Res Jar
  /-- `owner in keyjar` -/
  has : Jar → String → Res Bool
  /-- `keyjar.export_jwks_as_json(True, owner)` -/
  exportJson : Jar → String → Res String
  /-- `keyjar.import_jwks_as_json(text, owner)` -/
  importJson : Jar → String → String → Res Jar
  /-- `keyjar.httpc_params = ..` -/
  setHttpc : Jar → Val → Jar

/-- `self.db_conf` after context.py:30-34; without a configuration it counts as empty. -/
def contextConf (config : Dict) : Res Dict :=
  if ((dget config "db_conf").getD .none).truthy then
    match ((dget config "db_conf").getD .none).itemsOf with
    | .ok db => withIssuer (dget config "issuer") db
    | .error e => .error e
  else .ok []

/-- the storage of the key jar, context.py:51-55 -/
def keyStorage {α : Type} (imp : Val → Res (Dict → Res α)) (db : Dict) : Res (Option α) :=
  if db.isEmpty then .ok none
  else
    match getStorageConf db "keyjar" with
    | .error e => .error e
    | .ok conf =>
      if conf.truthy then
        match conf with
        | .dict d | .msg _ d => (storageFactory imp d).map some
        | _ => .error .attributeError
      else .ok none

/-- context.py:57-60: the arguments without `uri_path`; an argument `storage` is replaced. -/
def initKeys {α : Type} (L : KeyLib α) (keys : Val) (storage : Option α) : Res L.Jar := do
  let d ← keys.itemsOf
  L.init (d.filter (fun p => p.1 != "uri_path" && p.1 != "storage")) storage

/-- context.py:62-64 -/
def newKeys {α : Type} (L : KeyLib α) (jwks : Option Val) (storage : Option α) : Res L.Jar := do
  let jar ← L.new storage
  match jwks with
  | some v => L.importJwks jar v ""
  | none => .ok jar

/-- context.py:57-64 -/
def firstKeys {α : Type} (L : KeyLib α) (conf : Dict) (storage : Option α) : Res L.Jar :=
  match dget conf "keys" with
  | some keys => initKeys L keys storage
  | none => newKeys L (dget conf "jwks") storage

/-- context.py:66-68 -/
def ownName {α : Type} (L : KeyLib α) (entity : String) (jar : L.Jar) : Res L.Jar := do
  let own ← L.has jar ""
  if own && entity != "" then do
    let t ← L.exportJson jar ""
    L.importJson jar t entity
  else .ok jar

/-- context.py:70-72 -/
def withHttpc {α : Type} (L : KeyLib α) (params : Val) (jar : L.Jar) : L.Jar :=
  if params.truthy then L.setHttpc jar params else jar

/-- `OidcContext._keyjar`, context.py:48-76 -/
def contextKeyjar {α : Type} (imp : Val → Res (Dict → Res α)) (L : KeyLib α) (given : Option L.Jar) (db conf : Dict)
    (entity : String) : Res L.Jar :=
  match given with
  | some jar => .ok jar
  | none => do
    let storage ← keyStorage imp db
    let jar ← firstKeys L conf storage
    let jar' ← ownName L entity jar
    .ok (withHttpc L ((dget conf "httpc_params").getD .none) jar')

/-- `OidcContext.__init__`, context.py:26-43: `self.db` and `self.keyjar` -/
def contextInit {α : Type} (imp : Val → Res (Dict → Res α)) (mem : String → α) (L : KeyLib α) (config : Dict)
    (given : Option L.Jar) (entity : String) : Res (α × L.Jar) := do
  let db ← contextDb imp mem config
  let conf ← contextConf config
  let jar ← contextKeyjar imp L given conf config entity
  .ok (db, jar)

/-- `OidcContext.add_boxes`, context.py:45-47: the attributes of the context (storages only) and the exception if one
was raised -/
def addBoxes {α : Type} (imp : Val → Res (Dict → Res α)) (mem : String → α) (db : Dict) :
    List (String × String) → Assoc α → Assoc α × Option Exc
  | [], attrs => (attrs, none)
  | (key, attr) :: rest, attrs =>
    match initStorage imp mem db key with
    | .error e => (attrs, some e)
    | .ok s => addBoxes imp mem db rest (dset attrs attr s)

end Verif
