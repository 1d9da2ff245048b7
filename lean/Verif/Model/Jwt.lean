import Verif.Model.Schemas

/-!
# `Message.from_jwt`, `src/oidcmsg/message.py:482-560`

The crypto library (`cryptojwt`) is a parameter.
-/

namespace Verif

/-- A parsed signed JWT: `_jwt.headers` and the outcome of `_jwt.payload()`. message.py:525-527 -/
structure Jws where
  headers : Dict
  payload : Res Val

/-- What the library calls in `cryptojwt`.  Everything may raise.  A key jar may change when it is asked
for keys (it fetches them over the network), so `keys` and `update` return the jar afterwards.
message.py:482-560, oidc/__init__.py:276-329 -/
structure Crypto where
  KeyJar : Type
  Key : Type
  Jwe : Type
  /-- `jwe_factory(txt, **algarg)` -/
  jwe : String → Dict → Res (Option Jwe)
  /-- `keyjar.get_decrypt_key(owner="")` -/
  decryptKeys : KeyJar → Res (List Key)
  /-- `_decryptor.decrypt(txt, dkeys)` as text (message.py:509-517) -/
  decrypt : Jwe → String → List Key → Res String
  /-- `jws_factory(txt)` / `jws_factory(txt, alg=..)`; an object without `jwt` counts as an error -/
  jws : Val → Option Val → Res (Option Jws)
  /-- `bool(keyjar)` -/
  truthy : KeyJar → Bool
  /-- `keyjar.get_jwt_verify_keys(_jwt, **kwargs)` -/
  keys : KeyJar → Jws → Dict → Res (List Key × KeyJar)
  /-- `keyjar.update()` -/
  update : KeyJar → Res KeyJar
  /-- `_verifier.verify_compact(txt, key)` -/
  verifyCompact : Jws → String → List Key → Res Unit
  /-- `issuer in keyjar` -/
  hasIssuer : KeyJar → Val → Res Bool
  /-- `left_hash(value, func)` -/
  leftHash : Val → String → Res Val
  /-- `str(v)` of a value that is not a string -/
  repr : Val → String

/-- A `keyjar` argument: absent, `None`, or a jar. message.py:482, 538, 550 -/
abbrev JarArg (C : Crypto) := Option (Option C.KeyJar)

/-- `str(v)`, oidc/__init__.py:307 -/
def strOf (C : Crypto) : Val → String
  | .str s => s
  | v => C.repr v

/-- The result of `from_jwt`: `_dict`, `jws_header`, and the key jar afterwards. message.py:482-560 -/
structure JwtMsg (C : Crypto) where
  st : Dict
  header : Option Dict
  jar : Option C.KeyJar

/-- `d[k]`, oidc/__init__.py:273, 280 -/
def getR (d : Dict) (k : String) : Res Val :=
  match dget d k with
  | some v => .ok v
  | none => .error .keyError

/-- `if not b: raise e`, the `if ..: raise` of the verify methods, oidc/__init__.py:267-1004 -/
def need (b : Bool) (e : Exc) : Res Unit := if b then .ok () else .error e

/-- message.py:496-500 -/
def algArg (kw : Dict) : Dict :=
  (match dget kw "encalg" with | some v => [("alg", v)] | none => []) ++
  (match dget kw "encenc" with | some v => [("enc", v)] | none => [])

/-- message.py:503-519; `keyjar = None` has no `get_decrypt_key`. -/
def decryptStep (C : Crypto) (txt : String) (jar : Option C.KeyJar) (kw : Dict) : Res String :=
  match C.jwe txt (algArg kw) with
  | .error e => .error e
  | .ok none => .ok txt
  | .ok (some w) =>
    match jar with
    | none => .error .attributeError
    | some kj =>
      match C.decryptKeys kj with
      | .error e => .error e
      | .ok ks => C.decrypt w txt ks

/-- message.py:521-524 -/
def sigAlg (kw : Dict) : Option Val :=
  match dget kw "sigalg" with
  | some v => if v.truthy then some v else none
  | none => none

/-- message.py:540-541: the keys, and the jar afterwards -/
def jarKeys (C : Crypto) (j : Jws) (jar : Option C.KeyJar) (kw : Dict) :
    Res (List C.Key × Option C.KeyJar) :=
  match jar with
  | none => .ok ([], none)
  | some kj =>
    if C.truthy kj then
      match C.keys kj j kw with
      | .ok (ks, kj') => .ok (ks, some kj')
      | .error e => .error e
    else .ok ([], some kj)

/-- message.py:551-555, after `NoSuitableSigningKeys`: with an empty or missing jar nothing is raised. -/
def retryVerify (C : Crypto) (j : Jws) (txt : String) (jar : Option C.KeyJar) (kw : Dict) :
    Res (Option C.KeyJar) :=
  match jar with
  | none => .ok none
  | some kj =>
    if C.truthy kj then
      match C.update kj with
      | .error e => .error e
      | .ok kj' =>
        match C.keys kj' j kw with
        | .error e => .error e
        | .ok (ks, kj'') =>
          match C.verifyCompact j txt ks with
          | .ok () => .ok (some kj'')
          | .error e => .error e
    else .ok (some kj)

/-- message.py:539-555 -/
def checkSig (C : Crypto) (j : Jws) (txt : String) (jar : Option C.KeyJar) (kw : Dict) :
    Res (Option C.KeyJar) :=
  match jarKeys C j jar kw with
  | .error e => .error e
  | .ok ([], _) => .error .missingSigningKey
  | .ok (k :: ks, jar') =>
    match C.verifyCompact j txt (k :: ks) with
    | .ok () => .ok jar'
    | .error .noSuitableSigningKeys => retryVerify C j txt jar' kw
    | .error e => .error e

/-- message.py:537-555 -/
def sigStep (C : Crypto) (j : Jws) (txt : String) (jar : Option C.KeyJar) (verify : Bool) (kw : Dict) :
    Res (Option C.KeyJar) :=
  match dget j.headers "alg" with
  | none => .error .keyError
  | some alg =>
    if alg.eq (.str "none") then .ok jar
    else if verify then checkSig C j txt jar kw
    else .ok jar

/-- message.py:526-559: the claims, the header and the key jar.  When the text is not a signed JWT it is
read as a JSON document. -/
def openStep (C : Crypto) (txt : String) (jar : Option C.KeyJar) (verify : Bool) (kw : Dict) :
    Res (Val × Option Dict × Option C.KeyJar) :=
  match C.jws (.str txt) (sigAlg kw) with
  | .error e => .error e
  | .ok none =>
    match loads txt with
    | .ok v => .ok (v, none, jar)
    | .error e => .error e
  | .ok (some j) =>
    match j.payload with
    | .error e => .error e
    | .ok jso =>
      match sigStep C j txt jar verify kw with
      | .ok jar' => .ok (jso, some j.headers, jar')
      | .error e => .error e

/-- the parameter `verify=True` of `from_jwt`, message.py:482 -/
def verifyArg (args : Dict) : Bool :=
  match dget args "verify" with
  | some v => v.truthy
  | none => true

/-- `c().from_jwt(txt, **args)`, message.py:482-560, on a fresh instance; `args` holds the keyword
arguments other than `keyjar` (which has no default: leaving it out is a `TypeError`). -/
def fromJwt (C : Crypto) (sch : Schema) (txt : String) (jar : JarArg C) (args : Dict) : Res (JwtMsg C) :=
  match jar with
  | none => .error .typeError
  | some jar =>
    match decryptStep C txt jar (ddel args "verify") with
    | .error e => .error e
    | .ok txt' =>
      match openStep C txt' jar (verifyArg args) (ddel args "verify") with
      | .error e => .error e
      | .ok (jso, hdr, jar') =>
        match jso.itemsOf with
        | .error e => .error e
        | .ok d =>
          match fromDictR sch sch.default d with
          | .ok st => .ok ⟨st, hdr, jar'⟩
          | .error e => .error e

/-- `args[arg] = kwargs[arg]` for the listed names that are present, oidc/__init__.py:270-274 -/
def pick (names : List String) (kw : Dict) : Dict :=
  names.filterMap (fun n => (dget kw n).map (fun v => (n, v)))

end Verif
