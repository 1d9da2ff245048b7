import Verif.Model.Oidc

/-!
# Writing tokens: `Message.to_jwt`, `to_jwe`, `from_jwe` and `IdToken.to_jwt`

Signing and encryption are parameters, as is the rest of the crypto library.
-/

namespace Verif

/-- What the library calls in `cryptojwt` to write tokens; everything may raise. message.py:479-480, 791-792, 806-808 -/
structure Writer (C : Crypto) where
  /-- `JWS(text, alg=algorithm).sign_compact(keys)` -/
  sign : String → String → List C.Key → Res String
  /-- `JWE(text, alg=alg, enc=enc).encrypt(keys)` -/
  encrypt : String → String → String → List C.Key → Res String
  /-- `JWE().decrypt(msg, keys).decode()` -/
  decryptPlain : String → List C.Key → Res String

/-- `msg.to_jwt(key, algorithm)`, message.py:468-480, with the default `lev` (the lifetime is ignored) -/
def toJwt {C : Crypto} (W : Writer C) (env : SerEnv) (c : Cls) (st : Dict) (alg : String) (keys : List C.Key) :
    Res String :=
  match toJson env c st with
  | .ok txt => W.sign txt alg keys
  | .error e => .error e

/-- `IdToken.to_jwt(key, algorithm, lifetime=lifetime)`, oidc/__init__.py:762-764: the text, and the packed token -/
def idTokenToJwt {C : Crypto} (W : Writer C) (now : Int) (st : Dict) (alg : String) (lifetime : Val)
    (keys : List C.Key) : Res (String × Dict) :=
  match pack C now alg lifetime st with
  | .error e => .error e
  | .ok st' =>
    match toJwt W libEnv oidc_IdToken.cls st' alg keys with
    | .ok t => .ok (t, st')
    | .error e => .error e

/-- `msg.to_jwe(keys, enc, alg)`, message.py:777-792 -/
def toJwe {C : Crypto} (W : Writer C) (env : SerEnv) (c : Cls) (st : Dict) (keys : List C.Key) (enc alg : String) :
    Res String :=
  match toJson env c st with
  | .ok txt => W.encrypt txt alg enc keys
  | .error e => .error e

/-- `c().from_jwe(msg, keys)`, message.py:794-808, on a fresh instance -/
def fromJwe {C : Crypto} (W : Writer C) (sch : Schema) (msg : String) (keys : List C.Key) : Res Dict :=
  match W.decryptPlain msg keys with
  | .ok txt => fromJson sch sch.default txt
  | .error e => .error e

/-- `JWT(key_jar=keys, iss=iss, sign_alg=alg)` of `cryptojwt` with `with_jti` and `lifetime` set, and then
`pack(payload, owner=iss, recv=recv)`: payload, issuer, algorithm, receiver, whether there is to be a `jti`, lifetime.
oidc/__init__.py:1177-1182 -/
abbrev Packer (C : Crypto) := C.KeyJar → Dict → String → String → String → Bool → Val → Res String

/-- `make_openid_request`, oidc/__init__.py:1160-1182; `cls` is the class of the request `arq` -/
def makeOpenidRequest {C : Crypto} (P : Packer C) (cls : Cls) (arq : Dict) (keys : C.KeyJar) (issuer alg recv : String)
    (withJti : Bool) (lifetime : Val) : Res String :=
  match toDict libEnv cls arq with
  | .ok d => P keys d issuer alg recv withJti lifetime
  | .error e => .error e

end Verif
