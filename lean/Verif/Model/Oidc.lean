import Verif.Model.Jwt
import Verif.Model.Merge
import Verif.Py.Calendar

/-!
# The `verify` methods of `oauth2/__init__.py`, `oidc/__init__.py`, `oidc/session.py` and
`oauth2/device_authorization.py`

A method is a function of the instance state, the keyword arguments `kw` (without `keyjar`, `msg`,
`check_hash`, `claim`), the `keyjar` argument and the current time; the result is the returned boolean and
the state afterwards.  When an exception is raised the state is not part of the result.  Floats are exact.
-/

namespace Verif

/-- number of a bool, int or float; arithmetic and comparison with anything else is a `TypeError`,
oidc/__init__.py:812, 825, 970, 978, 986 -/
def numR (v : Val) : Res Rat :=
  match v.num? with
  | some q => .ok q
  | none => .error .typeError

/-- `kwargs.get(name, default)` used as a number, oidc/__init__.py:802-805, 815-818 -/
def numArg (kw : Dict) (name : String) (dflt : Rat) : Res Rat :=
  match dget kw name with
  | some v => numR v
  | none => .ok dflt

/-- `'{}_{}'.format('__verified', claim)`, oidcmsg/__init__.py:4-8 -/
def verifiedClaimName (claim : String) : String := "__verified_" ++ claim

/-- `clear_verified_claims`, oidc/__init__.py:246-256 -/
def clearVerifiedClaims (st : Dict) : Dict :=
  ddel (ddel (ddel st "__verified_id_token") "__verified_id_token_hint") "__verified_request"

/-- `'{}'.format(v)`: a message is formatted with `to_dict`, which may raise (message.py:562-568). -/
def formatOk (v : Val) : Res Unit :=
  match v with
  | .msg c d =>
    match toDict libEnv c d with
    | .ok _ => .ok ()
    | .error e => .error e
  | _ => .ok ()

/-! ## oauth2 -/

/-- `is_error_message(msg)`, oauth2/__init__.py:24-28 -/
def isErrorMessage (st : Dict) : Bool := dhas st "error"

/-- `error_chars`, oauth2/__init__.py:31 -/
def errorChar (c : Char) : Bool :=
  ('A' ≤ c && c ≤ 'Z') || ('a' ≤ c && c ≤ 'z') || c = ' ' || c = '!'

/-- `x in error_chars` (`TypeError` for an unhashable item), oauth2/__init__.py:31, 49 -/
def inErrorChars (x : Val) : Res Bool :=
  match x with
  | .str s =>
    match s.toList with
    | [c] => .ok (errorChar c)
    | _ => .ok false
  | v => if v.hashable then .ok false else .error .typeError

/-- `all(x in error_chars for x in ..)`, oauth2/__init__.py:49 -/
def allErrorChars : List Val → Res Bool
  | [] => .ok true
  | x :: xs =>
    match inErrorChars x with
    | .ok true => allErrorChars xs
    | r => r

/-- oauth2/__init__.py:46-50 -/
def errorDescription (st : Dict) : Res Unit :=
  match dget st "error_description" with
  | none => .ok ()
  | some v =>
    match v.iter with
    | .error e => .error e
    | .ok l =>
      match allErrorChars l with
      | .error e => .error e
      | .ok b => need b .valueError

/-- `ResponseMessage.verify`, oauth2/__init__.py:44-51, for a subclass with schema `sch` -/
def responseVerify (sch : Schema) (st : Dict) : Res Unit := do
  verifyBase sch st
  errorDescription st

/-- equality check that is skipped when either side is missing (oauth2/__init__.py:157-171) -/
def matchArg (st kw : Dict) (name : String) (e : Exc) : Res Unit :=
  match dget st name, dget kw name with
  | some a, some b => need (a.eq b) e
  | _, _ => .ok ()

/-- `oauth2.AuthorizationResponse.verify`, oauth2/__init__.py:154-173 -/
def oauth2AuthzResponseVerify (sch : Schema) (st kw : Dict) : Res Unit := do
  responseVerify sch st
  matchArg st kw "client_id" .verificationError
  matchArg st kw "iss" .verificationError

/-- oauth2/__init__.py:337-343 and oidc/__init__.py:446-452 -/
def requestArgs (kw : Dict) : Dict := pick ["opponent_id", "sender", "alg", "encalg", "encenc"] kw

/-- oauth2/__init__.py:332-347 and 361-376: decode the request object and merge it.
`del self[..]` before the merge, `self[..] = _req` after it. -/
def requestObject (C : Crypto) (st : Dict) (req : Val) (jar : JarArg C) (kw : Dict) (treatment : String) :
    Res Dict :=
  match fromJwt C oauth2_AuthorizationRequest (strOf C req) jar (requestArgs kw) with
  | .error e => .error e
  | .ok m =>
    .ok (dset (merge (ddel st "__verified_request") m.st treatment none) "__verified_request"
          (.msg oauth2_AuthorizationRequest.cls m.st))

/-- `JWTSecuredAuthorizationRequest.verify`, oauth2/__init__.py:331-351 -/
def jwtSecuredVerify (C : Crypto) (st : Dict) (jar : JarArg C) (kw : Dict) : Res Dict :=
  match dget st "request" with
  | some req => requestObject C st req jar kw "strict"
  | none => if dhas st "request_uri" then .ok st else .error .missingAttribute

/-- `PushedAuthorizationRequest.verify`, oauth2/__init__.py:360-378 -/
def pushedVerify (C : Crypto) (st : Dict) (jar : JarArg C) (kw : Dict) : Res Dict :=
  match dget st "request" with
  | some req => requestObject C st req jar kw "lax"
  | none => .ok st

/-! ## OpenIDSchema and IdToken -/

/-- oidc/__init__.py:571-582 -/
def birthdateCheck (st : Dict) : Res Unit :=
  match dget st "birthdate" with
  | none => .ok ()
  | some (.str s) =>
    need (strptimeYmd s.toList || strptimeY s.toList || strptime0md s.toList) .verificationError
  | some _ => .error .typeError

/-- `OpenIDSchema.verify`, oidc/__init__.py:568-587 -/
def openIdSchemaVerify (sch : Schema) (st : Dict) : Res Bool := do
  responseVerify sch st
  birthdateCheck st
  .ok (!(st.any (fun p => p.2.isNone)))

/-- oidc/__init__.py:776-782 -/
def clientInAud (kw : Dict) (aud : Val) : Res Unit :=
  match dget kw "client_id" with
  | none => .ok ()
  | some c =>
    match c.contains aud with
    | .ok b => need b .notForMe
    | .error e => .error e

/-- oidc/__init__.py:784-791 -/
def severalAud (st : Dict) (aud : Val) : Res Unit :=
  match aud.len with
  | .error e => .error e
  | .ok n =>
    if 1 < n then
      match dget st "azp" with
      | none => .error .verificationError
      | some azp =>
        match azp.contains aud with
        | .ok b => need b .verificationError
        | .error e => .error e
    else .ok ()

/-- oidc/__init__.py:776-791 -/
def audCheck (st kw : Dict) : Res Unit :=
  match dget st "aud" with
  | none => .ok ()
  | some aud => do
    clientInAud kw aud
    severalAud st aud

/-- oidc/__init__.py:793-798 -/
def azpCheck (st kw : Dict) : Res Unit :=
  match dget st "azp", dget kw "client_id" with
  | some azp, some c => need (c.eq azp) .notForMe
  | _, _ => .ok ()

/-- `self[name]`, a `KeyError` becoming `MissingRequiredAttribute`, oidc/__init__.py:300-305, 807-810, 820-823 -/
def getReq (st : Dict) (k : String) : Res Val :=
  match dget st k with
  | some v => .ok v
  | none => .error .missingRequiredAttribute

/-- oidc/__init__.py:807-813 -/
def expCheck (now : Int) (skew : Rat) (st : Dict) : Res Unit := do
  let v ← getReq st "exp"
  let e ← numR v
  need (decide ((now : Rat) - skew ≤ e)) .expError

/-- oidc/__init__.py:815-826, `NONCE_STORAGE_TIME = 4 * 3600` (48) -/
def iatCheck (now : Int) (skew : Rat) (st kw : Dict) : Res Unit := do
  let v ← getReq st "iat"
  let i ← numR v
  let storage ← numArg kw "nonce_storage_time" 14400
  need (decide ((now : Rat) - skew ≤ i + storage)) .iatError

/-- `IdToken.verify`, oidc/__init__.py:766-832 (returns `True` or raises; the result of
`OpenIDSchema.verify` is dropped at 767). -/
def idTokenVerify (now : Int) (st kw : Dict) : Res Unit := do
  let _ ← openIdSchemaVerify oidc_IdToken st
  matchArg st kw "iss" .issuerMismatch
  audCheck st kw
  azpCheck st kw
  let skew ← numArg kw "skew" 0
  expCheck now skew st
  iatCheck now skew st kw
  matchArg st kw "nonce" .valueError

/-- `left_hash(as_unicode(self[attr]), halg)` stored under the hash name, oidc/__init__.py:733-739 -/
def hashOne (C : Crypto) (halg : String) (st : Dict) (attr hashAttr : String) : Res Dict :=
  match dget st attr with
  | none => .ok st
  | some v =>
    match C.leftHash v halg with
    | .error .keyError => .ok st
    | .error e => .error e
    | .ok h =>
      match setItem oidc_IdToken st hashAttr h with
      | .ok st' => .ok (ddel st' attr)
      | .error e => .error e

/-- `"HS" + alg[-3:]`, oidc/__init__.py:313, 731 -/
def hashAlg (alg : String) : String :=
  "HS" ++ String.ofList (alg.toList.drop (alg.toList.length - 3))

/-- `IdToken.val_hash`, oidc/__init__.py:730-739 -/
def valHash (C : Crypto) (alg : String) (st : Dict) : Res Dict := do
  let st ← hashOne C (hashAlg alg) st "access_token" "at_hash"
  hashOne C (hashAlg alg) st "code" "c_hash"

/-- `a + b` of an int and a value, oidc/__init__.py:744.  Simplification: sums of floats are not rounded. -/
def addInt (a : Int) (v : Val) : Res Val :=
  match v with
  | .int b => .ok (.int (a + b))
  | .bool b => .ok (.int (a + if b then 1 else 0))
  | .flt q => .ok (.flt (a + q))
  | _ => .error .typeError

/-- `IdToken.pack_init`, oidc/__init__.py:741-744 -/
def packInit (now : Int) (lifetime : Val) (st : Dict) : Res Dict :=
  match setItem oidc_IdToken st "iat" (.int now) with
  | .error e => .error e
  | .ok st' =>
    if lifetime.truthy then
      match addInt now lifetime with
      | .error e => .error e
      | .ok v => setItem oidc_IdToken st' "exp" v
    else .ok st'

/-- `IdToken.pack`, oidc/__init__.py:746-760 -/
def pack (C : Crypto) (now : Int) (alg : String) (lifetime : Val) (st : Dict) : Res Dict := do
  let st ← valHash C alg st
  packInit now lifetime st

/-! ## verify_id_token -/

/-- `ID_TOKEN_VERIFY_ARGS` without `keyjar`, oidc/__init__.py:241-244 -/
def idTokenVerifyArgs : List String :=
  ["verify", "encalg", "encenc", "sigalg", "issuer", "allow_missing_kid", "no_kid_issuer", "trusting",
   "skew", "nonce_storage_time", "client_id", "allow_sign_alg_none", "allowed_sign_alg"]

/-- `kwargs.get('allow_sign_alg_none', False) is False`, oidc/__init__.py:286 -/
def noneForbidden (kw : Dict) : Bool :=
  match dget kw "allow_sign_alg_none" with
  | none => true
  | some (.bool false) => true
  | some _ => false

/-- `kwargs.get("sigalg") == "none"`, oidc/__init__.py:282-283 -/
def sigalgNone (kw : Dict) : Bool :=
  match dget kw "sigalg" with
  | some v => v.eq (.str "none")
  | none => false

/-- oidc/__init__.py:280-297: is the token signed? -/
def algCheck (alg : Val) (kw : Dict) : Res Bool :=
  if alg.eq (.str "none") then
    if sigalgNone kw then .ok false
    else if noneForbidden kw then .error .unsupportedAlgorithm
    else .ok false
  else
    match dget kw "allowed_sign_alg" with
    | none => .ok true
    | some a => if alg.eq a then .ok true else .error .unsupportedAlgorithm

/-- `_body['iss']`: a `KeyError` becomes `MissingRequiredAttribute`; anything but an object is a
`TypeError`, oidc/__init__.py:301 -/
def bodyIss (body : Val) : Res Val :=
  match body with
  | .dict d => getReq d "iss"
  | _ => .error .typeError

/-- oidc/__init__.py:299-306; `in None` is a `TypeError`. -/
def issuerKnown (C : Crypto) (body : Val) (jar : JarArg C) : Res Unit :=
  match jar with
  | none => .ok ()
  | some jar => do
    let iss ← bodyIss body
    match jar with
    | none => .error .typeError
    | some kj =>
      match C.hasIssuer kj iss with
      | .ok b => need b .valueError
      | .error e => .error e

/-- one of the two hash checks, oidc/__init__.py:315-329 -/
def hashCheck (C : Crypto) (hfunc : String) (st idt : Dict) (attr hashAttr : String) (e : Exc) : Res Unit :=
  match dget st attr with
  | none => .ok ()
  | some v => do
    let h ← getReq idt hashAttr
    let expected ← C.leftHash v hfunc
    need (h.eq expected) e

/-- `idt.jws_header["alg"]`, and `"HS" + _alg[-3:]`, oidc/__init__.py:312-313 -/
def headerHash (hdr : Option Dict) : Res String :=
  match hdr with
  | none => .error .typeError
  | some h =>
    match dget h "alg" with
    | none => .error .keyError
    | some (.str a) => .ok (hashAlg a)
    | some _ => .error .typeError

/-- oidc/__init__.py:312-329 -/
def hashChecks (C : Crypto) (st : Dict) (m : JwtMsg C) : Res Unit := do
  let hfunc ← headerHash m.header
  hashCheck C hfunc st m.st "access_token" "at_hash" .atHashError
  hashCheck C hfunc st m.st "code" "c_hash" .cHashError

/-- `jws_factory(msg[claim])` and `if not _jws`, oidc/__init__.py:276-278 -/
def parseClaim (C : Crypto) (v : Val) : Res Jws :=
  match C.jws v none with
  | .error e => .error e
  | .ok none => .error .valueError
  | .ok (some j) => .ok j

/-- `if _signed and 'keyjar' in kwargs`, oidc/__init__.py:299-305 -/
def issuerStep (C : Crypto) (signed : Bool) (body : Val) (jar : JarArg C) : Res Unit :=
  if signed then issuerKnown C body jar else .ok ()

/-- `if _signed and check_hash`, oidc/__init__.py:311-329 -/
def hashStep (C : Crypto) (b : Bool) (st : Dict) (m : JwtMsg C) : Res Unit :=
  if b then hashChecks C st m else .ok ()

/-- `verify_id_token`, oidc/__init__.py:267-334: the decoded token (it is stored in the message by the
callers below, together with the formatting at 332).  `IdToken.verify` never returns `False`. -/
def verifyIdTokenCore (C : Crypto) (now : Int) (st : Dict) (claim : Val) (checkHash : Bool) (jar : JarArg C)
    (kw : Dict) : Res (JwtMsg C) := do
  let j ← parseClaim C claim
  let alg ← getR j.headers "alg"
  let signed ← algCheck alg kw
  let body ← j.payload
  issuerStep C signed body jar
  let m ← fromJwt C oidc_IdToken (strOf C claim) jar (pick idTokenVerifyArgs kw)
  idTokenVerify now m.st kw
  hashStep C (signed && checkHash) st m
  .ok m

/-- `verify_id_token(msg, ..)` with the store at oidc/__init__.py:331-332 -/
def verifyIdToken (C : Crypto) (now : Int) (st : Dict) (claim : String) (checkHash : Bool) (jar : JarArg C)
    (kw : Dict) : Res Dict := do
  let v ← getR st claim
  let m ← verifyIdTokenCore C now st v checkHash jar kw
  formatOk (.msg oidc_IdToken.cls m.st)
  .ok (dset st (verifiedClaimName claim) (.msg oidc_IdToken.cls m.st))

/-- `if claim in self: verify_id_token(..)`, oidc/__init__.py:346, 383, 840 -/
def verifyIfPresent (C : Crypto) (now : Int) (st : Dict) (claim : String) (checkHash : Bool) (jar : JarArg C)
    (kw : Dict) : Res Dict :=
  if dhas st claim then verifyIdToken C now st claim checkHash jar kw else .ok st

/-- `oidc.AccessTokenResponse.verify`, oidc/__init__.py:341-350 -/
def accessTokenResponseVerify (C : Crypto) (now : Int) (st : Dict) (jar : JarArg C) (kw : Dict) : Res Dict := do
  responseVerify oidc_AccessTokenResponse st
  verifyIfPresent C now (clearVerifiedClaims st) "id_token" false jar kw

/-- oidc/__init__.py:377-381: is the response for this client? -/
def forMe (st kw : Dict) : Res Bool :=
  match dget st "aud", dget kw "client_id" with
  | some aud, some c => c.contains aud
  | _, _ => .ok true

/-- oidc/__init__.py:383-387 -/
def authzResponseRest (C : Crypto) (now : Int) (st : Dict) (jar : JarArg C) (kw : Dict) (mine : Bool) :
    Res (Bool × Dict) :=
  if mine then (verifyIfPresent C now st "id_token" true jar kw).map (fun s => (true, s))
  else .ok (false, st)

/-- `oidc.AuthorizationResponse.verify`, oidc/__init__.py:373-387 -/
def authzResponseVerify (C : Crypto) (now : Int) (st : Dict) (jar : JarArg C) (kw : Dict) :
    Res (Bool × Dict) := do
  oauth2AuthzResponseVerify oidc_AuthorizationResponse st kw
  let mine ← forMe (clearVerifiedClaims st) kw
  authzResponseRest C now (clearVerifiedClaims st) jar kw mine

/-- `super(MessageWithIdToken, self).verify()`, oidc/__init__.py:839: behind `MessageWithIdToken` in the method resolution
order is `ResponseMessage` for `RefreshSessionResponse` (session.py:35), and `Message` for the other subclasses. -/
def besideIdTokenVerify (sch : Schema) (st : Dict) : Res Unit :=
  if sch.cls = ⟨"session", "RefreshSessionResponse"⟩ then responseVerify sch st else verifyBase sch st

/-- `MessageWithIdToken.verify`, oidc/__init__.py:838-844 -/
def messageWithIdTokenVerify (C : Crypto) (now : Int) (sch : Schema) (st : Dict) (jar : JarArg C) (kw : Dict) :
    Res Dict := do
  besideIdTokenVerify sch st
  verifyIfPresent C now st "id_token" false jar kw

/-! ## oidc.AuthorizationRequest -/

/-- oidc/__init__.py:462-467: differences are only logged, but logging formats both values -/
def logDifferences (st : Dict) : List (String × Val) → Res Unit
  | [] => .ok ()
  | (k, v) :: rest =>
    match dget st k with
    | none => logDifferences st rest
    | some w =>
      if w.eq v then logDifferences st rest
      else
        match formatOk w with
        | .error e => .error e
        | .ok () =>
          match formatOk v with
          | .error e => .error e
          | .ok () => logDifferences st rest

/-- oidc/__init__.py:446-455 -/
def authzArgs (st kw : Dict) : Res Dict :=
  if dhas kw "opponent_id" then .ok (requestArgs kw)
  else
    match getR st "client_id" with
    | .ok c => .ok (dset (requestArgs kw) "opponent_id" c)
    | .error e => .error e

/-- oidc/__init__.py:457-478: the state and the key jar after the request object was handled -/
def requestStep (C : Crypto) (st : Dict) (jar : JarArg C) (args : Dict) : Res (Dict × JarArg C) :=
  match dget st "request" with
  | some (.str t) =>
    match fromJwt C oidc_OpenIDRequest t jar args with
    | .error e => .error e
    | .ok m =>
      match logDifferences st m.st with
      | .error e => .error e
      | .ok () =>
        .ok (dset (dupdate (dropKeys (fun k => dhas m.st k) st) m.st) "__verified_request"
              (.msg oidc_OpenIDRequest.cls m.st), some m.jar)
  | _ => .ok (st, jar)

/-- oidc/__init__.py:480-483 -/
def hintStep (C : Crypto) (st : Dict) (jar : JarArg C) (args : Dict) : Res Dict :=
  match dget st "id_token_hint" with
  | some (.str t) =>
    match fromJwt C oidc_IdToken t jar args with
    | .ok m => .ok (dset st "verified_id_token_hint" (.msg oidc_IdToken.cls m.st))
    | .error e => .error e
  | _ => .ok st

/-- oidc/__init__.py:488-499 -/
def nonceStep (st kw : Dict) (rt : Val) : Res Unit :=
  match (Val.str "id_token").contains rt with
  | .error e => .error e
  | .ok false => .ok ()
  | .ok true =>
    match dget st "nonce" with
    | none => .error .missingRequiredAttribute
    | some _ => matchArg st kw "nonce" .valueError

/-- `self.get("scope", [])`, oidc/__init__.py:501, 504 -/
def scopeOf (st : Dict) : Val :=
  match dget st "scope" with
  | some v => v
  | none => .list []

/-- `"consent" in self["prompt"]`, false when there is no prompt, oidc/__init__.py:505 -/
def promptHas (st : Dict) (s : String) : Res Bool :=
  match dget st "prompt" with
  | none => .ok false
  | some p => (Val.str s).contains p

/-- the condition at oidc/__init__.py:505, reached under 504 -/
def consentStep (st : Dict) (off : Bool) : Res Bool := if off then promptHas st "consent" else .ok true

/-- oidc/__init__.py:501-506 -/
def scopeStep (st : Dict) : Res Unit := do
  let o ← (Val.str "openid").contains (scopeOf st)
  need o .missingRequiredValue
  let off ← (Val.str "offline_access").contains (scopeOf st)
  let con ← consentStep st off
  need con .missingRequiredValue

/-- `len(self["prompt"])` is only taken when it contains `none`, oidc/__init__.py:509 -/
def promptLen (p : Val) (n : Bool) : Res Nat := if n then p.len else .ok 0

/-- oidc/__init__.py:508-511 -/
def promptStep (st : Dict) : Res Unit :=
  match dget st "prompt" with
  | none => .ok ()
  | some p => do
    let n ← (Val.str "none").contains p
    let len ← promptLen p n
    need (decide (len ≤ 1)) .invalidRequest

/-- oidc/__init__.py:485-513 -/
def authzRequestConds (st kw : Dict) : Res Unit := do
  let rt ← getReq st "response_type"
  nonceStep st kw rt
  scopeStep st
  promptStep st

/-- `oidc.AuthorizationRequest.verify`, oidc/__init__.py:433-513 -/
def authzRequestVerify (C : Crypto) (st : Dict) (jar : JarArg C) (kw : Dict) : Res Dict := do
  verifyBase oidc_AuthorizationRequest st
  let args ← authzArgs (clearVerifiedClaims st) kw
  let (st₁, jar₁) ← requestStep C (clearVerifiedClaims st) jar args
  let st₂ ← hintStep C st₁ jar₁ args
  authzRequestConds st₂ kw
  .ok st₂

/-! ## registration and discovery -/

/-- oidc/__init__.py:642-644 -/
def initiateLogin (st : Dict) : Res Unit :=
  match dget st "initiate_login_uri" with
  | none => .ok ()
  | some (.str s) => need (startsWithC "https:".toList s.toList) .valueError
  | some _ => .error .attributeError

/-- One round of the loop at oidc/__init__.py:646-658; both parameters are declared strings, so the store
at 653 is a plain store. -/
def pairStep (st : Dict) (alg enc : String) : Res Dict :=
  if dhas st alg then
    if dhas st enc then .ok st else setItem oidc_RegistrationRequest st enc (.str "A128CBC-HS256")
  else if dhas st enc then .error .missingRequiredAttribute
  else .ok st

/-- oidc/__init__.py:660-662 -/
def authSigningAlg (st : Dict) : Res Unit :=
  match dget st "token_endpoint_auth_signing_alg" with
  | none => .ok ()
  | some v => need (!(v.eq (.str "none"))) .valueError

/-- `RegistrationRequest.verify`, oidc/__init__.py:639-664 -/
def registrationRequestVerify (st : Dict) : Res Dict := do
  verifyBase oidc_RegistrationRequest st
  initiateLogin st
  let st ← pairStep st "request_object_encryption_alg" "request_object_encryption_enc"
  let st ← pairStep st "id_token_encrypted_response_alg" "id_token_encrypted_response_enc"
  let st ← pairStep st "userinfo_encrypted_response_alg" "userinfo_encrypted_response_enc"
  authSigningAlg st
  .ok st

/-- `RegistrationResponse.verify`, oidc/__init__.py:683-699 -/
def registrationResponseVerify (st : Dict) : Res Unit := do
  responseVerify oidc_RegistrationResponse st
  need (dhas st "registration_client_uri" == dhas st "registration_access_token") .verificationError

/-- `SCOPE_CHARSET`, oidc/__init__.py:222-230: the class `set` is appended instead of `'!'`. -/
def scopeChar (c : Char) : Bool :=
  ('\x23' ≤ c && c ≤ '\x5b') || ('\x5d' ≤ c && c ≤ '\x7e')

/-- One character, oidc/__init__.py:235-236.  `'%c'` takes a character or the code of one. -/
def checkScopeItem (v : Val) : Res Unit :=
  match v with
  | .str s =>
    match s.toList with
    | [c] => need (scopeChar c) .notAllowedValue
    | _ => .error .typeError
  | .bool _ => .error .notAllowedValue
  | .int i => if 0 ≤ i ∧ i < 0x110000 then .error .notAllowedValue else .error .overflowError
  | _ => .error .typeError

/-- the loop of `check_char_set`, oidc/__init__.py:234-236 -/
def checkScopeItems : List Val → Res Unit
  | [] => .ok ()
  | v :: vs =>
    match checkScopeItem v with
    | .ok () => checkScopeItems vs
    | .error e => .error e

/-- `check_char_set(scope, SCOPE_CHARSET)`, oidc/__init__.py:233-236 -/
def checkScope (v : Val) : Res Unit := do
  let l ← v.iter
  checkScopeItems l

/-- the loop over the scopes, oidc/__init__.py:919-920 -/
def checkScopes : List Val → Res Unit
  | [] => .ok ()
  | v :: vs =>
    match checkScope v with
    | .ok () => checkScopes vs
    | .error e => .error e

/-- oidc/__init__.py:916-920 -/
def scopesSupported (st : Dict) : Res Unit :=
  match dget st "scopes_supported" with
  | none => .ok ()
  | some v => do
    let o ← (Val.str "openid").contains v
    need o .missingRequiredValue
    let l ← v.iter
    checkScopes l

/-- `urlparse(url)`, oidc/__init__.py:922; `netlocOk` stands for the checks on bracketed hosts and on characters outside
ASCII (`netlocValid`). -/
def urlparse (netlocOk : List Char → Bool) (url : String) : Res UrlParts :=
  if netlocValid netlocOk (netlocC url.toList) then .ok (urlsplit url) else .error .valueError

/-- oidc/__init__.py:922 (the parameter is required, hence present).  `urlparse` calls `decode` on anything but a string if it
counts as true, and takes it as empty otherwise. -/
def issuerParts (netlocOk : List Char → Bool) (st : Dict) : Res UrlParts :=
  match dget st "issuer" with
  | none => .error .keyError
  | some (.str s) => urlparse netlocOk s
  | some v => if v.truthy then .error .attributeError else .ok ⟨[], [], []⟩

/-- `any("code" in rt for rt in ..)`, oidc/__init__.py:936-937 -/
def anyCode : List Val → Res Bool
  | [] => .ok false
  | v :: vs =>
    match (Val.str "code").contains v with
    | .ok false => anyCode vs
    | r => r

/-- oidc/__init__.py:936-938 -/
def tokenEndpoint (st : Dict) : Res Unit := do
  let v ← getR st "response_types_supported"
  let l ← v.iter
  let c ← anyCode l
  need (!c || dhas st "token_endpoint") .missingRequiredAttribute

/-- `ProviderConfigurationResponse.verify`, oidc/__init__.py:913-940 -/
def providerConfigVerify (netlocOk : List Char → Bool) (st kw : Dict) : Res Unit := do
  responseVerify oidc_ProviderConfigurationResponse st
  scopesSupported st
  let parts ← issuerParts netlocOk st
  need (dhas kw "allow_http" || decide (parts.scheme = "https".toList)) .schemeError
  let algs ← getR st "id_token_signing_alg_values_supported"
  let rs ← (Val.str "RS256").contains algs
  need rs .valueError
  need (parts.query.isEmpty && parts.fragment.isEmpty) .valueError
  tokenEndpoint st

/-! ## JsonWebToken -/

/-- a time check that is skipped when the claim is absent, oidc/__init__.py:960-987 -/
def timeCheck (st kw : Dict) (k : String) (ok : Rat → Rat → Bool) (e : Exc) : Res Unit :=
  match dget st k with
  | none => .ok ()
  | some v => do
    let skew ← numArg kw "skew" 0
    let x ← numR v
    need (ok skew x) e

/-- oidc/__init__.py:989-998 and session.py:121-125 -/
def audArg (st kw : Dict) : Res Unit :=
  match dget st "aud", dget kw "aud" with
  | some aud, some a =>
    match a.contains aud with
    | .ok b => need b .notForMe
    | .error e => .error e
  | _, _ => .ok ()

/-- `JsonWebToken.verify`, oidc/__init__.py:955-1004 -/
def jsonWebTokenVerify (now : Int) (sch : Schema) (st kw : Dict) : Res Unit := do
  verifyBase sch st
  timeCheck st kw "exp" (fun skew e => decide ((now : Rat) - skew ≤ e)) .expError
  timeCheck st kw "iat" (fun skew i => decide (i ≤ (now : Rat) + skew)) .expError
  timeCheck st kw "nbf" (fun skew n => decide (n ≤ (now : Rat) - skew)) .expError
  audArg st kw
  matchArg st kw "iss" .valueError

/-! ## session -/

/-- session.py:112 -/
def backchannelEvent : String := "http://schemas.openid.net/event/backchannel-logout"

/-- session.py:109-115 -/
def eventsCheck (st : Dict) : Res Unit :=
  match dget st "events" with
  | some (.dict [(k, v)]) => do
    need (k == backchannelEvent) .valueError
    need (v.eq (.dict [])) .valueError
  | some (.dict _) => .error .valueError
  | some (.msg _ [(k, v)]) => do
    need (k == backchannelEvent) .valueError
    need (v.eq (.dict [])) .valueError
  | some (.msg _ _) => .error .valueError
  | some _ => .error .attributeError
  | none => .error .keyError

/-- session.py:148-152 -/
def logoutAlg (hdr : Option Dict) (kw : Dict) : Res Unit :=
  match dget kw "allowed_sign_alg" with
  | none => .ok ()
  | some a =>
    if a.truthy then
      match hdr with
      | none => .error .typeError
      | some h =>
        match dget h "alg" with
        | none => .error .keyError
        | some alg => need (alg.eq a) .unsupportedAlgorithm
    else .ok ()

/-- `LogoutToken.verify`, session.py:101-154; `hdr` is the attribute `jws_header` -/
def logoutTokenVerify (now : Int) (st : Dict) (hdr : Option Dict) (kw : Dict) : Res Unit := do
  verifyBase session_LogoutToken st
  need (!dhas st "nonce") .messageException
  eventsCheck st
  need (dhas st "sub" || dhas st "sid") .valueError
  audArg st kw
  matchArg st kw "iss" .notForMe
  timeCheck st kw "iat" (fun skew i => decide (i ≤ (now : Rat) + skew)) .valueError
  logoutAlg hdr kw

/-- `BackChannelLogoutRequest.verify`, session.py:170-186 -/
def backChannelVerify (C : Crypto) (now : Int) (st : Dict) (jar : JarArg C) (kw : Dict) : Res Dict := do
  verifyBase session_BackChannelLogoutRequest st
  let t ← getR st "logout_token"
  let m ← fromJwt C session_LogoutToken (strOf C t) jar (pick idTokenVerifyArgs kw)
  logoutTokenVerify now m.st m.header kw
  formatOk (.msg session_LogoutToken.cls m.st)
  .ok (dset st "__verified_logout_token" (.msg session_LogoutToken.cls m.st))

/-- session.py:64-76: decode, verify, store the first decoding -/
def hintVerify (C : Crypto) (now : Int) (st : Dict) (jar : JarArg C) (kw : Dict) : Res Dict := do
  let t ← getR st "id_token_hint"
  let m ← fromJwt C oidc_IdToken (strOf C t) jar (pick idTokenVerifyArgs kw)
  let st' ← verifyIdToken C now st "id_token_hint" false (some m.jar) kw
  .ok (dset st' "__verified_id_token_hint" (.msg oidc_IdToken.cls m.st))

/-- `EndSessionRequest.verify`, session.py:56-78 -/
def endSessionRest (C : Crypto) (now : Int) (st : Dict) (jar : JarArg C) (kw : Dict) : Res (Bool × Dict) :=
  if dhas st "id_token_hint" then (hintVerify C now st jar kw).map (fun s => (true, s))
  else if dhas st "post_logout_redirect_uri" then .ok (false, st)
  else .ok (true, st)

/-- `EndSessionRequest.verify`, session.py:56-78 -/
def endSessionVerify (C : Crypto) (now : Int) (st : Dict) (jar : JarArg C) (kw : Dict) : Res (Bool × Dict) := do
  verifyBase session_EndSessionRequest st
  endSessionRest C now (clearVerifiedClaims st) jar kw

/-! ## device flow -/

/-- `device_authorization.AccessTokenRequest.verify`, device_authorization.py:29-36: returns `None` -/
def deviceTokenRequestVerify (st : Dict) : Res Unit := do
  verifyBase device_AccessTokenRequest st
  need (!dhas st "device_code" || (dhas st "grant_type" && dhas st "client_id")) .missingRequiredAttribute

/-! ## claims_match -/

/-- One key of the loop at oidc/__init__.py:1202-1211 -/
def claimKey (value : Val) (k : String) (v : Val) : Res Bool :=
  if k = "value" then .ok (value.eq v)
  else if k = "values" then value.contains v
  else .ok false

/-- the loop with its `break`, oidc/__init__.py:1202-1214 -/
def claimLoop (value : Val) : List (String × Val) → Res Bool
  | [] => .ok false
  | (k, v) :: rest =>
    match claimKey value k v with
    | .ok false => claimLoop value rest
    | r => r

/-- `claims_match`, oidc/__init__.py:1185-1220 -/
def claimsMatch (value claimspec : Val) : Res Bool :=
  match claimspec with
  | .none => .ok true
  | .dict d | .msg _ d =>
    match claimLoop value d with
    | .error e => .error e
    | .ok m => .ok (m || decide (dkeys d = ["essential"]))
  | _ => .error .attributeError

end Verif
