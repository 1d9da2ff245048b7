import Verif.Model.Oidc

/-!
# Verification with the state of the message after every outcome

`Model/Oidc` gives the message after a successful verification only.  Here the same methods return the outcome and the
message as the caller finds it, also when an exception was raised.
-/

namespace Verif

/-- The outcome of `msg.verify(..)` and `_dict` afterwards.  oidc/__init__.py:341-844, session.py:56-186 -/
abbrev SOut := Res Bool × Dict

/-- `verify_id_token(msg, ..)`, oidc/__init__.py:267-334: the token is stored (331) before it is formatted for the log
(332). -/
def verifyIdTokenS (C : Crypto) (now : Int) (st : Dict) (claim : String) (checkHash : Bool) (jar : JarArg C)
    (kw : Dict) : SOut :=
  match getR st claim with
  | .error e => (.error e, st)
  | .ok v =>
    match verifyIdTokenCore C now st v checkHash jar kw with
    | .error e => (.error e, st)
    | .ok m =>
      ((formatOk (.msg oidc_IdToken.cls m.st)).map (fun _ => true),
        dset st (verifiedClaimName claim) (.msg oidc_IdToken.cls m.st))

/-- `if claim in self: ..`, oidc/__init__.py:346, 383, 840 -/
def verifyIfPresentS (C : Crypto) (now : Int) (st : Dict) (claim : String) (checkHash : Bool) (jar : JarArg C)
    (kw : Dict) : SOut :=
  if dhas st claim then verifyIdTokenS C now st claim checkHash jar kw else (.ok true, st)

/-- `oidc.AccessTokenResponse.verify`, oidc/__init__.py:341-350 -/
def accessTokenResponseVerifyS (C : Crypto) (now : Int) (st : Dict) (jar : JarArg C) (kw : Dict) : SOut :=
  match responseVerify oidc_AccessTokenResponse st with
  | .error e => (.error e, st)
  | .ok () => verifyIfPresentS C now (clearVerifiedClaims st) "id_token" false jar kw

/-- `oidc.AuthorizationResponse.verify`, oidc/__init__.py:373-387 -/
def authzResponseVerifyS (C : Crypto) (now : Int) (st : Dict) (jar : JarArg C) (kw : Dict) : SOut :=
  match oauth2AuthzResponseVerify oidc_AuthorizationResponse st kw with
  | .error e => (.error e, st)
  | .ok () =>
    match forMe (clearVerifiedClaims st) kw with
    | .error e => (.error e, clearVerifiedClaims st)
    | .ok false => (.ok false, clearVerifiedClaims st)
    | .ok true => verifyIfPresentS C now (clearVerifiedClaims st) "id_token" true jar kw

/-- `MessageWithIdToken.verify`, oidc/__init__.py:838-844: the slots are not cleared -/
def messageWithIdTokenVerifyS (C : Crypto) (now : Int) (sch : Schema) (st : Dict) (jar : JarArg C) (kw : Dict) : SOut :=
  match besideIdTokenVerify sch st with
  | .error e => (.error e, st)
  | .ok () => verifyIfPresentS C now st "id_token" false jar kw

/-- `oidc.AuthorizationRequest.verify`, oidc/__init__.py:433-513.  In the treatment of the request object nothing raises
once the message is being changed (469-478); a hint that cannot be read leaves the message as it is. -/
def authzRequestVerifyS (C : Crypto) (st : Dict) (jar : JarArg C) (kw : Dict) : SOut :=
  match verifyBase oidc_AuthorizationRequest st with
  | .error e => (.error e, st)
  | .ok () =>
    match authzArgs (clearVerifiedClaims st) kw with
    | .error e => (.error e, clearVerifiedClaims st)
    | .ok args =>
      match requestStep C (clearVerifiedClaims st) jar args with
      | .error e => (.error e, clearVerifiedClaims st)
      | .ok (st₁, jar₁) =>
        match hintStep C st₁ jar₁ args with
        | .error e => (.error e, st₁)
        | .ok st₂ => ((authzRequestConds st₂ kw).map (fun _ => true), st₂)

/-- session.py:64-76 -/
def hintVerifyS (C : Crypto) (now : Int) (st : Dict) (jar : JarArg C) (kw : Dict) : SOut :=
  match getR st "id_token_hint" with
  | .error e => (.error e, st)
  | .ok t =>
    match fromJwt C oidc_IdToken (strOf C t) jar (pick idTokenVerifyArgs kw) with
    | .error e => (.error e, st)
    | .ok m =>
      match verifyIdTokenS C now st "id_token_hint" false (some m.jar) kw with
      | (.error e, st') => (.error e, st')
      | (.ok false, st') => (.ok false, st')
      | (.ok true, st') => (.ok true, dset st' "__verified_id_token_hint" (.msg oidc_IdToken.cls m.st))

/-- `EndSessionRequest.verify`, session.py:56-78 -/
def endSessionVerifyS (C : Crypto) (now : Int) (st : Dict) (jar : JarArg C) (kw : Dict) : SOut :=
  match verifyBase session_EndSessionRequest st with
  | .error e => (.error e, st)
  | .ok () =>
    if dhas (clearVerifiedClaims st) "id_token_hint" then hintVerifyS C now (clearVerifiedClaims st) jar kw
    else if dhas (clearVerifiedClaims st) "post_logout_redirect_uri" then (.ok false, clearVerifiedClaims st)
    else (.ok true, clearVerifiedClaims st)

/-- `BackChannelLogoutRequest.verify`, session.py:170-186: the slot is not cleared -/
def backChannelVerifyS (C : Crypto) (now : Int) (st : Dict) (jar : JarArg C) (kw : Dict) : SOut :=
  match verifyBase session_BackChannelLogoutRequest st with
  | .error e => (.error e, st)
  | .ok () =>
    match getR st "logout_token" with
    | .error e => (.error e, st)
    | .ok t =>
      match fromJwt C session_LogoutToken (strOf C t) jar (pick idTokenVerifyArgs kw) with
      | .error e => (.error e, st)
      | .ok m =>
        match logoutTokenVerify now m.st m.header kw with
        | .error e => (.error e, st)
        | .ok () =>
          ((formatOk (.msg session_LogoutToken.cls m.st)).map (fun _ => true),
            dset st "__verified_logout_token" (.msg session_LogoutToken.cls m.st))

/-- The loop at oidc/__init__.py:646-658 over the pairs of parameters: a round that raises has stored nothing, the
rounds before it have. -/
def pairStepsS (pairs : List (String × String)) (st : Dict) : Res Unit × Dict :=
  match pairs with
  | [] => (.ok (), st)
  | (alg, enc) :: rest =>
    match pairStep st alg enc with
    | .error e => (.error e, st)
    | .ok st' => pairStepsS rest st'

/-- `RegistrationRequest.verify`, oidc/__init__.py:639-664 -/
def registrationRequestVerifyS (st : Dict) : SOut :=
  match verifyBase oidc_RegistrationRequest st with
  | .error e => (.error e, st)
  | .ok () =>
    match initiateLogin st with
    | .error e => (.error e, st)
    | .ok () =>
      match pairStepsS
        [("request_object_encryption_alg", "request_object_encryption_enc"),
         ("id_token_encrypted_response_alg", "id_token_encrypted_response_enc"),
         ("userinfo_encrypted_response_alg", "userinfo_encrypted_response_enc")] st with
      | (.error e, st') => (.error e, st')
      | (.ok (), st') => ((authSigningAlg st').map (fun _ => true), st')

end Verif
