import Verif.Props.Required
import Verif.Props.RequestObject

/-!
# C125, C126: what the standards make mandatory, and the values they enumerate

The tables are taken from the standards, not from the class bodies.
-/

namespace Verif

/-- Parameters without a condition marked REQUIRED, by message. -/
def mandatory : List (Schema × List String) := [
  -- RFC 6749 section 4.1.1
  (oauth2_AuthorizationRequest, ["response_type", "client_id"]),
  -- RFC 6749 section 4.1.2
  (oauth2_AuthorizationResponse, ["code"]),
  -- RFC 6749 section 4.1.3 (`redirect_uri` when it was in the authorization request)
  (oauth2_AccessTokenRequest, ["grant_type", "code"]),
  -- RFC 6749 section 4.4.2
  (oauth2_CCAccessTokenRequest, ["grant_type"]),
  -- RFC 6749 section 5.1
  (oauth2_AccessTokenResponse, ["access_token", "token_type"]),
  -- RFC 6749 section 6
  (oauth2_RefreshAccessTokenRequest, ["grant_type", "refresh_token"]),
  -- RFC 8414 section 2
  (oauth2_ASConfigurationResponse, ["issuer", "response_types_supported"]),
  -- RFC 7662 sections 2.1 and 2.2
  (oauth2_TokenIntrospectionRequest, ["token"]),
  (oauth2_TokenIntrospectionResponse, ["active"]),
  -- RFC 8693 sections 2.1 and 2.2.1
  (oauth2_TokenExchangeRequest, ["grant_type", "subject_token", "subject_token_type"]),
  (oauth2_TokenExchangeResponse, ["access_token", "issued_token_type", "token_type"]),
  -- RFC 8417 section 2.2
  (oauth2_SecurityEventToken, ["iss", "iat", "jti"]),
  -- OpenID Connect Core sections 3.1.2.1, 3.1.3.1, 3.1.3.3, 12.1, 2, 5.3.2
  (oidc_AuthorizationRequest, ["scope", "response_type", "client_id", "redirect_uri"]),
  (oidc_AccessTokenRequest, ["grant_type", "code", "redirect_uri"]),
  (oidc_AccessTokenResponse, ["access_token", "token_type"]),
  (oidc_RefreshAccessTokenRequest, ["grant_type", "refresh_token"]),
  (oidc_IdToken, ["iss", "sub", "aud", "exp", "iat"]),
  (oidc_OpenIDSchema, ["sub"]),
  -- OpenID Connect Core section 9
  (oidc_AuthnToken, ["iss", "sub", "aud", "jti", "exp"]),
  -- OpenID Connect Dynamic Client Registration sections 2 and 3.2
  (oidc_RegistrationRequest, ["redirect_uris"]),
  (oidc_RegistrationResponse, ["client_id"]),
  -- OpenID Connect Discovery sections 3 and 2
  (oidc_ProviderConfigurationResponse, ["issuer", "authorization_endpoint", "jwks_uri", "response_types_supported",
    "subject_types_supported", "id_token_signing_alg_values_supported"]),
  (oidc_DiscoveryRequest, ["resource", "rel"]),
  (oidc_WebFingerRequest, ["resource"]),
  -- RFC 7033 section 4.4.4.1
  (oidc_Link, ["rel"]),
  -- RFC 8628 sections 3.1 and 3.2
  (device_AuthorizationRequest, ["client_id"]),
  (device_AuthorizationResponse, ["device_code", "user_code", "verification_uri", "expires_in"]),
  -- OpenID Connect Back-Channel Logout sections 2.4 and 2.5
  (session_LogoutToken, ["iss", "aud", "iat", "jti", "events"]),
  (session_BackChannelLogoutRequest, ["logout_token"])]

theorem mandatory_required : ∀ e ∈ mandatory, ∀ p ∈ e.2, p ∈ requiredParameters e.1 ∧ p ≠ "*" := by
  decide +kernel

theorem required_given {sch : Schema} {st : Dict} (h : verifyBase sch st = .ok ()) {p : String}
    (hp : p ∈ requiredParameters sch) (hs : p ≠ "*") :
    ∃ v, dget st p = some v ∧ (v.truthy = true ∨ ∃ sp, (p, sp) ∈ sch.params ∧ sp.vtyp = .single .bool) := by
  obtain ⟨sp, h1, h2⟩ := (mem_required sch p).1 hp
  obtain ⟨v, e, hg⟩ := ((C04_verify_iff sch st).1 h p sp h1 hs).1 h2
  refine ⟨v, e, ?_⟩
  rcases hg with hg | hg
  · exact .inl hg
  · exact .inr ⟨sp, h1, hg⟩

/-- C125: a verified message has every parameter that its standard makes mandatory, with a value that is not empty; the
truth value `active` may be false. -/
theorem C125_insisted : ∀ e ∈ mandatory, ∀ st, verifyBase e.1 st = .ok () → ∀ p ∈ e.2, ∃ v, dget st p = some v ∧
    (v.truthy = true ∨ p = "active") := by
  intro e he st h p hp
  obtain ⟨h1, h2⟩ := mandatory_required e he p hp
  obtain ⟨v, hv, ht | ⟨sp, hs, hb⟩⟩ := required_given h h1 h2
  · exact ⟨v, hv, .inl ht⟩
  · refine ⟨v, hv, .inr ?_⟩
    have key : ∀ e ∈ mandatory, ∀ p ∈ e.2, ∀ q ∈ e.1.params, q.1 = p →
        (match q.2.vtyp with | .single .bool => true | _ => false) = true → p = "active" := by decide +kernel
    exact key e he p hp (p, sp) hs rfl (by rw [hb])

/-- C125: and none of these messages is written as a form without it. -/
theorem C125_written (env : SerEnv) : ∀ e ∈ mandatory, ∀ st, ∀ p ∈ e.2, dget st p = none →
    ∃ x, toUrlencoded env e.1 st = .error x := by
  intro e he st p hp hn
  exact C109_form_refused env e.1 st (mandatory_required e he p hp).1 hn

example : mandatory.length = 29 ∧ ∃ e ∈ mandatory, verifyBase e.1 [("response_type", .list [.str "code"]),
    ("client_id", .str "c")] = .ok () := by
  decide +kernel

/-- C125: the methods of the classes that have their own accept nothing that the common verification refuses, so the
theorems above and below hold for them.  The classes of `mandatory` that are not named here inherit the common one or
`ResponseMessage.verify`. -/
theorem C125_methods (C : Crypto) (now : Int) (st kw : Dict) (jar : JarArg C) :
    (∀ sch, responseVerify sch st = .ok () → verifyBase sch st = .ok ()) ∧
    (∀ sch, oauth2AuthzResponseVerify sch st kw = .ok () → verifyBase sch st = .ok ()) ∧
    (∀ sch b, openIdSchemaVerify sch st = .ok b → verifyBase sch st = .ok ()) ∧
    (idTokenVerify now st kw = .ok () → verifyBase oidc_IdToken st = .ok ()) ∧
    (∀ r, accessTokenResponseVerify C now st jar kw = .ok r → verifyBase oidc_AccessTokenResponse st = .ok ()) ∧
    (∀ r, authzResponseVerify C now st jar kw = .ok r → verifyBase oidc_AuthorizationResponse st = .ok ()) ∧
    (∀ sch r, messageWithIdTokenVerify C now sch st jar kw = .ok r → verifyBase sch st = .ok ()) ∧
    (∀ r, authzRequestVerify C st jar kw = .ok r → verifyBase oidc_AuthorizationRequest st = .ok ()) ∧
    (∀ r, registrationRequestVerify st = .ok r → verifyBase oidc_RegistrationRequest st = .ok ()) ∧
    (registrationResponseVerify st = .ok () → verifyBase oidc_RegistrationResponse st = .ok ()) ∧
    (∀ ok, providerConfigVerify ok st kw = .ok () → verifyBase oidc_ProviderConfigurationResponse st = .ok ()) ∧
    (∀ sch, jsonWebTokenVerify now sch st kw = .ok () → verifyBase sch st = .ok ()) ∧
    (∀ hdr, logoutTokenVerify now st hdr kw = .ok () → verifyBase session_LogoutToken st = .ok ()) ∧
    (∀ r, backChannelVerify C now st jar kw = .ok r → verifyBase session_BackChannelLogoutRequest st = .ok ()) ∧
    (deviceTokenRequestVerify st = .ok () → verifyBase device_AccessTokenRequest st = .ok ()) := by
  have base : ∀ {β} {x : Res Unit} {f : Unit → Res β} {r}, (x >>= f) = .ok r → x = .ok () := by
    intro β x f r h
    obtain ⟨u, hu, _⟩ := bind_ok.1 h
    exact hu
  have resp : ∀ sch, responseVerify sch st = .ok () → verifyBase sch st = .ok () := fun sch h => base h
  have schema : ∀ sch b, openIdSchemaVerify sch st = .ok b → verifyBase sch st = .ok () := fun sch b h => resp _ (base h)
  have beside : ∀ sch, besideIdTokenVerify sch st = .ok () → verifyBase sch st = .ok () := by
    intro sch h
    unfold besideIdTokenVerify at h
    split at h
    · exact resp _ h
    · exact h
  refine ⟨resp, fun sch h => resp _ (base h), schema, ?_, fun r h => resp _ (base h), fun r h => resp _ (base (base h)),
    fun sch r h => beside _ (base h), fun r h => base h, fun r h => base h, fun h => resp _ (base h), fun _ h => resp _ (base h),
    fun _ h => base h, fun _ h => base h, fun _ h => base h, fun h => base h⟩
  intro h
  obtain ⟨b, hb, _⟩ := bind_ok.1 h
  exact schema _ b hb

/-- C36: the methods of all response classes refuse what `ResponseMessage.verify` refuses, so no error description with other
characters is accepted by any of them. -/
theorem C36_methods (C : Crypto) (now : Int) (st kw : Dict) (jar : JarArg C) (hd : ¬ DescriptionOk st) :
    (∀ sch, responseVerify sch st ≠ .ok ()) ∧ (∀ sch, oauth2AuthzResponseVerify sch st kw ≠ .ok ()) ∧
    (∀ sch b, openIdSchemaVerify sch st ≠ .ok b) ∧ idTokenVerify now st kw ≠ .ok () ∧
    (∀ r, accessTokenResponseVerify C now st jar kw ≠ .ok r) ∧ (∀ r, authzResponseVerify C now st jar kw ≠ .ok r) ∧
    (∀ r, messageWithIdTokenVerify C now session_RefreshSessionResponse st jar kw ≠ .ok r) ∧
    registrationResponseVerify st ≠ .ok () ∧ (∀ ok, providerConfigVerify ok st kw ≠ .ok ()) := by
  have base : ∀ {β} {x : Res Unit} {f : Unit → Res β} {r}, (x >>= f) = .ok r → x = .ok () := by
    intro β x f r h
    obtain ⟨u, hu, _⟩ := bind_ok.1 h
    exact hu
  have resp : ∀ sch, responseVerify sch st ≠ .ok () := fun sch h => hd ((C36_iff sch st).1 h).2
  have schema : ∀ sch b, openIdSchemaVerify sch st ≠ .ok b := fun sch b h => resp _ (base h)
  refine ⟨resp, fun sch h => resp _ (base h), schema, ?_, fun r h => resp _ (base h), fun r h => resp _ (base (base h)), ?_,
    fun h => resp _ (base h), fun _ h => resp _ (base h)⟩
  · intro h
    obtain ⟨b, hb, _⟩ := bind_ok.1 h
    exact schema _ b hb
  · intro r h
    have h := base h
    unfold besideIdTokenVerify at h
    rw [if_pos (by decide)] at h
    exact resp _ h

example : ¬ DescriptionOk [("error_description", .str "code 7")] := by
  intro h
  have := (errorDescription_iff _).2 h
  revert this
  decide

/-- Parameters that the class insists on without the standard doing so: `redirect_uri` is needed only when the request had
one (RFC 6749 section 4.1.3), `grant_types_supported` is optional (RFC 8414 section 2), `redirect_uris` need not be repeated in a
registration response, `rel` is optional in WebFinger (RFC 7033 section 4.1). -/
def insistedToo : List (Schema × List String) := [
  (oauth2_AccessTokenRequest, ["redirect_uri"]),
  (oauth2_ASConfigurationResponse, ["grant_types_supported"]),
  (oidc_RegistrationResponse, ["redirect_uris"]),
  (oidc_WebFingerRequest, ["rel"])]

theorem required_exactly : ∀ e ∈ mandatory, ∀ p ∈ requiredParameters e.1, p ∈ e.2 ∨
    ∃ x ∈ insistedToo, x.1.cls = e.1.cls ∧ p ∈ x.2 := by
  decide +kernel

/-- C125: nothing else is missed: with the mandatory parameters, and those of `insistedToo`, no class complains about a
missing parameter. -/
theorem C125_no_more : ∀ e ∈ mandatory, ∀ st, (∀ p ∈ e.2, ∃ v, dget st p = some v ∧ v.truthy = true) →
    (∀ x ∈ insistedToo, x.1.cls = e.1.cls → ∀ p ∈ x.2, ∃ v, dget st p = some v ∧ v.truthy = true) →
    verifyBase e.1 st ≠ .error .missingRequiredAttribute := by
  intro e he st h1 h2 h
  obtain ⟨p, hp, hv⟩ := C109_verify_complains e.1 st h
  have : ∃ v, dget st p = some v ∧ v.truthy = true := by
    rcases required_exactly e he p hp with h | ⟨x, hx, hc, hm⟩
    · exact h1 p h
    · exact h2 x hx hc p hm
  obtain ⟨v, e1, e2⟩ := this
  rw [hv v e1] at e2
  cases e2

/-- and these four are indeed insisted on -/
theorem C125_insisted_too : ∀ e ∈ insistedToo, ∀ st, verifyBase e.1 st = .ok () → ∀ p ∈ e.2, ∃ v, dget st p = some v := by
  intro e he st h p hp
  have key : ∀ e ∈ insistedToo, ∀ p ∈ e.2, p ∈ requiredParameters e.1 ∧ p ≠ "*" := by decide +kernel
  obtain ⟨h1, h2⟩ := key e he p hp
  obtain ⟨v, hv, _⟩ := required_given h h1 h2
  exact ⟨v, hv⟩

/-- Parameters marked REQUIRED that the class leaves optional. -/
def neglected : List (Schema × List String) := [
  -- RFC 6749 section 4.3.2
  (oauth2_ROPCAccessTokenRequest, ["username", "password"]),
  -- RFC 6749 sections 4.1.2.1 and 5.2
  (oauth2_AuthorizationErrorResponse, ["error"]),
  (oauth2_TokenErrorResponse, ["error"]),
  -- OpenID Connect Core section 3.1.3.3
  (oidc_AccessTokenResponse, ["id_token"]),
  -- OpenID Connect Dynamic Client Registration section 3.3
  (oidc_ClientRegistrationErrorResponse, ["error"]),
  -- RFC 8417 section 2.2
  (oauth2_SecurityEventToken, ["events"])]

/-- **C125** as stated is false: the classes above declare a parameter that is mandatory and accept a message without it. -/
theorem C125_counterexample : ∀ e ∈ neglected, (∀ p ∈ e.2, dhas e.1.params p = true) ∧
    ∃ st, verifyBase e.1 st = .ok () ∧ ∀ p ∈ e.2, dget st p = none := by
  intro e he
  have key : ∀ e ∈ neglected, (∀ p ∈ e.2, dhas e.1.params p = true) ∧ verifyBase e.1 (onlyRequired e.1) = .ok () ∧
      ∀ p ∈ e.2, dhas (onlyRequired e.1) p = false := by decide +kernel
  obtain ⟨h1, h2, h3⟩ := key e he
  exact ⟨h1, _, h2, fun p hp => (dhas_eq_false_iff _ p).1 (h3 p hp)⟩

/-- **C125** as stated is false for pushed requests: with no `request` nothing at all is asked for; a JWT-secured request with
a `request_uri` needs nothing else, not even the mandatory `client_id`. -/
theorem C125_counterexample_pushed (C : Crypto) (jar : JarArg C) (kw : Dict) :
    pushedVerify C [] jar kw = .ok [] ∧ jwtSecuredVerify C [("request_uri", .str "u")] jar kw = .ok [("request_uri", .str "u")] :=
  ⟨C98_counterexample_pushed C _ jar kw rfl, C98_counterexample_secured C _ jar kw rfl rfl⟩

/-! ### The other classes -/

/-- The classes without a row in `mandatory`: messages for which the standards mark nothing as REQUIRED in all cases, the
messages of the session management draft and of OpenID Connect for Identity Assurance, and the library's own. -/
def remaining : List (Schema × List String) := [
  (messageSchema, []), (oidc_AddressClaim, []), (oidc_Claims, []), (oidc_ClaimsRequest, []), (oauth2_ResponseMessage, []),
  (oauth2_AuthorizationErrorResponse, []), (oauth2_TokenErrorResponse, []), (oauth2_NoneResponse, []),
  (oauth2_ROPCAccessTokenRequest, ["grant_type"]), (oauth2_ResourceRequest, []),
  (oauth2_JWTSecuredAuthorizationRequest, ["response_type", "client_id"]),
  (oauth2_PushedAuthorizationRequest, ["response_type", "client_id"]),
  (oidc_TokenErrorResponse, []), (oidc_UserInfoRequest, []), (oidc_AuthorizationResponse, []),
  (oidc_AuthorizationErrorResponse, []), (oidc_ClientRegistrationErrorResponse, []),
  (oidc_MessageWithIdToken, ["id_token"]),
  (oidc_OpenIDRequest, ["scope", "response_type", "client_id", "redirect_uri"]),
  (oidc_JsonWebToken, []), (oidc_UserInfoErrorResponse, []), (oidc_JRD, ["links"]), (oidc_ResourceRequest, []),
  (device_AccessTokenRequest, ["grant_type", "code", "redirect_uri"]),
  (session_RefreshSessionRequest, ["id_token", "redirect_url", "state"]),
  (session_RefreshSessionResponse, ["id_token", "state"]),
  (session_CheckSessionRequest, ["id_token"]),
  (session_CheckIDRequest, ["access_token"]),
  (session_EndSessionRequest, []), (session_EndSessionResponse, []),
  (ida_PlaceOfBirth, ["country", "locality"]),
  (ida_IdentityAssuranceClaims, ["sub"]),
  (ida_Verifier, ["organization", "txn"]),
  (ida_Issuer, ["name", "country"]),
  (ida_Document, ["type", "number", "issuer", "date_of_issuance", "date_of_expiry"]),
  (ida_Evidence, []),
  (ida_IdDocument, ["method", "verifier"]),
  (ida_Provider, []),
  (ida_UtilityBill, ["provider"]),
  (ida_QES, ["issuer", "serial_number", "created_at"]),
  (ida_VerificationElement, ["trust_framework"]),
  (ida_VerifiedClaims, []),
  (ida_VerificationElementRequest, ["trust_framework"]),
  (ida_VerifiedClaimsRequest, []), (ida_IDAClaimsRequest, [])]

/-- The two tables cover the library. -/
theorem C125_covered : ∀ sch ∈ allSchemas, ∃ e ∈ mandatory ++ remaining, e.1.cls = sch.cls := by decide +kernel

theorem remaining_exactly : ∀ e ∈ remaining, (∀ p ∈ e.2, p ∈ requiredParameters e.1 ∧ p ≠ "*") ∧
    ∀ p ∈ requiredParameters e.1, p ∈ e.2 := by decide +kernel

/-- C125 for the other classes: they insist on what the table says and on nothing else. -/
theorem C125_remaining : ∀ e ∈ remaining, ∀ st,
    (verifyBase e.1 st = .ok () → ∀ p ∈ e.2, ∃ v, dget st p = some v ∧ v.truthy = true) ∧
    ((∀ p ∈ e.2, ∃ v, dget st p = some v ∧ v.truthy = true) → verifyBase e.1 st ≠ .error .missingRequiredAttribute) := by
  intro e he st
  obtain ⟨h1, h2⟩ := remaining_exactly e he
  refine ⟨fun h p hp => ?_, fun h hv => ?_⟩
  · obtain ⟨v, hv, ht | ⟨sp, hs, hb⟩⟩ := required_given h (h1 p hp).1 (h1 p hp).2
    · exact ⟨v, hv, ht⟩
    · exfalso
      have key : ∀ e ∈ remaining, ∀ p ∈ e.2, ∀ q ∈ e.1.params, q.1 = p → q.2.vtyp.isBool = false := by decide +kernel
      have := key e he p hp (p, sp) hs rfl
      rw [hb] at this
      cases this
  · obtain ⟨p, hp, hv⟩ := C109_verify_complains e.1 st hv
    obtain ⟨v, e1, e2⟩ := h p (h2 p hp)
    rw [hv v e1] at e2
    cases e2

example : remaining.length = 45 ∧ ∃ e ∈ remaining, e.2 ≠ [] ∧ verifyBase e.1 [("country", .str "se"), ("locality", .str "u")] = .ok () := by
  decide +kernel

/-! ## C126 -/

/-- Parameters for which the standard gives the list of values. -/
def enumerated : List (Schema × String × List String) := [
  -- RFC 6749 sections 4.4.2, 6, 5.2
  (oauth2_CCAccessTokenRequest, "grant_type", ["client_credentials"]),
  (oauth2_RefreshAccessTokenRequest, "grant_type", ["refresh_token"]),
  (oauth2_TokenErrorResponse, "error", ["invalid_request", "invalid_client", "invalid_grant", "unauthorized_client",
    "unsupported_grant_type", "invalid_scope"]),
  -- OpenID Connect Core sections 12.1, 3.1.2.1, 9, 3.1.3.4
  (oidc_RefreshAccessTokenRequest, "grant_type", ["refresh_token"]),
  (oidc_AuthorizationRequest, "display", ["page", "popup", "touch", "wap"]),
  (oidc_OpenIDRequest, "display", ["page", "popup", "touch", "wap"]),
  (oidc_AccessTokenRequest, "client_assertion_type", ["urn:ietf:params:oauth:client-assertion-type:jwt-bearer"]),
  (device_AccessTokenRequest, "client_assertion_type", ["urn:ietf:params:oauth:client-assertion-type:jwt-bearer"]),
  (oidc_TokenErrorResponse, "error", ["invalid_request", "invalid_client", "invalid_grant", "unauthorized_client",
    "unsupported_grant_type", "invalid_scope"]),
  -- OpenID Connect Dynamic Client Registration section 2
  (oidc_RegistrationRequest, "application_type", ["native", "web"]),
  (oidc_RegistrationRequest, "subject_type", ["pairwise", "public"])]

/-- the same for lists of values: OpenID Connect Core section 3.1.2.1 -/
def enumeratedLists : List (Schema × String × List String) := [
  (oidc_AuthorizationRequest, "prompt", ["none", "login", "consent", "select_account"]),
  (oidc_OpenIDRequest, "prompt", ["none", "login", "consent", "select_account"])]

/-- the declared type of `p` is `list` of strings or a string -/
def declaredAs (sch : Schema) (p : String) (list : Bool) : Bool :=
  sch.params.all (fun q => q.1 != p || (match q.2.vtyp with
    | .single .str => !list
    | .list .str => list
    | _ => false))

/-- the class allows the given values for `p` -/
def allows (sch : Schema) (p : String) (vs : List String) : Bool :=
  match dget sch.allowed p with
  | some av => vs.all (fun s => Val.memList (.str s) av)
  | none => true

/-- the class allows no others -/
def allowsOnly (sch : Schema) (p : String) (vs : List String) : Bool :=
  match dget sch.allowed p with
  | some av => av.all (fun v => match v with | .str s => vs.contains s | _ => false)
  | none => false

theorem oneOf_str {s : String} {av : List Val} {vs : List String}
    (h : av.all (fun v => match v with | .str s => vs.contains s | _ => false) = true) (ho : OneOf (.str s) av) : s ∈ vs := by
  obtain ⟨w, hw, he⟩ := ho
  have := List.all_eq_true.1 h w hw
  cases w <;> simp at this
  rename_i t
  have : s = t := by simpa [Val.eq] using he
  rwa [this]

theorem only_single {sch : Schema} {p : String} {vs : List String} (h1 : declaredAs sch p false = true)
    (h2 : allowsOnly sch p vs = true) (h3 : dhas sch.params p = true) (h4 : p ≠ "*") {st : Dict}
    (h : verifyBase sch st = .ok ()) {s : String} (hs : dget st p = some (.str s)) (hne : s ≠ "") : s ∈ vs := by
  obtain ⟨sp, hd⟩ : ∃ sp, dget sch.params p = some sp := by
    cases hd : dget sch.params p with
    | none => rw [(dhas_eq_false_iff _ p).2 hd] at h3; cases h3
    | some sp => exact ⟨sp, rfl⟩
  have hm := dget_mem hd
  have hv := ((C04_verify_iff sch st).1 h p sp hm h4).2
  have ht := List.all_eq_true.1 h1 (p, sp) hm
  unfold allowsOnly at h2
  cases ha : dget sch.allowed p with
  | none => rw [ha] at h2; cases h2
  | some av =>
    rw [ha] at h2
    have hr := hv _ av hs (.inl (by simp [Val.truthy, hne])) ha
    unfold RespectsAllowed at hr
    have hk : sp.vtyp = .single .str := by
      simp only [bne_self_eq_false, Bool.false_or] at ht
      split at ht
      · rename_i e; exact e
      · cases ht
      · cases ht
    rw [hk] at hr
    exact oneOf_str h2 hr

theorem only_list {sch : Schema} {p : String} {vs : List String} (h1 : declaredAs sch p true = true)
    (h2 : allowsOnly sch p vs = true) (h3 : dhas sch.params p = true) (h4 : p ≠ "*") {st : Dict}
    (h : verifyBase sch st = .ok ()) {l : List Val} (hs : dget st p = some (.list l)) {s : String} (hm' : Val.str s ∈ l) :
    s ∈ vs := by
  obtain ⟨sp, hd⟩ : ∃ sp, dget sch.params p = some sp := by
    cases hd : dget sch.params p with
    | none => rw [(dhas_eq_false_iff _ p).2 hd] at h3; cases h3
    | some sp => exact ⟨sp, rfl⟩
  have hm := dget_mem hd
  have hv := ((C04_verify_iff sch st).1 h p sp hm h4).2
  have ht := List.all_eq_true.1 h1 (p, sp) hm
  unfold allowsOnly at h2
  cases ha : dget sch.allowed p with
  | none => rw [ha] at h2; cases h2
  | some av =>
    rw [ha] at h2
    have hr := hv _ av hs (.inl (by cases l with | nil => cases hm' | cons => rfl)) ha
    unfold RespectsAllowed at hr
    have hk : sp.vtyp = .list .str := by
      simp only [bne_self_eq_false, Bool.false_or] at ht
      split at ht
      · cases ht
      · rename_i e; exact e
      · cases ht
    rw [hk] at hr
    exact oneOf_str h2 (hr l rfl _ hm')

theorem all_single {sch : Schema} {p : String} {vs : List String} (h1 : declaredAs sch p false = true)
    (h2 : allows sch p vs = true) {st : Dict} (h : verifyBase sch st = .ok ()) {s : String} (hs : s ∈ vs) (hne : s ≠ "") :
    verifyBase sch (dset st p (.str s)) = .ok () := by
  rw [C04_verify_iff] at h ⊢
  intro a sp hm ha
  obtain ⟨q1, q2⟩ := h a sp hm ha
  by_cases hp : a = p
  · subst hp
    rw [dget_dset_same]
    refine ⟨fun _ => ⟨_, rfl, .inl (by simp [Val.truthy, hne])⟩, ?_⟩
    intro v av e _ hav
    cases e
    unfold allows at h2
    rw [hav] at h2
    have ho := (memList_iff _ _).1 (List.all_eq_true.1 h2 s hs)
    have ht := List.all_eq_true.1 h1 (a, sp) hm
    unfold RespectsAllowed
    simp only [bne_self_eq_false, Bool.false_or] at ht
    split at ht
    · rename_i e; rw [e]; exact ho
    · cases ht
    · cases ht
  · rw [dget_dset_ne _ _ (fun h => hp h.symm)]
    exact ⟨q1, q2⟩

theorem all_list {sch : Schema} {p : String} {vs : List String} (h1 : declaredAs sch p true = true)
    (h2 : allows sch p vs = true) {st : Dict} (h : verifyBase sch st = .ok ()) {l : List String} (hs : ∀ s ∈ l, s ∈ vs)
    (hne : l ≠ []) : verifyBase sch (dset st p (.list (l.map .str))) = .ok () := by
  rw [C04_verify_iff] at h ⊢
  intro a sp hm ha
  obtain ⟨q1, q2⟩ := h a sp hm ha
  by_cases hp : a = p
  · subst hp
    rw [dget_dset_same]
    refine ⟨fun _ => ⟨_, rfl, .inl (by cases l with | nil => exact absurd rfl hne | cons => rfl)⟩, ?_⟩
    intro v av e _ hav
    cases e
    unfold allows at h2
    rw [hav] at h2
    have ht := List.all_eq_true.1 h1 (a, sp) hm
    unfold RespectsAllowed
    simp only [bne_self_eq_false, Bool.false_or] at ht
    split at ht
    · cases ht
    · rename_i e
      rw [e]
      intro l' el x hx
      cases el
      obtain ⟨s, hsl, rfl⟩ := List.mem_map.1 hx
      exact (memList_iff _ _).1 (List.all_eq_true.1 h2 s (hs s hsl))
    · cases ht
  · rw [dget_dset_ne _ _ (fun h => hp h.symm)]
    exact ⟨q1, q2⟩

theorem enumerated_facts : ∀ e ∈ enumerated, declaredAs e.1 e.2.1 false = true ∧ allows e.1 e.2.1 e.2.2 = true ∧
    allowsOnly e.1 e.2.1 e.2.2 = true ∧ dhas e.1.params e.2.1 = true ∧ e.2.1 ≠ "*" ∧ "" ∉ e.2.2 := by decide +kernel

theorem enumeratedLists_facts : ∀ e ∈ enumeratedLists, declaredAs e.1 e.2.1 true = true ∧ allows e.1 e.2.1 e.2.2 = true ∧
    allowsOnly e.1 e.2.1 e.2.2 = true ∧ dhas e.1.params e.2.1 = true ∧ e.2.1 ≠ "*" := by decide +kernel

/-- C126: no other text than the enumerated ones gets through. -/
theorem C126_only : ∀ e ∈ enumerated, ∀ st, verifyBase e.1 st = .ok () → ∀ s, dget st e.2.1 = some (.str s) → s ≠ "" →
    s ∈ e.2.2 := by
  intro e he st h s hs hne
  obtain ⟨a, _, c, d, f, _⟩ := enumerated_facts e he
  exact only_single a c d f h hs hne

/-- C126: each of the enumerated values is as good as any other: put into a message that is accepted, it is accepted. -/
theorem C126_all : ∀ e ∈ enumerated, ∀ st, verifyBase e.1 st = .ok () → ∀ s ∈ e.2.2,
    verifyBase e.1 (dset st e.2.1 (.str s)) = .ok () := by
  intro e he st h s hs
  obtain ⟨a, b, _, _, _, f⟩ := enumerated_facts e he
  exact all_single a b h hs (fun h0 => f (h0 ▸ hs))

/-- C126 for lists. -/
theorem C126_lists : ∀ e ∈ enumeratedLists, ∀ st, verifyBase e.1 st = .ok () →
    (∀ l s, dget st e.2.1 = some (.list l) → Val.str s ∈ l → s ∈ e.2.2) ∧
    (∀ l : List String, (∀ s ∈ l, s ∈ e.2.2) → l ≠ [] → verifyBase e.1 (dset st e.2.1 (.list (l.map .str))) = .ok ()) := by
  intro e he st h
  obtain ⟨a, b, c, d, f⟩ := enumeratedLists_facts e he
  exact ⟨fun l s h1 h2 => only_list a c d f h h1 h2, fun l h1 h2 => all_list a b h h1 h2⟩

example : ∀ e ∈ enumerated ++ enumeratedLists, verifyBase e.1 (onlyRequired e.1) = .ok () := by decide +kernel

/-! ### Where the library differs from the standards -/

/-- the error codes of OpenID Connect Core section 3.1.2.6 and RFC 6749 section 4.1.2.1 -/
def authzErrors : List String := ["invalid_request", "unauthorized_client", "access_denied",
  "unsupported_response_type", "invalid_scope", "server_error", "temporarily_unavailable", "interaction_required",
  "login_required", "account_selection_required", "consent_required", "invalid_request_uri", "invalid_request_object",
  "request_not_supported", "request_uri_not_supported", "registration_not_supported"]

/-- **C126** as stated is false: an error response with the code `account_selection_required` is refused.  Instead of it
the library knows `session_selection_required`. -/
theorem C126_counterexample_error (st : Dict) (h : dget st "error" = some (.str "account_selection_required")) :
    "account_selection_required" ∈ authzErrors ∧ verifyBase oidc_AuthorizationErrorResponse st ≠ .ok () := by
  refine ⟨by decide +kernel, ?_⟩
  intro hv
  have := only_single (sch := oidc_AuthorizationErrorResponse) (p := "error")
    (vs := "session_selection_required" :: authzErrors.erase "account_selection_required") (by decide +kernel)
    (by decide +kernel) (by decide +kernel) (by decide) hv h (by decide)
  revert this
  decide +kernel

/-- All the other codes are accepted, and besides them only `session_selection_required`. -/
theorem C126_errors (st : Dict) (h : verifyBase oidc_AuthorizationErrorResponse st = .ok ()) :
    (∀ s, dget st "error" = some (.str s) → s ≠ "" → s ∈ authzErrors ∨ s = "session_selection_required") ∧
    ∀ s ∈ authzErrors, s ≠ "account_selection_required" →
      verifyBase oidc_AuthorizationErrorResponse (dset st "error" (.str s)) = .ok () := by
  refine ⟨fun s h1 h2 => ?_, fun s h1 h2 => ?_⟩
  · have := only_single (sch := oidc_AuthorizationErrorResponse) (p := "error")
      (vs := "session_selection_required" :: authzErrors) (by decide +kernel) (by decide +kernel) (by decide +kernel)
      (by decide) h h1 h2
    rcases List.mem_cons.1 this with e | e
    · exact .inr e
    · exact .inl e
  · refine all_single (vs := authzErrors.erase "account_selection_required") (by decide +kernel) (by decide +kernel) h ?_ ?_
    · exact (List.mem_erase_of_ne h2).2 h1
    · intro e; subst e; revert h1; decide +kernel

/-- **C126** as stated is false: values the standard fixes and the class does not check.  RFC 6749 sections 4.1.3 and
4.3.2, RFC 8693 section 2.1, OpenID Connect Dynamic Client Registration section 3.2.1. -/
def unchecked : List (Schema × String × List String) := [
  (oauth2_AccessTokenRequest, "grant_type", ["authorization_code"]),
  (oidc_AccessTokenRequest, "grant_type", ["authorization_code"]),
  (oauth2_ROPCAccessTokenRequest, "grant_type", ["password"]),
  (oauth2_TokenExchangeRequest, "grant_type", ["urn:ietf:params:oauth:grant-type:token-exchange"]),
  (oidc_RegistrationResponse, "application_type", ["native", "web"]),
  (oidc_RegistrationResponse, "subject_type", ["pairwise", "public"])]

/-- Any text whatsoever is accepted for them. -/
theorem C126_counterexample_unchecked : ∀ e ∈ unchecked, ∀ st, verifyBase e.1 st = .ok () → ∀ s, s ≠ "" →
    verifyBase e.1 (dset st e.2.1 (.str s)) = .ok () := by
  intro e he st h s hne
  have key : ∀ e ∈ unchecked, declaredAs e.1 e.2.1 false = true ∧ dhas e.1.allowed e.2.1 = false := by decide +kernel
  obtain ⟨h1, h2⟩ := key e he
  refine all_single (vs := [s]) h1 ?_ h (List.mem_cons_self ..) hne
  unfold allows
  rw [(dhas_eq_false_iff _ _).1 h2]

example : ∀ e ∈ unchecked, verifyBase e.1 (onlyRequired e.1) = .ok () := by decide +kernel

end Verif
