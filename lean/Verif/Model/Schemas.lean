import Verif.Model.Deser

/-!
# The message classes of the library

Written by `tools/gen_schemas.py` from the class bodies: `c_param`, `c_default` and `c_allowed_values` with
inheritance resolved, in the order of the dict literals.  The `error` list that
`oidc.AuthorizationErrorResponse` extends is the same list object as that of
`oauth2.AuthorizationErrorResponse` (oidc/__init__.py:390-401), so both classes have the extended list.
-/

namespace Verif

/-- `AddressClaim`, oidc/__init__.py:529-537 -/
def oidc_AddressClaim : Schema where
  cls := ⟨"oidc", "AddressClaim"⟩
  params := [("formatted", singleOptionalString),
    ("street_address", singleOptionalString),
    ("locality", singleOptionalString),
    ("region", singleOptionalString),
    ("postal_code", singleOptionalString),
    ("country", singleOptionalString)]

/-- `Claims`, oidc/__init__.py:1135-1137 -/
def oidc_Claims : Schema where
  cls := ⟨"oidc", "Claims"⟩
  params := []

/-- `ClaimsRequest`, oidc/__init__.py:1140-1144 -/
def oidc_ClaimsRequest : Schema where
  cls := ⟨"oidc", "ClaimsRequest"⟩
  params := [("userinfo", ⟨.single messageTy, false, some .claims, some (deserializeFromOneOf oidc_Claims), false⟩),
    ("id_token", ⟨.single messageTy, false, some .claims, some (deserializeFromOneOf oidc_Claims), false⟩)]

/-- `Link`, oidc/__init__.py:1045-1055 -/
def oidc_Link : Schema where
  cls := ⟨"oidc", "Link"⟩
  params := [("rel", singleRequiredString),
    ("type", singleOptionalString),
    ("href", singleOptionalString),
    ("titles", ⟨.single .dict, false, some .msgJson, some dictDeser, false⟩),
    ("properties", ⟨.single .dict, false, some .msgJson, some dictDeser, false⟩)]

/-- `ResponseMessage`, oauth2/__init__.py:34-51 -/
def oauth2_ResponseMessage : Schema where
  cls := ⟨"oauth2", "ResponseMessage"⟩
  params := [("error", singleOptionalString),
    ("error_description", singleOptionalString),
    ("error_uri", singleOptionalString)]

/-- `AuthorizationErrorResponse`, oauth2/__init__.py:54-68 -/
def oauth2_AuthorizationErrorResponse : Schema where
  cls := ⟨"oauth2", "AuthorizationErrorResponse"⟩
  params := [("error", singleOptionalString),
    ("error_description", singleOptionalString),
    ("error_uri", singleOptionalString),
    ("state", singleOptionalString)]
  allowed := [("error", [.str "invalid_request", .str "unauthorized_client", .str "access_denied", .str "unsupported_response_type", .str "invalid_scope", .str "server_error", .str "temporarily_unavailable", .str "interaction_required", .str "login_required", .str "session_selection_required", .str "consent_required", .str "invalid_request_uri", .str "invalid_request_object", .str "registration_not_supported", .str "request_not_supported", .str "request_uri_not_supported"])]

/-- `TokenErrorResponse`, oauth2/__init__.py:71-80 -/
def oauth2_TokenErrorResponse : Schema where
  cls := ⟨"oauth2", "TokenErrorResponse"⟩
  params := [("error", singleOptionalString),
    ("error_description", singleOptionalString),
    ("error_uri", singleOptionalString)]
  allowed := [("error", [.str "invalid_request", .str "invalid_client", .str "invalid_grant", .str "unauthorized_client", .str "unsupported_grant_type", .str "invalid_scope"])]

/-- `AccessTokenRequest`, oauth2/__init__.py:83-95 -/
def oauth2_AccessTokenRequest : Schema where
  cls := ⟨"oauth2", "AccessTokenRequest"⟩
  params := [("grant_type", singleRequiredString),
    ("code", singleRequiredString),
    ("redirect_uri", singleRequiredString),
    ("client_id", singleOptionalString),
    ("client_secret", singleOptionalString),
    ("state", singleOptionalString)]
  default := [("grant_type", .str "authorization_code")]

/-- `AuthorizationRequest`, oauth2/__init__.py:98-136 -/
def oauth2_AuthorizationRequest : Schema where
  cls := ⟨"oauth2", "AuthorizationRequest"⟩
  params := [("response_type", requiredListOfSpSepStrings),
    ("client_id", singleRequiredString),
    ("scope", optionalListOfSpSepStrings),
    ("redirect_uri", singleOptionalString),
    ("state", singleOptionalString)]

/-- `AuthorizationResponse`, oauth2/__init__.py:139-173 -/
def oauth2_AuthorizationResponse : Schema where
  cls := ⟨"oauth2", "AuthorizationResponse"⟩
  params := [("error", singleOptionalString),
    ("error_description", singleOptionalString),
    ("error_uri", singleOptionalString),
    ("code", singleRequiredString),
    ("state", singleOptionalString),
    ("iss", singleOptionalString),
    ("client_id", singleOptionalString)]

/-- `AccessTokenResponse`, oauth2/__init__.py:176-188 -/
def oauth2_AccessTokenResponse : Schema where
  cls := ⟨"oauth2", "AccessTokenResponse"⟩
  params := [("error", singleOptionalString),
    ("error_description", singleOptionalString),
    ("error_uri", singleOptionalString),
    ("access_token", singleRequiredString),
    ("token_type", singleRequiredString),
    ("expires_in", singleOptionalInt),
    ("refresh_token", singleOptionalString),
    ("scope", optionalListOfSpSepStrings),
    ("state", singleOptionalString)]

/-- `NoneResponse`, oauth2/__init__.py:191-195 -/
def oauth2_NoneResponse : Schema where
  cls := ⟨"oauth2", "NoneResponse"⟩
  params := [("error", singleOptionalString),
    ("error_description", singleOptionalString),
    ("error_uri", singleOptionalString),
    ("state", singleOptionalString)]

/-- `ROPCAccessTokenRequest`, oauth2/__init__.py:198-207 -/
def oauth2_ROPCAccessTokenRequest : Schema where
  cls := ⟨"oauth2", "ROPCAccessTokenRequest"⟩
  params := [("grant_type", singleRequiredString),
    ("username", singleOptionalString),
    ("password", singleOptionalString),
    ("scope", optionalListOfSpSepStrings)]

/-- `CCAccessTokenRequest`, oauth2/__init__.py:210-219 -/
def oauth2_CCAccessTokenRequest : Schema where
  cls := ⟨"oauth2", "CCAccessTokenRequest"⟩
  params := [("grant_type", singleRequiredString),
    ("scope", optionalListOfSpSepStrings)]
  default := [("grant_type", .str "client_credentials")]
  allowed := [("grant_type", [.str "client_credentials"])]

/-- `RefreshAccessTokenRequest`, oauth2/__init__.py:222-234 -/
def oauth2_RefreshAccessTokenRequest : Schema where
  cls := ⟨"oauth2", "RefreshAccessTokenRequest"⟩
  params := [("grant_type", singleRequiredString),
    ("refresh_token", singleRequiredString),
    ("scope", optionalListOfSpSepStrings),
    ("client_id", singleOptionalString),
    ("client_secret", singleOptionalString)]
  default := [("grant_type", .str "refresh_token")]
  allowed := [("grant_type", [.str "refresh_token"])]

/-- `ResourceRequest`, oauth2/__init__.py:237-238 -/
def oauth2_ResourceRequest : Schema where
  cls := ⟨"oauth2", "ResourceRequest"⟩
  params := [("access_token", singleOptionalString)]

/-- `ASConfigurationResponse`, oauth2/__init__.py:241-266 -/
def oauth2_ASConfigurationResponse : Schema where
  cls := ⟨"oauth2", "ASConfigurationResponse"⟩
  params := [("error", singleOptionalString),
    ("error_description", singleOptionalString),
    ("error_uri", singleOptionalString),
    ("issuer", singleRequiredString),
    ("authorization_endpoint", singleOptionalString),
    ("token_endpoint", singleOptionalString),
    ("jwks_uri", singleOptionalString),
    ("registration_endpoint", singleOptionalString),
    ("scopes_supported", optionalListOfStrings),
    ("response_types_supported", requiredListOfStrings),
    ("response_modes_supported", optionalListOfStrings),
    ("grant_types_supported", requiredListOfStrings),
    ("token_endpoint_auth_methods_supported", optionalListOfStrings),
    ("token_endpoint_auth_signing_alg_values_supported", optionalListOfStrings),
    ("service_documentation", singleOptionalString),
    ("ui_locales_supported", optionalListOfStrings),
    ("op_policy_uri", singleOptionalString),
    ("op_tos_uri", singleOptionalString),
    ("revocation_endpoint", singleOptionalString),
    ("introspection_endpoint", singleOptionalString)]
  default := [("version", .str "3.0")]

/-- `TokenIntrospectionRequest`, oauth2/__init__.py:270-278 -/
def oauth2_TokenIntrospectionRequest : Schema where
  cls := ⟨"oauth2", "TokenIntrospectionRequest"⟩
  params := [("token", singleRequiredString),
    ("token_type_hint", singleOptionalString),
    ("client_id", singleOptionalString),
    ("client_assertion_type", singleOptionalString),
    ("client_assertion", singleOptionalString)]

/-- `TokenIntrospectionResponse`, oauth2/__init__.py:281-295 -/
def oauth2_TokenIntrospectionResponse : Schema where
  cls := ⟨"oauth2", "TokenIntrospectionResponse"⟩
  params := [("active", singleRequiredBoolean),
    ("scope", optionalListOfSpSepStrings),
    ("client_id", singleOptionalString),
    ("username", singleOptionalString),
    ("token_type", singleOptionalString),
    ("exp", singleOptionalInt),
    ("iat", singleOptionalInt),
    ("nbf", singleOptionalInt),
    ("sub", singleOptionalString),
    ("aud", optionalListOfStrings),
    ("iss", singleOptionalString),
    ("jti", singleOptionalString)]

/-- `TokenExchangeRequest`, oauth2/__init__.py:299-310 -/
def oauth2_TokenExchangeRequest : Schema where
  cls := ⟨"oauth2", "TokenExchangeRequest"⟩
  params := [("grant_type", singleRequiredString),
    ("resource", optionalListOfStrings),
    ("audience", optionalListOfStrings),
    ("scope", optionalListOfSpSepStrings),
    ("requested_token_type", singleOptionalString),
    ("subject_token", singleRequiredString),
    ("subject_token_type", singleRequiredString),
    ("actor_token", singleOptionalString),
    ("actor_token_type", singleOptionalString)]

/-- `TokenExchangeResponse`, oauth2/__init__.py:313-321 -/
def oauth2_TokenExchangeResponse : Schema where
  cls := ⟨"oauth2", "TokenExchangeResponse"⟩
  params := [("access_token", singleRequiredString),
    ("issued_token_type", singleRequiredString),
    ("token_type", singleRequiredString),
    ("expires_in", singleOptionalInt),
    ("refresh_token", singleOptionalString),
    ("scope", optionalListOfSpSepStrings)]

/-- `JWTSecuredAuthorizationRequest`, oauth2/__init__.py:324-351 -/
def oauth2_JWTSecuredAuthorizationRequest : Schema where
  cls := ⟨"oauth2", "JWTSecuredAuthorizationRequest"⟩
  params := [("response_type", requiredListOfSpSepStrings),
    ("client_id", singleRequiredString),
    ("scope", optionalListOfSpSepStrings),
    ("redirect_uri", singleOptionalString),
    ("state", singleOptionalString),
    ("request", singleOptionalString),
    ("request_uri", singleOptionalString)]

/-- `PushedAuthorizationRequest`, oauth2/__init__.py:354-378 -/
def oauth2_PushedAuthorizationRequest : Schema where
  cls := ⟨"oauth2", "PushedAuthorizationRequest"⟩
  params := [("response_type", requiredListOfSpSepStrings),
    ("client_id", singleRequiredString),
    ("scope", optionalListOfSpSepStrings),
    ("redirect_uri", singleOptionalString),
    ("state", singleOptionalString),
    ("request", singleOptionalString)]

/-- `SecurityEventToken`, oauth2/__init__.py:381-392 -/
def oauth2_SecurityEventToken : Schema where
  cls := ⟨"oauth2", "SecurityEventToken"⟩
  params := [("iss", singleRequiredString),
    ("iat", singleRequiredInt),
    ("jti", singleRequiredString),
    ("aud", optionalListOfStrings),
    ("sub", singleOptionalString),
    ("exp", singleOptionalInt),
    ("events", singleOptionalJson),
    ("txt", singleOptionalString),
    ("toe", singleOptionalInt)]

/-- `RefreshAccessTokenRequest`, oidc/__init__.py:259-260 -/
def oidc_RefreshAccessTokenRequest : Schema where
  cls := ⟨"oidc", "RefreshAccessTokenRequest"⟩
  params := [("grant_type", singleRequiredString),
    ("refresh_token", singleRequiredString),
    ("scope", optionalListOfSpSepStrings),
    ("client_id", singleOptionalString),
    ("client_secret", singleOptionalString)]
  default := [("grant_type", .str "refresh_token")]
  allowed := [("grant_type", [.str "refresh_token"])]

/-- `TokenErrorResponse`, oidc/__init__.py:263-264 -/
def oidc_TokenErrorResponse : Schema where
  cls := ⟨"oidc", "TokenErrorResponse"⟩
  params := [("error", singleOptionalString),
    ("error_description", singleOptionalString),
    ("error_uri", singleOptionalString)]
  allowed := [("error", [.str "invalid_request", .str "invalid_client", .str "invalid_grant", .str "unauthorized_client", .str "unsupported_grant_type", .str "invalid_scope"])]

/-- `AccessTokenResponse`, oidc/__init__.py:337-350 -/
def oidc_AccessTokenResponse : Schema where
  cls := ⟨"oidc", "AccessTokenResponse"⟩
  params := [("error", singleOptionalString),
    ("error_description", singleOptionalString),
    ("error_uri", singleOptionalString),
    ("access_token", singleRequiredString),
    ("token_type", singleRequiredString),
    ("expires_in", singleOptionalInt),
    ("refresh_token", singleOptionalString),
    ("scope", optionalListOfSpSepStrings),
    ("state", singleOptionalString),
    ("id_token", singleOptionalString)]

/-- `UserInfoRequest`, oidc/__init__.py:353-356 -/
def oidc_UserInfoRequest : Schema where
  cls := ⟨"oidc", "UserInfoRequest"⟩
  params := [("access_token", singleOptionalString)]

/-- `AuthorizationResponse`, oidc/__init__.py:359-387 -/
def oidc_AuthorizationResponse : Schema where
  cls := ⟨"oidc", "AuthorizationResponse"⟩
  params := [("error", singleOptionalString),
    ("error_description", singleOptionalString),
    ("error_uri", singleOptionalString),
    ("code", singleOptionalString),
    ("state", singleOptionalString),
    ("iss", singleOptionalString),
    ("client_id", singleOptionalString),
    ("access_token", singleOptionalString),
    ("token_type", singleOptionalString),
    ("expires_in", singleOptionalInt),
    ("refresh_token", singleOptionalString),
    ("scope", optionalListOfSpSepStrings),
    ("id_token", ⟨.single messageTy, false, some .msg, none, false⟩),
    ("session_state", singleOptionalString)]

/-- `AuthorizationErrorResponse`, oidc/__init__.py:390-401 -/
def oidc_AuthorizationErrorResponse : Schema where
  cls := ⟨"oidc", "AuthorizationErrorResponse"⟩
  params := [("error", singleOptionalString),
    ("error_description", singleOptionalString),
    ("error_uri", singleOptionalString),
    ("state", singleOptionalString)]
  allowed := [("error", [.str "invalid_request", .str "unauthorized_client", .str "access_denied", .str "unsupported_response_type", .str "invalid_scope", .str "server_error", .str "temporarily_unavailable", .str "interaction_required", .str "login_required", .str "session_selection_required", .str "consent_required", .str "invalid_request_uri", .str "invalid_request_object", .str "registration_not_supported", .str "request_not_supported", .str "request_uri_not_supported"])]

/-- `AuthorizationRequest`, oidc/__init__.py:404-513 -/
def oidc_AuthorizationRequest : Schema where
  cls := ⟨"oidc", "AuthorizationRequest"⟩
  params := [("response_type", requiredListOfSpSepStrings),
    ("client_id", singleRequiredString),
    ("scope", requiredListOfSpSepStrings),
    ("redirect_uri", singleRequiredString),
    ("state", singleOptionalString),
    ("nonce", singleOptionalString),
    ("display", singleOptionalString),
    ("prompt", optionalListOfSpSepStrings),
    ("max_age", singleOptionalInt),
    ("ui_locales", optionalListOfSpSepStrings),
    ("claims_locales", optionalListOfSpSepStrings),
    ("id_token_hint", singleOptionalString),
    ("login_hint", singleOptionalString),
    ("acr_values", optionalListOfSpSepStrings),
    ("claims", ⟨.single messageTy, false, some .msgJson, some (jsonMsgDeser oidc_ClaimsRequest), false⟩),
    ("registration", singleOptionalJson),
    ("request", singleOptionalString),
    ("request_uri", singleOptionalString),
    ("response_mode", singleOptionalString)]
  allowed := [("display", [.str "page", .str "popup", .str "touch", .str "wap"]),
    ("prompt", [.str "none", .str "login", .str "consent", .str "select_account"])]

/-- `AccessTokenRequest`, oidc/__init__.py:516-526 -/
def oidc_AccessTokenRequest : Schema where
  cls := ⟨"oidc", "AccessTokenRequest"⟩
  params := [("grant_type", singleRequiredString),
    ("code", singleRequiredString),
    ("redirect_uri", singleRequiredString),
    ("client_id", singleOptionalString),
    ("client_secret", singleOptionalString),
    ("state", singleOptionalString),
    ("client_assertion_type", singleOptionalString),
    ("client_assertion", singleOptionalString)]
  default := [("grant_type", .str "authorization_code")]
  allowed := [("client_assertion_type", [.str "urn:ietf:params:oauth:client-assertion-type:jwt-bearer"])]

/-- `OpenIDSchema`, oidc/__init__.py:540-587 -/
def oidc_OpenIDSchema : Schema where
  cls := ⟨"oidc", "OpenIDSchema"⟩
  params := [("error", singleOptionalString),
    ("error_description", singleOptionalString),
    ("error_uri", singleOptionalString),
    ("sub", singleRequiredString),
    ("name", singleOptionalString),
    ("given_name", singleOptionalString),
    ("family_name", singleOptionalString),
    ("middle_name", singleOptionalString),
    ("nickname", singleOptionalString),
    ("preferred_username", singleOptionalString),
    ("profile", singleOptionalString),
    ("picture", singleOptionalString),
    ("website", singleOptionalString),
    ("email", singleOptionalString),
    ("email_verified", singleOptionalBoolean),
    ("gender", singleOptionalString),
    ("birthdate", singleOptionalString),
    ("zoneinfo", singleOptionalString),
    ("locale", singleOptionalString),
    ("phone_number", singleOptionalString),
    ("phone_number_verified", singleOptionalBoolean),
    ("address", ⟨.single messageTy, false, some .msg, some (deserializeFromOneOf oidc_AddressClaim), false⟩),
    ("updated_at", singleOptionalInt),
    ("_claim_names", optionalMessage),
    ("_claim_sources", optionalMessage)]

/-- `RegistrationRequest`, oidc/__init__.py:590-664 -/
def oidc_RegistrationRequest : Schema where
  cls := ⟨"oidc", "RegistrationRequest"⟩
  params := [("redirect_uris", requiredListOfStrings),
    ("response_types", optionalListOfStrings),
    ("grant_types", optionalListOfStrings),
    ("application_type", singleOptionalString),
    ("contacts", optionalListOfStrings),
    ("client_name", singleOptionalString),
    ("logo_uri", singleOptionalString),
    ("client_uri", singleOptionalString),
    ("policy_uri", singleOptionalString),
    ("tos_uri", singleOptionalString),
    ("jwks", ⟨.single .dict, false, some .msgJson, some dictDeser, false⟩),
    ("jwks_uri", singleOptionalString),
    ("sector_identifier_uri", singleOptionalString),
    ("subject_type", singleOptionalString),
    ("id_token_signed_response_alg", singleOptionalString),
    ("id_token_encrypted_response_alg", singleOptionalString),
    ("id_token_encrypted_response_enc", singleOptionalString),
    ("userinfo_signed_response_alg", singleOptionalString),
    ("userinfo_encrypted_response_alg", singleOptionalString),
    ("userinfo_encrypted_response_enc", singleOptionalString),
    ("request_object_signing_alg", singleOptionalString),
    ("request_object_encryption_alg", singleOptionalString),
    ("request_object_encryption_enc", singleOptionalString),
    ("token_endpoint_auth_method", singleOptionalString),
    ("token_endpoint_auth_signing_alg", singleOptionalString),
    ("default_max_age", singleOptionalInt),
    ("require_auth_time", singleOptionalBoolean),
    ("default_acr_values", optionalListOfStrings),
    ("initiate_login_uri", singleOptionalString),
    ("request_uris", optionalListOfStrings),
    ("post_logout_redirect_uris", optionalListOfStrings),
    ("frontchannel_logout_uri", singleOptionalString),
    ("frontchannel_logout_session_required", singleOptionalBoolean),
    ("backchannel_logout_uri", singleOptionalString),
    ("backchannel_logout_session_supported", singleOptionalBoolean),
    ("federation_type", optionalListOfStrings),
    ("organization_name", singleOptionalString)]
  default := [("application_type", .str "web"), ("response_types", .list [.str "code"])]
  allowed := [("application_type", [.str "native", .str "web"]),
    ("subject_type", [.str "public", .str "pairwise"])]

/-- `RegistrationResponse`, oidc/__init__.py:667-699 -/
def oidc_RegistrationResponse : Schema where
  cls := ⟨"oidc", "RegistrationResponse"⟩
  params := [("error", singleOptionalString),
    ("error_description", singleOptionalString),
    ("error_uri", singleOptionalString),
    ("client_id", singleRequiredString),
    ("client_secret", singleOptionalString),
    ("registration_access_token", singleOptionalString),
    ("registration_client_uri", singleOptionalString),
    ("client_id_issued_at", singleOptionalInt),
    ("client_secret_expires_at", singleOptionalInt),
    ("redirect_uris", requiredListOfStrings),
    ("response_types", optionalListOfStrings),
    ("grant_types", optionalListOfStrings),
    ("application_type", singleOptionalString),
    ("contacts", optionalListOfStrings),
    ("client_name", singleOptionalString),
    ("logo_uri", singleOptionalString),
    ("client_uri", singleOptionalString),
    ("policy_uri", singleOptionalString),
    ("tos_uri", singleOptionalString),
    ("jwks", ⟨.single .dict, false, some .msgJson, some dictDeser, false⟩),
    ("jwks_uri", singleOptionalString),
    ("sector_identifier_uri", singleOptionalString),
    ("subject_type", singleOptionalString),
    ("id_token_signed_response_alg", singleOptionalString),
    ("id_token_encrypted_response_alg", singleOptionalString),
    ("id_token_encrypted_response_enc", singleOptionalString),
    ("userinfo_signed_response_alg", singleOptionalString),
    ("userinfo_encrypted_response_alg", singleOptionalString),
    ("userinfo_encrypted_response_enc", singleOptionalString),
    ("request_object_signing_alg", singleOptionalString),
    ("request_object_encryption_alg", singleOptionalString),
    ("request_object_encryption_enc", singleOptionalString),
    ("token_endpoint_auth_method", singleOptionalString),
    ("token_endpoint_auth_signing_alg", singleOptionalString),
    ("default_max_age", singleOptionalInt),
    ("require_auth_time", singleOptionalBoolean),
    ("default_acr_values", optionalListOfStrings),
    ("initiate_login_uri", singleOptionalString),
    ("request_uris", optionalListOfStrings),
    ("post_logout_redirect_uris", optionalListOfStrings),
    ("frontchannel_logout_uri", singleOptionalString),
    ("frontchannel_logout_session_required", singleOptionalBoolean),
    ("backchannel_logout_uri", singleOptionalString),
    ("backchannel_logout_session_supported", singleOptionalBoolean),
    ("federation_type", optionalListOfStrings),
    ("organization_name", singleOptionalString)]

/-- `ClientRegistrationErrorResponse`, oidc/__init__.py:702-707 -/
def oidc_ClientRegistrationErrorResponse : Schema where
  cls := ⟨"oidc", "ClientRegistrationErrorResponse"⟩
  params := [("error", singleOptionalString),
    ("error_description", singleOptionalString),
    ("error_uri", singleOptionalString)]
  allowed := [("error", [.str "invalid_redirect_uri", .str "invalid_client_metadata", .str "invalid_configuration_parameter"])]

/-- `IdToken`, oidc/__init__.py:710-832 -/
def oidc_IdToken : Schema where
  cls := ⟨"oidc", "IdToken"⟩
  params := [("error", singleOptionalString),
    ("error_description", singleOptionalString),
    ("error_uri", singleOptionalString),
    ("sub", singleRequiredString),
    ("name", singleOptionalString),
    ("given_name", singleOptionalString),
    ("family_name", singleOptionalString),
    ("middle_name", singleOptionalString),
    ("nickname", singleOptionalString),
    ("preferred_username", singleOptionalString),
    ("profile", singleOptionalString),
    ("picture", singleOptionalString),
    ("website", singleOptionalString),
    ("email", singleOptionalString),
    ("email_verified", singleOptionalBoolean),
    ("gender", singleOptionalString),
    ("birthdate", singleOptionalString),
    ("zoneinfo", singleOptionalString),
    ("locale", singleOptionalString),
    ("phone_number", singleOptionalString),
    ("phone_number_verified", singleOptionalBoolean),
    ("address", ⟨.single messageTy, false, some .msg, some (deserializeFromOneOf oidc_AddressClaim), false⟩),
    ("updated_at", singleOptionalInt),
    ("_claim_names", optionalMessage),
    ("_claim_sources", optionalMessage),
    ("iss", singleRequiredString),
    ("aud", requiredListOfStrings),
    ("exp", singleRequiredInt),
    ("iat", singleRequiredInt),
    ("auth_time", singleOptionalInt),
    ("nonce", singleOptionalString),
    ("at_hash", singleOptionalString),
    ("c_hash", singleOptionalString),
    ("acr", singleOptionalString),
    ("amr", optionalListOfStrings),
    ("azp", singleOptionalString),
    ("sub_jwk", singleOptionalString),
    ("sid", singleOptionalString)]

/-- `MessageWithIdToken`, oidc/__init__.py:835-844 -/
def oidc_MessageWithIdToken : Schema where
  cls := ⟨"oidc", "MessageWithIdToken"⟩
  params := [("id_token", ⟨.single messageTy, true, some .msg, none, false⟩)]

/-- `OpenIDRequest`, oidc/__init__.py:847-848 -/
def oidc_OpenIDRequest : Schema where
  cls := ⟨"oidc", "OpenIDRequest"⟩
  params := [("response_type", requiredListOfSpSepStrings),
    ("client_id", singleRequiredString),
    ("scope", requiredListOfSpSepStrings),
    ("redirect_uri", singleRequiredString),
    ("state", singleOptionalString),
    ("nonce", singleOptionalString),
    ("display", singleOptionalString),
    ("prompt", optionalListOfSpSepStrings),
    ("max_age", singleOptionalInt),
    ("ui_locales", optionalListOfSpSepStrings),
    ("claims_locales", optionalListOfSpSepStrings),
    ("id_token_hint", singleOptionalString),
    ("login_hint", singleOptionalString),
    ("acr_values", optionalListOfSpSepStrings),
    ("claims", ⟨.single messageTy, false, some .msgJson, some (jsonMsgDeser oidc_ClaimsRequest), false⟩),
    ("registration", singleOptionalJson),
    ("request", singleOptionalString),
    ("request_uri", singleOptionalString),
    ("response_mode", singleOptionalString)]
  allowed := [("display", [.str "page", .str "popup", .str "touch", .str "wap"]),
    ("prompt", [.str "none", .str "login", .str "consent", .str "select_account"])]

/-- `ProviderConfigurationResponse`, oidc/__init__.py:851-940 -/
def oidc_ProviderConfigurationResponse : Schema where
  cls := ⟨"oidc", "ProviderConfigurationResponse"⟩
  params := [("error", singleOptionalString),
    ("error_description", singleOptionalString),
    ("error_uri", singleOptionalString),
    ("issuer", singleRequiredString),
    ("authorization_endpoint", singleRequiredString),
    ("token_endpoint", singleOptionalString),
    ("userinfo_endpoint", singleOptionalString),
    ("jwks_uri", singleRequiredString),
    ("registration_endpoint", singleOptionalString),
    ("scopes_supported", optionalListOfStrings),
    ("response_types_supported", requiredListOfStrings),
    ("response_modes_supported", optionalListOfStrings),
    ("grant_types_supported", optionalListOfStrings),
    ("acr_values_supported", optionalListOfStrings),
    ("subject_types_supported", requiredListOfStrings),
    ("id_token_signing_alg_values_supported", requiredListOfStrings),
    ("id_token_encryption_alg_values_supported", optionalListOfStrings),
    ("id_token_encryption_enc_values_supported", optionalListOfStrings),
    ("userinfo_signing_alg_values_supported", optionalListOfStrings),
    ("userinfo_encryption_alg_values_supported", optionalListOfStrings),
    ("userinfo_encryption_enc_values_supported", optionalListOfStrings),
    ("request_object_signing_alg_values_supported", optionalListOfStrings),
    ("request_object_encryption_alg_values_supported", optionalListOfStrings),
    ("request_object_encryption_enc_values_supported", optionalListOfStrings),
    ("token_endpoint_auth_methods_supported", optionalListOfStrings),
    ("token_endpoint_auth_signing_alg_values_supported", optionalListOfStrings),
    ("display_values_supported", optionalListOfStrings),
    ("claim_types_supported", optionalListOfStrings),
    ("claims_supported", optionalListOfStrings),
    ("service_documentation", singleOptionalString),
    ("claims_locales_supported", optionalListOfStrings),
    ("ui_locales_supported", optionalListOfStrings),
    ("claims_parameter_supported", singleOptionalBoolean),
    ("request_parameter_supported", singleOptionalBoolean),
    ("request_uri_parameter_supported", singleOptionalBoolean),
    ("require_request_uri_registration", singleOptionalBoolean),
    ("op_policy_uri", singleOptionalString),
    ("op_tos_uri", singleOptionalString),
    ("check_session_iframe", singleOptionalString),
    ("end_session_endpoint", singleOptionalString),
    ("frontchannel_logout_supported", singleOptionalBoolean),
    ("frontchannel_logout_session_supported", singleOptionalBoolean),
    ("backchannel_logout_supported", singleOptionalBoolean),
    ("backchannel_logout_session_supported", singleOptionalBoolean)]
  default := [("version", .str "3.0"), ("token_endpoint_auth_methods_supported", .list [.str "client_secret_basic"]), ("claims_parameter_supported", .bool false), ("request_parameter_supported", .bool false), ("request_uri_parameter_supported", .bool true), ("require_request_uri_registration", .bool true), ("grant_types_supported", .list [.str "authorization_code", .str "implicit"])]

/-- `JsonWebToken`, oidc/__init__.py:944-1004 -/
def oidc_JsonWebToken : Schema where
  cls := ⟨"oidc", "JsonWebToken"⟩
  params := [("iss", singleOptionalString),
    ("sub", singleOptionalString),
    ("aud", optionalListOfStrings),
    ("exp", singleOptionalInt),
    ("nbf", singleOptionalInt),
    ("iat", singleOptionalInt),
    ("jti", singleOptionalString)]

/-- `AuthnToken`, oidc/__init__.py:1007-1015 -/
def oidc_AuthnToken : Schema where
  cls := ⟨"oidc", "AuthnToken"⟩
  params := [("iss", singleRequiredString),
    ("sub", singleRequiredString),
    ("aud", requiredListOfStrings),
    ("jti", singleRequiredString),
    ("exp", singleRequiredInt),
    ("iat", singleOptionalInt)]

/-- `UserInfoErrorResponse`, oidc/__init__.py:1031-1035 -/
def oidc_UserInfoErrorResponse : Schema where
  cls := ⟨"oidc", "UserInfoErrorResponse"⟩
  params := [("error", singleOptionalString),
    ("error_description", singleOptionalString),
    ("error_uri", singleOptionalString)]
  allowed := [("error", [.str "invalid_schema", .str "invalid_request", .str "invalid_token", .str "insufficient_scope"])]

/-- `DiscoveryRequest`, oidc/__init__.py:1038-1042 -/
def oidc_DiscoveryRequest : Schema where
  cls := ⟨"oidc", "DiscoveryRequest"⟩
  params := [("resource", singleRequiredString),
    ("rel", singleRequiredString)]

/-- `JRD`, oidc/__init__.py:1111-1120 -/
def oidc_JRD : Schema where
  cls := ⟨"oidc", "JRD"⟩
  params := [("subject", singleOptionalString),
    ("aliases", optionalListOfStrings),
    ("properties", ⟨.single .dict, false, some .msgJson, some dictDeser, false⟩),
    ("links", ⟨.list (tyOf oidc_Link), true, some .linkList, some (linkDeser oidc_Link), false⟩)]

/-- `WebFingerRequest`, oidc/__init__.py:1123-1128 -/
def oidc_WebFingerRequest : Schema where
  cls := ⟨"oidc", "WebFingerRequest"⟩
  params := [("resource", singleRequiredString),
    ("rel", singleRequiredString)]
  default := [("rel", .str "http://openid.net/specs/connect/1.0/issuer")]

/-- `ResourceRequest`, oidc/__init__.py:1131-1132 -/
def oidc_ResourceRequest : Schema where
  cls := ⟨"oidc", "ResourceRequest"⟩
  params := [("access_token", singleOptionalString)]

/-- `AuthorizationRequest`, oauth2/device_authorization.py:10-14 -/
def device_AuthorizationRequest : Schema where
  cls := ⟨"device", "AuthorizationRequest"⟩
  params := [("client_id", singleRequiredString),
    ("scope", singleOptionalString)]

/-- `AuthorizationResponse`, oauth2/device_authorization.py:17-25 -/
def device_AuthorizationResponse : Schema where
  cls := ⟨"device", "AuthorizationResponse"⟩
  params := [("device_code", singleRequiredString),
    ("user_code", singleRequiredString),
    ("verification_uri", singleRequiredString),
    ("verification_uri_complete", singleOptionalString),
    ("expires_in", singleRequiredInt),
    ("interval", singleOptionalInt)]

/-- `AccessTokenRequest`, oauth2/device_authorization.py:28-36 -/
def device_AccessTokenRequest : Schema where
  cls := ⟨"device", "AccessTokenRequest"⟩
  params := [("grant_type", singleRequiredString),
    ("code", singleRequiredString),
    ("redirect_uri", singleRequiredString),
    ("client_id", singleOptionalString),
    ("client_secret", singleOptionalString),
    ("state", singleOptionalString),
    ("client_assertion_type", singleOptionalString),
    ("client_assertion", singleOptionalString)]
  default := [("grant_type", .str "authorization_code")]
  allowed := [("client_assertion_type", [.str "urn:ietf:params:oauth:client-assertion-type:jwt-bearer"])]

/-- `RefreshSessionRequest`, oidc/session.py:27-32 -/
def session_RefreshSessionRequest : Schema where
  cls := ⟨"session", "RefreshSessionRequest"⟩
  params := [("id_token", ⟨.single messageTy, true, some .msg, none, false⟩),
    ("redirect_url", singleRequiredString),
    ("state", singleRequiredString)]

/-- `RefreshSessionResponse`, oidc/session.py:35-38 -/
def session_RefreshSessionResponse : Schema where
  cls := ⟨"session", "RefreshSessionResponse"⟩
  params := [("id_token", ⟨.single messageTy, true, some .msg, none, false⟩),
    ("error", singleOptionalString),
    ("error_description", singleOptionalString),
    ("error_uri", singleOptionalString),
    ("state", singleRequiredString)]

/-- `CheckSessionRequest`, oidc/session.py:41-42 -/
def session_CheckSessionRequest : Schema where
  cls := ⟨"session", "CheckSessionRequest"⟩
  params := [("id_token", ⟨.single messageTy, true, some .msg, none, false⟩)]

/-- `CheckIDRequest`, oidc/session.py:45-46 -/
def session_CheckIDRequest : Schema where
  cls := ⟨"session", "CheckIDRequest"⟩
  params := [("access_token", singleRequiredString)]

/-- `EndSessionRequest`, oidc/session.py:49-78 -/
def session_EndSessionRequest : Schema where
  cls := ⟨"session", "EndSessionRequest"⟩
  params := [("id_token_hint", ⟨.single messageTy, false, some .msg, none, false⟩),
    ("post_logout_redirect_uri", singleOptionalString),
    ("state", singleOptionalString)]

/-- `EndSessionResponse`, oidc/session.py:81-83 -/
def session_EndSessionResponse : Schema where
  cls := ⟨"session", "EndSessionResponse"⟩
  params := [("error", singleOptionalString),
    ("error_description", singleOptionalString),
    ("error_uri", singleOptionalString),
    ("state", singleOptionalString)]

/-- `LogoutToken`, oidc/session.py:86-154 -/
def session_LogoutToken : Schema where
  cls := ⟨"session", "LogoutToken"⟩
  params := [("iss", singleRequiredString),
    ("sub", singleOptionalString),
    ("aud", requiredListOfStrings),
    ("iat", singleRequiredInt),
    ("jti", singleRequiredString),
    ("events", singleRequiredJson),
    ("sid", singleOptionalString)]

/-- `BackChannelLogoutRequest`, oidc/session.py:160-186 -/
def session_BackChannelLogoutRequest : Schema where
  cls := ⟨"session", "BackChannelLogoutRequest"⟩
  params := [("logout_token", singleRequiredString)]

/-- `PlaceOfBirth`, oidc/identity_assurance.py:23-28 -/
def ida_PlaceOfBirth : Schema where
  cls := ⟨"ida", "PlaceOfBirth"⟩
  params := [("country", singleRequiredString),
    ("region", singleOptionalString),
    ("locality", singleRequiredString)]

/-- `IdentityAssuranceClaims`, oidc/identity_assurance.py:151-161 -/
def ida_IdentityAssuranceClaims : Schema where
  cls := ⟨"ida", "IdentityAssuranceClaims"⟩
  params := [("error", singleOptionalString),
    ("error_description", singleOptionalString),
    ("error_uri", singleOptionalString),
    ("sub", singleRequiredString),
    ("name", singleOptionalString),
    ("given_name", singleOptionalString),
    ("family_name", singleOptionalString),
    ("middle_name", singleOptionalString),
    ("nickname", singleOptionalString),
    ("preferred_username", singleOptionalString),
    ("profile", singleOptionalString),
    ("picture", singleOptionalString),
    ("website", singleOptionalString),
    ("email", singleOptionalString),
    ("email_verified", singleOptionalBoolean),
    ("gender", singleOptionalString),
    ("birthdate", singleOptionalString),
    ("zoneinfo", singleOptionalString),
    ("locale", singleOptionalString),
    ("phone_number", singleOptionalString),
    ("phone_number_verified", singleOptionalBoolean),
    ("address", ⟨.single messageTy, false, some .msg, some (deserializeFromOneOf oidc_AddressClaim), false⟩),
    ("updated_at", singleOptionalInt),
    ("_claim_names", optionalMessage),
    ("_claim_sources", optionalMessage),
    ("place_of_birth", singleOptionalJson),
    ("nationalities", singleOptionalString),
    ("birth_family_name", singleOptionalString),
    ("birth_given_name", singleOptionalString),
    ("birth_middle_name", singleOptionalString),
    ("salutation", singleOptionalString),
    ("title", singleOptionalString)]

/-- `Verifier`, oidc/identity_assurance.py:167-171 -/
def ida_Verifier : Schema where
  cls := ⟨"ida", "Verifier"⟩
  params := [("organization", singleRequiredString),
    ("txn", singleRequiredString)]

/-- `Issuer`, oidc/identity_assurance.py:187-191 -/
def ida_Issuer : Schema where
  cls := ⟨"ida", "Issuer"⟩
  params := [("name", singleRequiredString),
    ("country", singleRequiredString)]

/-- `Document`, oidc/identity_assurance.py:207-214 -/
def ida_Document : Schema where
  cls := ⟨"ida", "Document"⟩
  params := [("type", singleRequiredString),
    ("number", singleRequiredString),
    ("issuer", ⟨.single (tyOf ida_Issuer), true, some .msg, some (msgDeserFor ida_Issuer), false⟩),
    ("date_of_issuance", { optionalTimeStamp with required := true }),
    ("date_of_expiry", { optionalTimeStamp with required := true })]

/-- `Evidence`, oidc/identity_assurance.py:224-257 -/
def ida_Evidence : Schema where
  cls := ⟨"ida", "Evidence"⟩
  params := [("type", singleOptionalString)]

/-- `IdDocument`, oidc/identity_assurance.py:275-282 -/
def ida_IdDocument : Schema where
  cls := ⟨"ida", "IdDocument"⟩
  params := [("type", singleOptionalString),
    ("method", singleRequiredString),
    ("verifier", ⟨.single (tyOf ida_Verifier), true, some .msg, some (msgDeserFor ida_Verifier), false⟩),
    ("time", optionalTimeStamp),
    ("document", ⟨.single (tyOf ida_Document), false, some .msg, some (deserializeFromOneOf ida_Document), false⟩)]

/-- `Provider`, oidc/identity_assurance.py:299-303 -/
def ida_Provider : Schema where
  cls := ⟨"ida", "Provider"⟩
  params := [("formatted", singleOptionalString),
    ("street_address", singleOptionalString),
    ("locality", singleOptionalString),
    ("region", singleOptionalString),
    ("postal_code", singleOptionalString),
    ("country", singleOptionalString),
    ("name", singleOptionalString)]

/-- `UtilityBill`, oidc/identity_assurance.py:319-324 -/
def ida_UtilityBill : Schema where
  cls := ⟨"ida", "UtilityBill"⟩
  params := [("type", singleOptionalString),
    ("provider", ⟨.single (tyOf ida_Provider), true, some .msg, some (msgDeserFor ida_Provider), false⟩),
    ("date", optionalTimeStamp)]

/-- `QES`, oidc/identity_assurance.py:341-347 -/
def ida_QES : Schema where
  cls := ⟨"ida", "QES"⟩
  params := [("type", singleOptionalString),
    ("issuer", singleRequiredString),
    ("serial_number", singleRequiredString),
    ("created_at", { optionalTimeStamp with required := true })]

/-- `VerificationElement`, oidc/identity_assurance.py:371-377 -/
def ida_VerificationElement : Schema where
  cls := ⟨"ida", "VerificationElement"⟩
  params := [("trust_framework", singleRequiredString),
    ("time", optionalTimeStamp),
    ("verification_process", singleOptionalString),
    ("evidence", ⟨.list (tyOf ida_Evidence [⟨"ida", "IdDocument"⟩, ⟨"ida", "UtilityBill"⟩, ⟨"ida", "QES"⟩]), false, some .msgList, some (evidenceListDeser ida_Evidence), true⟩)]

/-- `VerifiedClaims`, oidc/identity_assurance.py:394-398 -/
def ida_VerifiedClaims : Schema where
  cls := ⟨"ida", "VerifiedClaims"⟩
  params := [("verification", ⟨.single (tyOf ida_VerificationElement), false, some .msg, some (msgDeserFor ida_VerificationElement), false⟩),
    ("claims", ⟨.single (tyOf ida_IdentityAssuranceClaims), false, some .msg, some msgDeser, false⟩)]

/-- `VerificationElementRequest`, oidc/identity_assurance.py:473-483 -/
def ida_VerificationElementRequest : Schema where
  cls := ⟨"ida", "VerificationElementRequest"⟩
  params := [("trust_framework", singleRequiredString),
    ("time", optionalTimeStamp),
    ("verification_process", singleOptionalString),
    ("evidence", ⟨.list (tyOf ida_Evidence [⟨"ida", "IdDocument"⟩, ⟨"ida", "UtilityBill"⟩, ⟨"ida", "QES"⟩]), false, some .msgList, some (evidenceListDeser ida_Evidence), true⟩)]

/-- `VerifiedClaimsRequest`, oidc/identity_assurance.py:494-502 -/
def ida_VerifiedClaimsRequest : Schema where
  cls := ⟨"ida", "VerifiedClaimsRequest"⟩
  params := [("verification", optionalMessage),
    ("claims", ⟨.single (tyOf ida_IdentityAssuranceClaims), false, some .msg, some msgDeser, false⟩)]

/-- `IDAClaimsRequest`, oidc/identity_assurance.py:505-512 -/
def ida_IDAClaimsRequest : Schema where
  cls := ⟨"ida", "IDAClaimsRequest"⟩
  params := [("userinfo", ⟨.single messageTy, false, some .claims, some (deserializeFromOneOf oidc_Claims), false⟩),
    ("id_token", ⟨.single messageTy, false, some .claims, some (deserializeFromOneOf oidc_Claims), false⟩)]

/-- Every message class of the library.
oauth2/__init__.py, oidc/__init__.py, session.py, device_authorization.py, identity_assurance.py: the class bodies cited above -/
def allSchemas : List Schema := [messageSchema,
  oidc_AddressClaim,
  oidc_Claims,
  oidc_ClaimsRequest,
  oidc_Link,
  oauth2_ResponseMessage,
  oauth2_AuthorizationErrorResponse,
  oauth2_TokenErrorResponse,
  oauth2_AccessTokenRequest,
  oauth2_AuthorizationRequest,
  oauth2_AuthorizationResponse,
  oauth2_AccessTokenResponse,
  oauth2_NoneResponse,
  oauth2_ROPCAccessTokenRequest,
  oauth2_CCAccessTokenRequest,
  oauth2_RefreshAccessTokenRequest,
  oauth2_ResourceRequest,
  oauth2_ASConfigurationResponse,
  oauth2_TokenIntrospectionRequest,
  oauth2_TokenIntrospectionResponse,
  oauth2_TokenExchangeRequest,
  oauth2_TokenExchangeResponse,
  oauth2_JWTSecuredAuthorizationRequest,
  oauth2_PushedAuthorizationRequest,
  oauth2_SecurityEventToken,
  oidc_RefreshAccessTokenRequest,
  oidc_TokenErrorResponse,
  oidc_AccessTokenResponse,
  oidc_UserInfoRequest,
  oidc_AuthorizationResponse,
  oidc_AuthorizationErrorResponse,
  oidc_AuthorizationRequest,
  oidc_AccessTokenRequest,
  oidc_OpenIDSchema,
  oidc_RegistrationRequest,
  oidc_RegistrationResponse,
  oidc_ClientRegistrationErrorResponse,
  oidc_IdToken,
  oidc_MessageWithIdToken,
  oidc_OpenIDRequest,
  oidc_ProviderConfigurationResponse,
  oidc_JsonWebToken,
  oidc_AuthnToken,
  oidc_UserInfoErrorResponse,
  oidc_DiscoveryRequest,
  oidc_JRD,
  oidc_WebFingerRequest,
  oidc_ResourceRequest,
  device_AuthorizationRequest,
  device_AuthorizationResponse,
  device_AccessTokenRequest,
  session_RefreshSessionRequest,
  session_RefreshSessionResponse,
  session_CheckSessionRequest,
  session_CheckIDRequest,
  session_EndSessionRequest,
  session_EndSessionResponse,
  session_LogoutToken,
  session_BackChannelLogoutRequest,
  ida_PlaceOfBirth,
  ida_IdentityAssuranceClaims,
  ida_Verifier,
  ida_Issuer,
  ida_Document,
  ida_Evidence,
  ida_IdDocument,
  ida_Provider,
  ida_UtilityBill,
  ida_QES,
  ida_VerificationElement,
  ida_VerifiedClaims,
  ida_VerificationElementRequest,
  ida_VerifiedClaimsRequest,
  ida_IDAClaimsRequest]

/-- The `c_param` of each library class. message.py:33 -/
def libEnv : SerEnv := ⟨fun c =>
  match allSchemas.find? (fun s => s.cls == c) with
  | some s => s.params
  | none => []⟩

end Verif
