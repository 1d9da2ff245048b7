import Verif.Model.Schemas

/-!
# The factories of `oauth2/__init__.py` and `oidc/__init__.py`
-/

namespace Verif

/-- The subclasses of `Message` among `inspect.getmembers` of the module `oidcmsg.oauth2`, in the order of their names:
the classes it defines and the imported `Message`. oauth2/__init__.py:35-410 -/
def oauth2Members : List Schema :=
  [oauth2_ASConfigurationResponse, oauth2_AccessTokenRequest, oauth2_AccessTokenResponse,
   oauth2_AuthorizationErrorResponse, oauth2_AuthorizationRequest, oauth2_AuthorizationResponse,
   oauth2_CCAccessTokenRequest, oauth2_JWTSecuredAuthorizationRequest, messageSchema, oauth2_NoneResponse,
   oauth2_PushedAuthorizationRequest, oauth2_ROPCAccessTokenRequest, oauth2_RefreshAccessTokenRequest,
   oauth2_ResourceRequest, oauth2_ResponseMessage, oauth2_SecurityEventToken, oauth2_TokenErrorResponse,
   oauth2_TokenExchangeRequest, oauth2_TokenExchangeResponse, oauth2_TokenIntrospectionRequest,
   oauth2_TokenIntrospectionResponse]

/-- The same for `oidcmsg.oidc`, which also imports `ResponseMessage` (oidc/__init__.py:39-41). -/
def oidcMembers : List Schema :=
  [oidc_AccessTokenRequest, oidc_AccessTokenResponse, oidc_AddressClaim, oidc_AuthnToken,
   oidc_AuthorizationErrorResponse, oidc_AuthorizationRequest, oidc_AuthorizationResponse, oidc_Claims,
   oidc_ClaimsRequest, oidc_ClientRegistrationErrorResponse, oidc_DiscoveryRequest, oidc_IdToken, oidc_JRD,
   oidc_JsonWebToken, oidc_Link, messageSchema, oidc_MessageWithIdToken, oidc_OpenIDRequest,
   oidc_OpenIDSchema, oidc_ProviderConfigurationResponse, oidc_RefreshAccessTokenRequest,
   oidc_RegistrationRequest, oidc_RegistrationResponse, oidc_ResourceRequest, oauth2_ResponseMessage,
   oidc_TokenErrorResponse, oidc_UserInfoErrorResponse, oidc_UserInfoRequest, oidc_WebFingerRequest]

/-- The loop `for name, obj in inspect.getmembers(..)`, oauth2/__init__.py:404-410 and oidc/__init__.py:1148-1154: an
`AttributeError` of the constructor is dropped and the search goes on.  `none` is the end of the loop. -/
def searchMembers (name : String) (kw : Dict) : List Schema → Option (Res Val)
  | [] => none
  | s :: rest =>
    if s.cls.name = name then
      match ctor s kw with
      | .error .attributeError => searchMembers name kw rest
      | r => some r
    else searchMembers name kw rest

/-- `oauth2.factory(msgtype, **kwargs)`, oauth2/__init__.py:395-410.  The parameter `msgtype` cannot be given twice. -/
def oauth2Factory (name : String) (kw : Dict) : Res Val :=
  if dhas kw "msgtype" then .error .typeError
  else (searchMembers name kw oauth2Members).getD (.ok .none)

/-- `oidc.factory(msgtype, **kwargs)`, oidc/__init__.py:1147-1157 -/
def oidcFactory (name : String) (kw : Dict) : Res Val :=
  if dhas kw "msgtype" then .error .typeError
  else (searchMembers name kw oidcMembers).getD (oauth2Factory name kw)

end Verif
