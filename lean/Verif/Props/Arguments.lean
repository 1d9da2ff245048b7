import Verif.Props.Tokens
import Verif.Props.Logout

/-!
# C139: which keyword arguments decide
# C140: an option given its default value
-/

namespace Verif

/-- the two calls give the listed arguments the same values (or both leave them out) -/
def SameArgs (names : List String) (kw kw' : Dict) : Prop := ∀ n ∈ names, dget kw n = dget kw' n

theorem SameArgs.mono {ns ms : List String} {kw kw' : Dict} (h : SameArgs ns kw kw') (hs : ∀ n ∈ ms, n ∈ ns) : SameArgs ms kw kw' :=
  fun n hn => h n (hs n hn)

theorem same_pick {ns : List String} {kw kw' : Dict} (h : SameArgs ns kw kw') : pick ns kw = pick ns kw' := by
  unfold pick
  induction ns with
  | nil => rfl
  | cons n ns ih =>
    rw [List.filterMap_cons, List.filterMap_cons, h n (List.mem_cons_self ..), ih (fun m hm => h m (List.mem_cons_of_mem _ hm))]

theorem same_match {kw kw' : Dict} {n : String} (h : dget kw n = dget kw' n) (st : Dict) (e : Exc) :
    matchArg st kw n e = matchArg st kw' n e := by
  unfold matchArg; rw [h]

theorem same_num {kw kw' : Dict} {n : String} (h : dget kw n = dget kw' n) (q : Rat) : numArg kw n q = numArg kw' n q := by
  unfold numArg; rw [h]

theorem same_time {kw kw' : Dict} (h : dget kw "skew" = dget kw' "skew") (st : Dict) (k : String) (ok : Rat → Rat → Bool) (e : Exc) :
    timeCheck st kw k ok e = timeCheck st kw' k ok e := by
  unfold timeCheck; rw [same_num h]

theorem same_aud {kw kw' : Dict} (h : dget kw "aud" = dget kw' "aud") (st : Dict) : audArg st kw = audArg st kw' := by
  unfold audArg; rw [h]

/-! ## C139, the arguments that are not listed do not matter -/

/-- the arguments of `IdToken.verify` -/
def idTokenArgs : List String := ["iss", "client_id", "skew", "nonce_storage_time", "nonce"]

/-- the arguments of `JsonWebToken.verify` -/
def jsonWebTokenArgs : List String := ["skew", "aud", "iss"]

/-- the arguments of `LogoutToken.verify` -/
def logoutTokenArgs : List String := ["aud", "iss", "skew", "allowed_sign_alg"]

/-- the arguments of the `verify` methods that look into an ID token -/
def withIdTokenArgs : List String :=
  ["verify", "encalg", "encenc", "sigalg", "issuer", "allow_missing_kid", "no_kid_issuer", "trusting", "skew", "nonce_storage_time",
   "client_id", "allow_sign_alg_none", "allowed_sign_alg", "iss", "nonce"]

/-- the arguments of the `verify` methods that open a request object -/
def requestObjectArgs : List String := ["opponent_id", "sender", "alg", "encalg", "encenc"]

/-- the arguments of `oidc.AuthorizationRequest.verify` -/
def oidcRequestArgs : List String := requestObjectArgs ++ ["nonce"]

/-- the arguments of `BackChannelLogoutRequest.verify` -/
def backChannelArgs : List String :=
  ["verify", "encalg", "encenc", "sigalg", "issuer", "allow_missing_kid", "no_kid_issuer", "trusting", "skew", "nonce_storage_time",
   "client_id", "allow_sign_alg_none", "allowed_sign_alg", "aud", "iss"]

theorem C139_authz_response {kw kw' : Dict} (h : SameArgs ["client_id", "iss"] kw kw') (sch : Schema) (st : Dict) :
    oauth2AuthzResponseVerify sch st kw = oauth2AuthzResponseVerify sch st kw' := by
  unfold oauth2AuthzResponseVerify
  rw [same_match (h "client_id" (by simp)), same_match (h "iss" (by simp))]

theorem C139_id_token {kw kw' : Dict} (h : SameArgs idTokenArgs kw kw') (now : Int) (st : Dict) :
    idTokenVerify now st kw = idTokenVerify now st kw' := by
  unfold idTokenVerify audCheck clientInAud azpCheck iatCheck
  rw [same_match (h "iss" (by decide)), same_match (h "nonce" (by decide)), same_num (h "skew" (by decide)),
    h "client_id" (by decide)]
  simp only [same_num (h "nonce_storage_time" (by decide))]

theorem C139_json_web_token {kw kw' : Dict} (h : SameArgs jsonWebTokenArgs kw kw') (now : Int) (sch : Schema) (st : Dict) :
    jsonWebTokenVerify now sch st kw = jsonWebTokenVerify now sch st kw' := by
  unfold jsonWebTokenVerify
  rw [same_match (h "iss" (by decide)), same_aud (h "aud" (by decide))]
  simp only [same_time (h "skew" (by decide))]

theorem C139_logout_token {kw kw' : Dict} (h : SameArgs logoutTokenArgs kw kw') (now : Int) (st : Dict) (hdr : Option Dict) :
    logoutTokenVerify now st hdr kw = logoutTokenVerify now st hdr kw' := by
  unfold logoutTokenVerify logoutAlg
  rw [same_match (h "iss" (by decide)), same_aud (h "aud" (by decide)), h "allowed_sign_alg" (by decide)]
  simp only [same_time (h "skew" (by decide))]

theorem C139_provider_config {kw kw' : Dict} (h : SameArgs ["allow_http"] kw kw') (netlocOk : List Char → Bool) (st : Dict) :
    providerConfigVerify netlocOk st kw = providerConfigVerify netlocOk st kw' := by
  unfold providerConfigVerify dhas
  rw [h "allow_http" (by simp)]

section
variable {C : Crypto} {kw kw' : Dict}

theorem same_idToken (h : SameArgs withIdTokenArgs kw kw') (now : Int) (st : Dict) (v : Val) (b : Bool) (jar : JarArg C) :
    verifyIdTokenCore C now st v b jar kw = verifyIdTokenCore C now st v b jar kw' := by
  have h1 : ∀ alg, algCheck alg kw = algCheck alg kw' := by
    intro alg
    unfold algCheck sigalgNone noneForbidden
    rw [h "sigalg" (by decide), h "allow_sign_alg_none" (by decide), h "allowed_sign_alg" (by decide)]
  have h2 : pick idTokenVerifyArgs kw = pick idTokenVerifyArgs kw' := same_pick (h.mono (by decide))
  have h3 : ∀ st, idTokenVerify now st kw = idTokenVerify now st kw' := C139_id_token (h.mono (by decide)) now
  unfold verifyIdTokenCore
  simp only [h1, h2, h3]

theorem C139_verify_id_token (h : SameArgs withIdTokenArgs kw kw') (now : Int) (st : Dict) (claim : String) (b : Bool) (jar : JarArg C) :
    verifyIdToken C now st claim b jar kw = verifyIdToken C now st claim b jar kw' := by
  unfold verifyIdToken
  simp only [same_idToken h]

theorem same_ifPresent (h : SameArgs withIdTokenArgs kw kw') (now : Int) (st : Dict) (claim : String) (b : Bool) (jar : JarArg C) :
    verifyIfPresent C now st claim b jar kw = verifyIfPresent C now st claim b jar kw' := by
  unfold verifyIfPresent
  rw [C139_verify_id_token h]

theorem C139_token_response (h : SameArgs withIdTokenArgs kw kw') (now : Int) (st : Dict) (jar : JarArg C) :
    accessTokenResponseVerify C now st jar kw = accessTokenResponseVerify C now st jar kw' := by
  unfold accessTokenResponseVerify
  rw [same_ifPresent h]

theorem C139_oidc_authz_response (h : SameArgs withIdTokenArgs kw kw') (now : Int) (st : Dict) (jar : JarArg C) :
    authzResponseVerify C now st jar kw = authzResponseVerify C now st jar kw' := by
  unfold authzResponseVerify authzResponseRest forMe
  rw [C139_authz_response (h.mono (by decide)), same_ifPresent h, h "client_id" (by decide)]

theorem C139_message_with_id_token (h : SameArgs withIdTokenArgs kw kw') (now : Int) (sch : Schema) (st : Dict) (jar : JarArg C) :
    messageWithIdTokenVerify C now sch st jar kw = messageWithIdTokenVerify C now sch st jar kw' := by
  unfold messageWithIdTokenVerify
  rw [same_ifPresent h]

theorem C139_end_session (h : SameArgs withIdTokenArgs kw kw') (now : Int) (st : Dict) (jar : JarArg C) :
    endSessionVerify C now st jar kw = endSessionVerify C now st jar kw' := by
  unfold endSessionVerify endSessionRest hintVerify
  simp only [C139_verify_id_token h, same_pick (h.mono (ms := idTokenVerifyArgs) (by decide))]

theorem C139_back_channel (h : SameArgs backChannelArgs kw kw') (now : Int) (st : Dict) (jar : JarArg C) :
    backChannelVerify C now st jar kw = backChannelVerify C now st jar kw' := by
  unfold backChannelVerify
  simp only [C139_logout_token (h.mono (by decide)), same_pick (h.mono (ms := idTokenVerifyArgs) (by decide))]

theorem same_request (h : SameArgs requestObjectArgs kw kw') : requestArgs kw = requestArgs kw' := same_pick h

theorem C139_jwt_secured (h : SameArgs requestObjectArgs kw kw') (st : Dict) (jar : JarArg C) :
    jwtSecuredVerify C st jar kw = jwtSecuredVerify C st jar kw' := by
  unfold jwtSecuredVerify requestObject
  simp only [same_request h]

theorem C139_pushed (h : SameArgs requestObjectArgs kw kw') (st : Dict) (jar : JarArg C) :
    pushedVerify C st jar kw = pushedVerify C st jar kw' := by
  unfold pushedVerify requestObject
  simp only [same_request h]

theorem C139_oidc_authz_request (h : SameArgs oidcRequestArgs kw kw') (st : Dict) (jar : JarArg C) :
    authzRequestVerify C st jar kw = authzRequestVerify C st jar kw' := by
  unfold authzRequestVerify authzArgs authzRequestConds nonceStep dhas
  simp only [same_request (h.mono (by decide)), h "opponent_id" (by decide), same_match (h "nonce" (by decide))]

end

/-! ## C139, the arguments that are listed do matter -/

/-- some call gives another outcome when only this argument is added -/
def Matters {α : Type} (f : Dict → α) (n : String) : Prop := ∃ kw v, dget kw n = none ∧ f (dset kw n v) ≠ f kw

/-- every text is a token with these claims; the key jar has the key only when it is asked with such arguments -/
def probeWith (claims : Dict) (ask : Dict → Bool) : Crypto where
  KeyJar := Unit
  Key := Unit
  Jwe := Empty
  jwe := fun _ _ => .ok none
  decryptKeys := fun _ => .ok []
  decrypt := fun w _ _ => nomatch w
  jws := fun _ _ => .ok (some ⟨[("alg", .str "RS256")], .ok (.dict claims)⟩)
  truthy := fun _ => true
  keys := fun _ _ kw => .ok (if ask kw then [()] else [], ())
  update := fun _ => .ok ()
  verifyCompact := fun _ _ _ => .ok ()
  hasIssuer := fun _ _ => .ok true
  leftHash := fun _ _ => .error .keyError
  repr := fun _ => ""

/-- the key jar has the key only when it is asked with the argument `n` -/
abbrev probe (n : String) : Crypto := probeWith toyClaims (fun kw => dhas kw n)

theorem C139_authz_response_matters : ∀ n ∈ ["client_id", "iss"],
    ∃ st, Matters (oauth2AuthzResponseVerify oauth2_AuthorizationResponse st) n := by
  intro n hn
  refine ⟨[("code", .str "c"), (n, .str "a")], [], .str "b", rfl, ?_⟩
  revert n
  decide +kernel

/-- a clock value and a value of the argument with which the toy token is judged otherwise than without -/
def idTokenCall (n : String) : Int × Val :=
  if n = "skew" then (2500, .int 1000) else if n = "nonce_storage_time" then (1500, .int 100) else (1500, .str "other")

theorem C139_id_token_matters : ∀ n ∈ idTokenArgs, ∃ now, Matters (idTokenVerify now toyClaims) n := by
  intro n hn
  refine ⟨(idTokenCall n).1, [], (idTokenCall n).2, rfl, ?_⟩
  revert n
  decide +kernel

theorem C139_json_web_token_matters : ∀ n ∈ jsonWebTokenArgs,
    ∃ now st, Matters (jsonWebTokenVerify now oidc_JsonWebToken st) n := by
  intro n hn
  refine ⟨(idTokenCall n).1, toyClaims, [], (idTokenCall n).2, rfl, ?_⟩
  revert n
  decide +kernel

/-- a logout token that is accepted at 1500, and one second before it was issued with a skew -/
def logoutSample : Dict :=
  [("iss", .str "https://op"), ("sub", .str "s"), ("aud", .list [.str "client"]), ("iat", .int 1000), ("jti", .str "j"),
   ("events", .dict [("http://schemas.openid.net/event/backchannel-logout", .dict [])])]

theorem C139_logout_token_matters : ∀ n ∈ logoutTokenArgs,
    ∃ now st hdr, Matters (logoutTokenVerify now st hdr) n := by
  intro n hn
  refine ⟨if n = "skew" then 999 else 1500, logoutSample, some [("alg", .str "RS256")], [],
    (idTokenCall n).2, rfl, ?_⟩
  revert n
  decide +kernel

theorem C139_provider_config_matters : ∃ netlocOk st, Matters (providerConfigVerify netlocOk st) "allow_http" := by
  refine ⟨fun _ => true, [("issuer", .str "http://op"), ("jwks_uri", .str "http://op/jwks"),
    ("authorization_endpoint", .str "http://op/a"), ("response_types_supported", .list [.str "id_token"]),
    ("subject_types_supported", .list [.str "public"]), ("id_token_signing_alg_values_supported", .list [.str "RS256"])], [], .bool true, rfl, ?_⟩
  decide +kernel

/-- the value with which the argument is probed -/
def probeValue (n : String) : Val :=
  if n = "skew" ∨ n = "nonce_storage_time" then .int 5 else .bool false

/-- the argument the key jar looks at: some arguments are not handed to it -/
def asked (n : String) : String := if n = "iss" ∨ n = "nonce" ∨ n = "aud" then "skew" else n

def probeArgs (n : String) : Dict := if n = "iss" ∨ n = "nonce" ∨ n = "aud" then [("skew", .int 0)] else []

theorem C139_token_response_matters : ∀ n ∈ withIdTokenArgs,
    ∃ (C : Crypto) (jar : JarArg C) (now : Int) (st : Dict), Matters (accessTokenResponseVerify C now st jar) n := by
  intro n hn
  refine ⟨probe (asked n), some (some ()), 1500,
    [("access_token", .str "at"), ("token_type", .str "Bearer"), ("id_token", .str "T")], probeArgs n, probeValue n, ?_, ?_⟩ <;>
  · revert n
    decide +kernel

theorem C139_oidc_authz_response_matters : ∀ n ∈ withIdTokenArgs,
    ∃ (C : Crypto) (jar : JarArg C) (now : Int) (st : Dict), Matters (authzResponseVerify C now st jar) n := by
  intro n hn
  refine ⟨probe (asked n), some (some ()), 1500, [("state", .str "s"), ("id_token", .str "T")], probeArgs n, probeValue n, ?_, ?_⟩ <;>
  · revert n
    decide +kernel

theorem C139_message_with_id_token_matters : ∀ n ∈ withIdTokenArgs,
    ∃ (C : Crypto) (jar : JarArg C) (now : Int) (st : Dict),
      Matters (messageWithIdTokenVerify C now session_RefreshSessionRequest st jar) n := by
  intro n hn
  refine ⟨probe (asked n), some (some ()), 1500, [("id_token", .str "T"), ("redirect_url", .str "u"), ("state", .str "s")],
    probeArgs n, probeValue n, ?_, ?_⟩ <;>
  · revert n
    decide +kernel

theorem C139_end_session_matters : ∀ n ∈ withIdTokenArgs,
    ∃ (C : Crypto) (jar : JarArg C) (now : Int) (st : Dict), Matters (endSessionVerify C now st jar) n := by
  intro n hn
  refine ⟨probe (asked n), some (some ()), 1500, [("id_token_hint", .str "T")], probeArgs n, probeValue n, ?_, ?_⟩ <;>
  · revert n
    decide +kernel

theorem C139_jwt_secured_matters : ∀ n ∈ requestObjectArgs,
    ∃ (C : Crypto) (jar : JarArg C) (st : Dict), Matters (jwtSecuredVerify C st jar) n ∧ Matters (pushedVerify C st jar) n := by
  intro n hn
  refine ⟨probe n, some (some ()), [("request", .str "T")], ⟨[], .str "x", rfl, ?_⟩, ⟨[], .str "x", rfl, ?_⟩⟩ <;>
  · revert n
    decide +kernel

theorem C139_oidc_authz_request_matters : ∀ n ∈ oidcRequestArgs,
    ∃ (C : Crypto) (jar : JarArg C) (st : Dict), Matters (authzRequestVerify C st jar) n := by
  intro n hn
  refine ⟨probeWith toyClaims (fun kw => ((dget kw n).getD .none).eq (.str "x")), some (some ()), [("response_type", .list [.str "id_token"]), ("client_id", .str "c"), ("scope", .list [.str "openid"]),
    ("redirect_uri", .str "https://rp/"), ("nonce", .str "n")] ++ (if n = "nonce" then [] else [("request", .str "T")]), [], .str "x", rfl, ?_⟩
  revert n
  decide +kernel

theorem C139_back_channel_matters : ∀ n ∈ backChannelArgs,
    ∃ (C : Crypto) (jar : JarArg C) (now : Int) (st : Dict), Matters (backChannelVerify C now st jar) n := by
  intro n hn
  refine ⟨probeWith logoutSample (fun kw => dhas kw (asked n)), some (some ()), 1500, [("logout_token", .str "T")], probeArgs n,
    probeValue n, ?_, ?_⟩ <;>
  · revert n
    decide +kernel

/-! The hypothesis of the first part holds for calls that differ -/

example : SameArgs idTokenArgs [("iss", .str "https://op"), ("max_age", .int 3)] [("issuer", .str "x"), ("iss", .str "https://op")] := by
  unfold SameArgs; decide +kernel

/-! A misspelled argument is one that is not listed: nothing is checked, and nothing is said. -/

example : idTokenVerify 1500 toyClaims [("clientid", .str "other")] = .ok () ∧
    idTokenVerify 1500 toyClaims [("client_id", .str "other")] = .error .notForMe := by decide +kernel

/-! ## C140 -/

/-- `kw'` is `kw` with the argument `n`, left out in `kw`, given the value `v` -/
structure GivenArg (kw kw' : Dict) (n : String) (v : Val) : Prop where
  out : dget kw n = none
  given : dget kw' n = some v
  rest : ∀ m, m ≠ n → dget kw' m = dget kw m

theorem given_dset {kw : Dict} {n : String} (v : Val) (h : dget kw n = none) : GivenArg kw (dset kw n v) n v :=
  ⟨h, dget_dset_same _ _ _, fun _ hm => dget_dset_ne _ _ (Ne.symm hm)⟩

theorem given_num {kw kw' : Dict} {n : String} {v : Val} (h : GivenArg kw kw' n v) {q : Rat} (hv : numR v = .ok q) {m : String} {q' : Rat}
    (hm : m = n → q = q') : numArg kw' m q' = numArg kw m q' := by
  unfold numArg
  by_cases hmn : m = n
  · subst hmn
    rw [h.given, h.out]
    simp only [hv, hm rfl]
  · rw [h.rest m hmn]

/-- what `IdToken.verify` takes from its arguments -/
theorem idTokenVerify_args {kw kw' : Dict} (h : ∀ m ∈ ["iss", "client_id", "nonce"], dget kw' m = dget kw m)
    (hs : numArg kw' "skew" 0 = numArg kw "skew" 0)
    (hn : numArg kw' "nonce_storage_time" 14400 = numArg kw "nonce_storage_time" 14400) (now : Int) (st : Dict) :
    idTokenVerify now st kw' = idTokenVerify now st kw := by
  unfold idTokenVerify audCheck clientInAud azpCheck iatCheck
  rw [same_match (h "iss" (by simp)), same_match (h "nonce" (by simp)), hs, h "client_id" (by simp)]
  simp only [hn]

/-- **C140**, ID tokens: `skew=0` and `nonce_storage_time=4*3600` are as if left out. -/
theorem C140_id_token {kw kw' : Dict} {n : String} {v : Val} (h : GivenArg kw kw' n v)
    (hv : (n = "skew" ∧ v = .int 0) ∨ (n = "nonce_storage_time" ∧ v = .int 14400)) (now : Int) (st : Dict) :
    idTokenVerify now st kw' = idTokenVerify now st kw := by
  refine idTokenVerify_args (fun m hm => h.rest m ?_) ?_ ?_ now st
  · rcases hv with ⟨rfl, _⟩ | ⟨rfl, _⟩ <;> revert m <;> decide
  · rcases hv with ⟨rfl, rfl⟩ | ⟨rfl, rfl⟩
    · exact given_num h (q := 0) rfl (fun _ => rfl)
    · exact given_num h (q := 14400) rfl (fun hc => absurd hc (by decide))
  · rcases hv with ⟨rfl, rfl⟩ | ⟨rfl, rfl⟩
    · exact given_num h (q := 0) rfl (fun hc => absurd hc (by decide))
    · exact given_num h (q := 14400) rfl (fun _ => rfl)

theorem given_time {kw kw' : Dict} (h : GivenArg kw kw' "skew" (.int 0)) (st : Dict) (k : String) (ok : Rat → Rat → Bool) (e : Exc) :
    timeCheck st kw' k ok e = timeCheck st kw k ok e := by
  unfold timeCheck
  rw [given_num h (q := 0) rfl (fun _ => rfl)]

/-- **C140**, JSON Web Tokens: `skew=0` is as if left out. -/
theorem C140_json_web_token {kw kw' : Dict} (h : GivenArg kw kw' "skew" (.int 0)) (now : Int) (sch : Schema) (st : Dict) :
    jsonWebTokenVerify now sch st kw' = jsonWebTokenVerify now sch st kw := by
  unfold jsonWebTokenVerify
  rw [same_match (h.rest "iss" (by decide)), same_aud (h.rest "aud" (by decide))]
  simp only [given_time h]

/-- **C140**, logout tokens: `skew=0` is as if left out, and so is `allowed_sign_alg=None` or `""`. -/
theorem C140_logout_token {kw kw' : Dict} {n : String} {v : Val} (h : GivenArg kw kw' n v)
    (hv : (n = "skew" ∧ v = .int 0) ∨ (n = "allowed_sign_alg" ∧ v.truthy = false)) (now : Int) (st : Dict) (hdr : Option Dict) :
    logoutTokenVerify now st hdr kw' = logoutTokenVerify now st hdr kw := by
  unfold logoutTokenVerify
  rcases hv with ⟨rfl, rfl⟩ | ⟨rfl, hv⟩
  · rw [same_match (h.rest "iss" (by decide)), same_aud (h.rest "aud" (by decide))]
    unfold logoutAlg
    simp only [given_time h, h.rest "allowed_sign_alg" (by decide)]
  · rw [same_match (h.rest "iss" (by decide)), same_aud (h.rest "aud" (by decide))]
    unfold logoutAlg
    rw [h.given, h.out]
    simp only [hv, Bool.false_eq_true, if_false, same_time (h.rest "skew" (by decide))]

/-- the key jar does not look at the argument -/
def KeysIgnore (C : Crypto) (n : String) : Prop :=
  ∀ kj j d d', (∀ m, m ≠ n → dget d m = dget d' m) → C.keys kj j d = C.keys kj j d'

/-- what `from_jwt` takes from its arguments -/
theorem fromJwt_args {C : Crypto} {a a' : Dict} (he : dget a' "encalg" = dget a "encalg") (hc : dget a' "encenc" = dget a "encenc")
    (hs : dget a' "sigalg" = dget a "sigalg") (hv : verifyArg a' = verifyArg a)
    (hk : ∀ kj j, C.keys kj j (ddel a' "verify") = C.keys kj j (ddel a "verify")) (sch : Schema) (txt : String) (jar : JarArg C) :
    fromJwt C sch txt jar a' = fromJwt C sch txt jar a := by
  unfold fromJwt decryptStep algArg openStep sigAlg sigStep checkSig jarKeys retryVerify
  simp only [hk, hv, dget_ddel_ne _ (show "verify" ≠ "encalg" by decide), dget_ddel_ne _ (show "verify" ≠ "encenc" by decide),
    dget_ddel_ne _ (show "verify" ≠ "sigalg" by decide), he, hc, hs]

/-- Reading a token: `verify=True`, and any value of an argument that the reading does not look at, is as if left out. -/
theorem fromJwt_given {C : Crypto} {kw kw' : Dict} {n : String} {v : Val} (h : GivenArg kw kw' n v) (hC : KeysIgnore C n)
    (hne : ∀ m ∈ ["encalg", "encenc", "sigalg"], m ≠ n) (hv : n = "verify" → v = .bool true) (sch : Schema) (txt : String) (jar : JarArg C) :
    fromJwt C sch txt jar (pick idTokenVerifyArgs kw') = fromJwt C sch txt jar (pick idTokenVerifyArgs kw) := by
  refine fromJwt_args ?_ ?_ ?_ ?_ ?_ _ _ _
  · rw [dget_pick, dget_pick, h.rest _ (hne "encalg" (by simp))]
  · rw [dget_pick, dget_pick, h.rest _ (hne "encenc" (by simp))]
  · rw [dget_pick, dget_pick, h.rest _ (hne "sigalg" (by simp))]
  · unfold verifyArg
    rw [dget_pick, dget_pick]
    by_cases hn : n = "verify"
    · have := hv hn
      subst hn this
      rw [h.given, h.out]; rfl
    · rw [h.rest _ (Ne.symm hn)]
  · intro kj j
    refine hC kj j _ _ fun m hm => ?_
    rw [dget_ddel, dget_ddel, dget_pick, dget_pick, h.rest m hm]

/-- **C140**, the ID token inside a message: `skew=0`, `nonce_storage_time=4*3600`, `allow_sign_alg_none=False` and `verify=True`
are as if left out. -/
theorem C140_verify_id_token {C : Crypto} {kw kw' : Dict} {n : String} {v : Val} (h : GivenArg kw kw' n v) (hC : KeysIgnore C n)
    (hv : (n = "skew" ∧ v = .int 0) ∨ (n = "nonce_storage_time" ∧ v = .int 14400) ∨ (n = "allow_sign_alg_none" ∧ v = .bool false) ∨
      (n = "verify" ∧ v = .bool true)) (now : Int) (st : Dict) (claim : String) (b : Bool) (jar : JarArg C) :
    verifyIdToken C now st claim b jar kw' = verifyIdToken C now st claim b jar kw := by
  have hne : ∀ m ∈ ["encalg", "encenc", "sigalg", "allowed_sign_alg", "iss", "client_id", "nonce"], m ≠ n := by
    rcases hv with ⟨rfl, _⟩ | ⟨rfl, _⟩ | ⟨rfl, _⟩ | ⟨rfl, _⟩ <;> decide
  have h1 : ∀ alg, algCheck alg kw' = algCheck alg kw := by
    intro alg
    have : noneForbidden kw' = noneForbidden kw := by
      unfold noneForbidden
      by_cases hn : n = "allow_sign_alg_none"
      · subst hn
        rcases hv with ⟨hv, _⟩ | ⟨hv, _⟩ | ⟨_, rfl⟩ | ⟨hv, _⟩
        · exact absurd hv (by decide)
        · exact absurd hv (by decide)
        · rw [h.given, h.out]
        · exact absurd hv (by decide)
      · rw [h.rest _ (Ne.symm hn)]
    unfold algCheck sigalgNone
    rw [h.rest _ (hne "sigalg" (by simp)), h.rest _ (hne "allowed_sign_alg" (by simp)), this]
  have h2 : ∀ txt, fromJwt C oidc_IdToken txt jar (pick idTokenVerifyArgs kw') = fromJwt C oidc_IdToken txt jar (pick idTokenVerifyArgs kw) :=
    fun txt => fromJwt_given h hC (fun m hm => hne m (by revert m; decide)) (fun hn => by
      rcases hv with ⟨hv, _⟩ | ⟨hv, _⟩ | ⟨hv, _⟩ | ⟨_, hv⟩
      · exact absurd (hn.symm.trans hv) (by decide)
      · exact absurd (hn.symm.trans hv) (by decide)
      · exact absurd (hn.symm.trans hv) (by decide)
      · exact hv) _ _ _
  have h3 : ∀ st, idTokenVerify now st kw' = idTokenVerify now st kw := by
    intro st
    rcases hv with hv | hv | ⟨hv, _⟩ | ⟨hv, _⟩
    · exact C140_id_token h (.inl hv) now st
    · exact C140_id_token h (.inr hv) now st
    all_goals
      refine idTokenVerify_args (fun m hm => h.rest m (hne m ?_)) ?_ ?_ now st
      · revert m; decide
      · unfold numArg; rw [h.rest _ (by rw [hv]; decide)]
      · unfold numArg; rw [h.rest _ (by rw [hv]; decide)]
  unfold verifyIdToken verifyIdTokenCore
  simp only [h1, h2, h3]

/-- **C140**, provider configurations: the value of `allow_http` is not looked at, so `False` permits what `True` does. -/
theorem C140_allow_http {kw kw' : Dict} {v w : Val} (h : dget kw "allow_http" = some v) (h' : dget kw' "allow_http" = some w)
    (netlocOk : List Char → Bool) (st : Dict) : providerConfigVerify netlocOk st kw = providerConfigVerify netlocOk st kw' := by
  unfold providerConfigVerify dhas
  rw [h, h']
  rfl

/-- **C140**, token responses -/
theorem C140_token_response {C : Crypto} {kw kw' : Dict} {n : String} {v : Val} (h : GivenArg kw kw' n v) (hC : KeysIgnore C n)
    (hv : (n = "skew" ∧ v = .int 0) ∨ (n = "nonce_storage_time" ∧ v = .int 14400) ∨ (n = "allow_sign_alg_none" ∧ v = .bool false) ∨
      (n = "verify" ∧ v = .bool true)) (now : Int) (st : Dict) (jar : JarArg C) :
    accessTokenResponseVerify C now st jar kw' = accessTokenResponseVerify C now st jar kw := by
  unfold accessTokenResponseVerify verifyIfPresent
  rw [C140_verify_id_token h hC hv]

/-- **C140**, OpenID Connect authorization responses -/
theorem C140_authz_response {C : Crypto} {kw kw' : Dict} {n : String} {v : Val} (h : GivenArg kw kw' n v) (hC : KeysIgnore C n)
    (hv : (n = "skew" ∧ v = .int 0) ∨ (n = "nonce_storage_time" ∧ v = .int 14400) ∨ (n = "allow_sign_alg_none" ∧ v = .bool false) ∨
      (n = "verify" ∧ v = .bool true)) (now : Int) (st : Dict) (jar : JarArg C) :
    authzResponseVerify C now st jar kw' = authzResponseVerify C now st jar kw := by
  have hne : ∀ m ∈ ["client_id", "iss"], m ≠ n := by
    rcases hv with ⟨rfl, _⟩ | ⟨rfl, _⟩ | ⟨rfl, _⟩ | ⟨rfl, _⟩ <;> decide
  unfold authzResponseVerify authzResponseRest forMe verifyIfPresent
  rw [C139_authz_response (fun m hm => h.rest m (hne m hm)), C140_verify_id_token h hC hv, h.rest _ (hne "client_id" (by simp))]

/-- **C140**, messages with an ID token -/
theorem C140_message {C : Crypto} {kw kw' : Dict} {n : String} {v : Val} (h : GivenArg kw kw' n v) (hC : KeysIgnore C n)
    (hv : (n = "skew" ∧ v = .int 0) ∨ (n = "nonce_storage_time" ∧ v = .int 14400) ∨ (n = "allow_sign_alg_none" ∧ v = .bool false) ∨
      (n = "verify" ∧ v = .bool true)) (now : Int) (sch : Schema) (st : Dict) (jar : JarArg C) :
    messageWithIdTokenVerify C now sch st jar kw' = messageWithIdTokenVerify C now sch st jar kw := by
  unfold messageWithIdTokenVerify verifyIfPresent
  rw [C140_verify_id_token h hC hv]

/-- **C140**, end session requests -/
theorem C140_end_session {C : Crypto} {kw kw' : Dict} {n : String} {v : Val} (h : GivenArg kw kw' n v) (hC : KeysIgnore C n)
    (hv : (n = "skew" ∧ v = .int 0) ∨ (n = "nonce_storage_time" ∧ v = .int 14400) ∨ (n = "allow_sign_alg_none" ∧ v = .bool false) ∨
      (n = "verify" ∧ v = .bool true)) (now : Int) (st : Dict) (jar : JarArg C) :
    endSessionVerify C now st jar kw' = endSessionVerify C now st jar kw := by
  have hne : ∀ m ∈ ["encalg", "encenc", "sigalg"], m ≠ n := by
    rcases hv with ⟨rfl, _⟩ | ⟨rfl, _⟩ | ⟨rfl, _⟩ | ⟨rfl, _⟩ <;> decide
  have hver : n = "verify" → v = .bool true := by
    rcases hv with ⟨rfl, _⟩ | ⟨rfl, _⟩ | ⟨rfl, _⟩ | ⟨_, rfl⟩
    · exact fun e => absurd e (by decide)
    · exact fun e => absurd e (by decide)
    · exact fun e => absurd e (by decide)
    · exact fun _ => rfl
  have hj := fromJwt_given h hC hne hver oidc_IdToken
  unfold endSessionVerify endSessionRest hintVerify
  simp only [hj, C140_verify_id_token h hC hv]

/-- **C140**, back-channel logout requests: `skew=0`, `verify=True`, and no permitted algorithm -/
theorem C140_back_channel {C : Crypto} {kw kw' : Dict} {n : String} {v : Val} (h : GivenArg kw kw' n v) (hC : KeysIgnore C n)
    (hv : (n = "skew" ∧ v = .int 0) ∨ (n = "allowed_sign_alg" ∧ v.truthy = false) ∨ (n = "verify" ∧ v = .bool true))
    (now : Int) (st : Dict) (jar : JarArg C) :
    backChannelVerify C now st jar kw' = backChannelVerify C now st jar kw := by
  have hne : ∀ m ∈ ["encalg", "encenc", "sigalg"], m ≠ n := by
    rcases hv with ⟨rfl, _⟩ | ⟨rfl, _⟩ | ⟨rfl, _⟩ <;> decide
  have hver : n = "verify" → v = .bool true := by
    rcases hv with ⟨rfl, _⟩ | ⟨rfl, _⟩ | ⟨_, rfl⟩
    · exact fun e => absurd e (by decide)
    · exact fun e => absurd e (by decide)
    · exact fun _ => rfl
  have hj := fromJwt_given h hC hne hver session_LogoutToken
  have hl : ∀ st hdr, logoutTokenVerify now st hdr kw' = logoutTokenVerify now st hdr kw := by
    intro st hdr
    rcases hv with hv | hv | ⟨rfl, _⟩
    · exact C140_logout_token h (.inl hv) now st hdr
    · exact C140_logout_token h (.inr hv) now st hdr
    · unfold logoutTokenVerify audArg matchArg timeCheck numArg logoutAlg
      rw [h.rest "aud" (by decide), h.rest "iss" (by decide), h.rest "skew" (by decide), h.rest "allowed_sign_alg" (by decide)]
  unfold backChannelVerify
  simp only [hj, hl]

/-- a configuration whose issuer is not https -/
def httpConfig : Dict :=
  [("issuer", .str "http://op"), ("jwks_uri", .str "http://op/jwks"),
   ("authorization_endpoint", .str "http://op/a"), ("response_types_supported", .list [.str "id_token"]),
   ("subject_types_supported", .list [.str "public"]), ("id_token_signing_alg_values_supported", .list [.str "RS256"])]

/-- **C140**, where it fails: `allow_http=False` allows http; `None` is not as if left out for the permitted algorithm of an ID token,
for the skew, for the client, and for `verify`, which it turns off. -/
theorem C140_counterexamples :
    (providerConfigVerify (fun _ => true) httpConfig [("allow_http", .bool false)] = .ok () ∧
      providerConfigVerify (fun _ => true) httpConfig [] = .error .schemeError) ∧
    (verifyIdToken toy 1500 [("id_token", .str "T")] "id_token" false (some (some ())) [("allowed_sign_alg", .none)] =
        .error .unsupportedAlgorithm ∧
      (verifyIdToken toy 1500 [("id_token", .str "T")] "id_token" false (some (some ())) []).isOk = true) ∧
    (idTokenVerify 1500 toyClaims [("skew", .none)] = .error .typeError ∧ idTokenVerify 1500 toyClaims [] = .ok ()) ∧
    idTokenVerify 1500 toyClaims [("client_id", .none)] = .error .notForMe ∧
    ((verifyIdToken (toyCrypto toyTokens ["https://op"] []) 1500 [("id_token", .str "T")] "id_token" false (some (some ()))
        [("verify", .none)]).isOk = true ∧
      verifyIdToken (toyCrypto toyTokens ["https://op"] []) 1500 [("id_token", .str "T")] "id_token" false (some (some ())) [] =
        .error .missingSigningKey) := by
  decide +kernel

/-! The hypotheses can be met: the toy key jar looks at no argument. -/

example : KeysIgnore toy "skew" ∧ GivenArg [("iss", .str "https://op")] (dset [("iss", .str "https://op")] "skew" (.int 0)) "skew" (.int 0) :=
  ⟨fun _ _ _ _ _ => rfl, given_dset _ rfl⟩

end Verif
