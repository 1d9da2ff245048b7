import Verif.Props.Verdict
import Verif.Props.HonestFlow
import Verif.Props.Unknown
import Verif.Props.Requests
import Verif.Props.Vocabulary

/-!
# C135 for the classes with a `verify` method of their own

A message that was received as it was sent is treated by the receiver as its sender would treat it: the same answer, the same
exception, the same values afterwards.
-/

namespace Verif

/-- the values that come back from a form as they were: a text in a single-valued parameter without deserialiser (also one declared
as a message, such as an ID token), and what `UrlReturns` says. -/
inductive FormKept (sch : Schema) (k : String) : Val → Prop
  | text {b sp t s} : lookupSpec sch.params k = some (b, sp) → sp.vtyp = .single t → sp.deser = none → s ≠ "" →
      FormKept sch k (.str s)
  | returns {v} : UrlReturns sch k v (some v) → FormKept sch k v

theorem FormKept.entry {env : SerEnv} {sch : Schema} {k : String} {v : Val} (h : FormKept sch k v) :
    UrlEntry env sch k v (some v) := by
  cases h with
  | text h1 h2 h3 hs => exact urlEntry_text env h1 h2 h3 hs
  | returns h => exact entry_url env sch k _ _ h

/-- `r` is what the receiver of the message `st` has: it was written as JSON or as a form and read into a fresh instance, which begins with
the defaults of the class; the sender's has values for these, too. -/
inductive Arrives (sch : Schema) (st r : Dict) : Prop
  | json (txt : String) : (∀ k v, (k, v) ∈ st → JsonFaithful sch k v) → toJson libEnv sch.cls st = .ok txt →
      fromJson sch sch.default txt = .ok r → Arrives sch st r
  | form (txt : String) : st ≠ [] → (∀ k v, (k, v) ∈ st → FormKept sch k v) → toUrlencoded libEnv sch st = .ok txt →
      fromUrlencoded sch sch.default txt = .ok r → Arrives sch st r

theorem defaults_nodup : allSchemas.all (fun s => decide (dkeys s.default).Nodup) = true := by decide +kernel

theorem fromJson_nodup {sch : Schema} {st0 r : Dict} {txt : String} (h : fromJson sch st0 txt = .ok r) (hn : DNodup st0) :
    DNodup r := by
  obtain ⟨v, d, h1, h2, h3⟩ := fromJson_ok h
  exact fromDictR_nodup h3 hn

theorem addUrls_nodup {sch : Schema} {info : Assoc (List String)} {st st' : Dict} (h : addUrls sch st info = .ok st')
    (hn : DNodup st) : DNodup st' := by
  induction info generalizing st with
  | nil => cases h; exact hn
  | cons p info ih =>
    obtain ⟨k, vs⟩ := p
    simp only [addUrls] at h
    cases ha : addUrl sch st k vs with
    | error e => rw [ha] at h; cases h
    | ok s1 =>
      rw [ha] at h
      obtain ⟨x, e, -⟩ := addUrl_get ha
      exact ih h (e ▸ dset_nodup hn _ _)

theorem libEnv_all {sch : Schema} (hs : sch ∈ allSchemas) (k : String) : libEnv sch.cls k = serFor sch.params k := by
  have : (allSchemas.map Schema.cls).Nodup := by decide +kernel
  simp only [libEnv, SerEnv.ser]
  rw [find_cls _ this sch hs]

/-- What is received is what was sent. -/
theorem received_same {sch : Schema} (hs : sch ∈ allSchemas) {st r : Dict} (hn : DNodup st)
    (hd : ∀ k ∈ dkeys sch.default, k ∈ dkeys st) (h : Arrives sch st r) : DNodup r ∧ ∀ k, dget r k = dget st k := by
  have hdn : DNodup sch.default := by simpa [DNodup] using List.all_eq_true.1 defaults_nodup sch hs
  have key : ∀ k, dget r k = (dget st k).or (dget sch.default k) → dget r k = dget st k := by
    intro k e
    rw [e]
    cases hst : dget st k with
    | some v => rfl
    | none =>
      have : k ∉ dkeys sch.default := fun hm => (dget_eq_none_iff st k).1 hst (hd k hm)
      rw [(dget_eq_none_iff _ k).2 this]; rfl
  cases h with
  | json txt hf hw hr =>
    refine ⟨fromJson_nodup hr hdn, fun k => key k ?_⟩
    obtain ⟨txt', h1, -, h3⟩ := C07_json_roundtrip libEnv sch (libEnv_all hs) st hn hf
    rw [hw] at h1; cases h1
    obtain ⟨r', h4, h5⟩ := h3 sch.default
    rw [hr] at h4; cases h4
    exact h5 k
  | form txt hne hf hw hr =>
    have hreq : ¬ RequiredMissing sch st := by
      intro hm
      have := (anyMissing_iff sch st).2 hm
      simp only [toUrlencoded, urlFinish, this, if_true] at hw
      unfold raiseMissing at hw
      split at hw <;> cases hw
    obtain ⟨txt', h1, h2⟩ := url_same libEnv sch st hn hne (fun k v hm => (hf k v hm).entry) hreq
    rw [hw] at h1; cases h1
    obtain ⟨r', h5, h6⟩ := form_start h2 sch.default
    rw [hr] at h5; cases h5
    refine ⟨?_, fun k => key k (h6 k)⟩
    unfold fromUrlencoded at hr
    simp only at hr
    split at hr
    · cases hr
    · exact addUrls_nodup hr hdn

/-- a message that was sent and received -/
structure Sent (sch : Schema) (st r : Dict) : Prop where
  listed : sch ∈ allSchemas
  nodup : DNodup st
  defaults : ∀ k ∈ dkeys sch.default, k ∈ dkeys st
  received : Arrives sch st r

theorem Sent.same {sch : Schema} {st r : Dict} (h : Sent sch st r) (k : String) : dget r k = dget st k :=
  (received_same h.listed h.nodup h.defaults h.received).2 k

theorem Sent.equal {sch : Schema} {st r : Dict} (h : Sent sch st r) (N : String → Prop) : EqualAt N st r := fun k _ => h.same k

/-! ## the classes without parameters from outside -/

/-- **C135**, the classes without a `verify` of their own, and the base of all others -/
theorem C135_base {sch : Schema} {st r : Dict} (h : Sent sch st r) : verifyBase sch r = verifyBase sch st :=
  verifyBase_equalAt (h.equal _)

/-- **C135**, responses -/
theorem C135_response {sch : Schema} {st r : Dict} (h : Sent sch st r) : responseVerify sch r = responseVerify sch st := by
  unfold responseVerify errorDescription
  rw [C135_base h, h.same]

/-- **C135**, user info: also the `False` for a null among the claims -/
theorem C135_user_info {sch : Schema} {st r : Dict} (h : Sent sch st r) : openIdSchemaVerify sch r = openIdSchemaVerify sch st := by
  have hn := (received_same h.listed h.nodup h.defaults h.received).1
  have e : r.any (fun p => p.2.isNone) = st.any (fun p => p.2.isNone) := by
    rw [Bool.eq_iff_iff, List.any_eq_true, List.any_eq_true]
    constructor
    · rintro ⟨⟨k, v⟩, hm, hv⟩
      exact ⟨(k, v), dget_mem (h.same k ▸ mem_dget hn hm), hv⟩
    · rintro ⟨⟨k, v⟩, hm, hv⟩
      exact ⟨(k, v), dget_mem ((h.same k).symm ▸ mem_dget h.nodup hm), hv⟩
  unfold openIdSchemaVerify birthdateCheck
  rw [C135_response h, h.same, e]

/-- **C135**, registration -/
theorem C135_registration_request {st r : Dict} (h : Sent oidc_RegistrationRequest st r) :
    Alike (EqualAt (Known oidc_RegistrationRequest)) (registrationRequestVerify st) (registrationRequestVerify r) :=
  C131_registration_request (h.equal _)

theorem C135_registration_response {st r : Dict} (h : Sent oidc_RegistrationResponse st r) :
    registrationResponseVerify r = registrationResponseVerify st :=
  C131_registration_response (h.equal _)

/-- **C135**, token requests of the device flow -/
theorem C135_device_token_request {st r : Dict} (h : Sent device_AccessTokenRequest st r) :
    deviceTokenRequestVerify r = deviceTokenRequestVerify st :=
  C131_device_token_request_partial (h.equal _) (h.same _)

/-! ## the classes whose verification depends on arguments

The sender's verdict is the one with the arguments of the receiver. -/

/-- **C135**, OAuth 2 authorization responses -/
theorem C135_oauth2_authz_response {st r kw : Dict} (h : Sent oauth2_AuthorizationResponse st r) :
    oauth2AuthzResponseVerify oauth2_AuthorizationResponse r kw = oauth2AuthzResponseVerify oauth2_AuthorizationResponse st kw :=
  C131_oauth2_authz_response (h.equal _)

/-- **C135**, ID tokens, logout tokens and other JSON web tokens (their content) -/
theorem C135_id_token {now : Int} {st r kw : Dict} (h : Sent oidc_IdToken st r) : idTokenVerify now r kw = idTokenVerify now st kw :=
  C131_id_token (h.equal _)

theorem C135_json_web_token {now : Int} {sch : Schema} {st r kw : Dict} (h : Sent sch st r)
    (hk : ∀ k ∈ ["exp", "iat", "nbf", "aud", "iss"], Known sch k) :
    jsonWebTokenVerify now sch r kw = jsonWebTokenVerify now sch st kw :=
  C131_json_web_token (h.equal _) hk

theorem C135_logout_token {now : Int} {st r kw : Dict} {hdr : Option Dict} (h : Sent session_LogoutToken st r) :
    logoutTokenVerify now r hdr kw = logoutTokenVerify now st hdr kw :=
  C131_logout_token (h.equal _) (h.same _)

/-- **C135**, provider configurations -/
theorem C135_provider_config {netlocOk : List Char → Bool} {st r kw : Dict} (h : Sent oidc_ProviderConfigurationResponse st r) :
    providerConfigVerify netlocOk r kw = providerConfigVerify netlocOk st kw :=
  C131_provider_config (h.equal _)

/-- **C135**, token responses -/
theorem C135_token_response {C : Crypto} {now : Int} {st r : Dict} {jar : JarArg C} {kw : Dict} (h : Sent oidc_AccessTokenResponse st r) :
    Alike (EqualAt (KnownOrSlot oidc_AccessTokenResponse)) (accessTokenResponseVerify C now st jar kw)
      (accessTokenResponseVerify C now r jar kw) :=
  C131_token_response (h.equal _)

/-- **C135**, authorization responses -/
theorem C135_authz_response {C : Crypto} {now : Int} {st r : Dict} {jar : JarArg C} {kw : Dict}
    (h : Sent oidc_AuthorizationResponse st r) :
    Alike (fun a b => b.1 = a.1 ∧ EqualAt (KnownOrSlot oidc_AuthorizationResponse) a.2 b.2)
      (authzResponseVerify C now st jar kw) (authzResponseVerify C now r jar kw) :=
  C131_authz_response_partial (h.equal _) (h.same _)

/-- **C135**, the session messages with an ID token -/
theorem C135_message_with_id_token {C : Crypto} {now : Int} {sch : Schema} {st r : Dict} {jar : JarArg C} {kw : Dict}
    (hs : sch ∈ [session_RefreshSessionRequest, session_RefreshSessionResponse, session_CheckSessionRequest]) (h : Sent sch st r) :
    Alike (EqualAt (Known sch)) (messageWithIdTokenVerify C now sch st jar kw) (messageWithIdTokenVerify C now sch r jar kw) := by
  refine C131_message_with_id_token (h.equal _) ?_ ?_ <;>
    simp only [List.mem_cons, List.not_mem_nil, or_false] at hs <;> rcases hs with rfl | rfl | rfl <;> decide

/-- **C135**, logout -/
theorem C135_end_session {C : Crypto} {now : Int} {st r : Dict} {jar : JarArg C} {kw : Dict} (h : Sent session_EndSessionRequest st r) :
    Alike (fun a b => b.1 = a.1 ∧ EqualAt (KnownOrSlot session_EndSessionRequest) a.2 b.2)
      (endSessionVerify C now st jar kw) (endSessionVerify C now r jar kw) :=
  C131_end_session (h.equal _)

theorem C135_back_channel {C : Crypto} {now : Int} {st r : Dict} {jar : JarArg C} {kw : Dict}
    (h : Sent session_BackChannelLogoutRequest st r) :
    Alike (EqualAt (fun k => Known session_BackChannelLogoutRequest k ∨ k = "__verified_logout_token"))
      (backChannelVerify C now st jar kw) (backChannelVerify C now r jar kw) :=
  C131_back_channel (h.equal _)

/-- **C135**, authorization requests -/
theorem C135_authz_request {C : Crypto} {st r : Dict} {jar : JarArg C} {kw : Dict} (h : Sent oidc_AuthorizationRequest st r) :
    Alike (EqualAt (KnownOrSlot oidc_AuthorizationRequest)) (authzRequestVerify C st jar kw) (authzRequestVerify C r jar kw) :=
  C131_authz_request (h.equal _) fun _ _ _ _ _ => h.equal _

theorem C135_jwt_secured {C : Crypto} {st r : Dict} {jar : JarArg C} {kw : Dict} (h : Sent oauth2_JWTSecuredAuthorizationRequest st r) :
    Alike (EqualAt (Known oauth2_JWTSecuredAuthorizationRequest)) (jwtSecuredVerify C st jar kw) (jwtSecuredVerify C r jar kw) :=
  C131_jwt_secured (h.equal _)

theorem C135_pushed {C : Crypto} {st r : Dict} {jar : JarArg C} {kw : Dict} (h : Sent oauth2_PushedAuthorizationRequest st r) :
    Alike (EqualAt (Known oauth2_PushedAuthorizationRequest)) (pushedVerify C st jar kw) (pushedVerify C r jar kw) :=
  C131_pushed (h.equal _)

/-- an authorization response with an ID token, as a form -/
example : Sent oidc_AuthorizationResponse [("state", .str "s"), ("id_token", .str "a.b.c")] [("state", .str "s"), ("id_token", .str "a.b.c")] where
  listed := by simp [allSchemas]
  nodup := by decide
  defaults := by decide
  received := .form "state=s&id_token=a.b.c" (by simp) (by
    intro k v h
    simp only [List.mem_cons, Prod.mk.injEq, List.not_mem_nil, or_false] at h
    rcases h with ⟨rfl, rfl⟩ | ⟨rfl, rfl⟩
    · exact .text (b := false) (sp := singleOptionalString) rfl rfl rfl (by decide)
    · exact .text (b := false) (sp := ⟨.single messageTy, false, some .msg, none, false⟩) rfl rfl rfl (by decide))
    (by decide +kernel) (by decide +kernel)

/-- user info as JSON, with a null that makes the answer `False` on both sides -/
example : Sent oidc_OpenIDSchema [("sub", .str "d"), ("name", .none)] [("sub", .str "d"), ("name", .none)] ∧
    openIdSchemaVerify oidc_OpenIDSchema [("sub", .str "d"), ("name", .none)] = .ok false := by
  refine ⟨⟨by simp [allSchemas], by decide, by decide, .json "{\"sub\": \"d\", \"name\": null}" ?_ (by decide +kernel) (by decide +kernel)⟩,
    by decide +kernel⟩
  intro k v h
  simp only [List.mem_cons, Prod.mk.injEq, List.not_mem_nil, or_false] at h
  rcases h with ⟨rfl, rfl⟩ | ⟨rfl, rfl⟩
  · exact .str (b := false) (sp := singleRequiredString) rfl rfl rfl (by decide)
  · exact .null (b := false) (sp := singleOptionalString) rfl rfl rfl

end Verif
