import Verif.Props.Milder
import Verif.Props.Optional
import Verif.Props.EqualVerdict

/-!
# C157: what a class accepts, the class it is derived from accepts
-/

namespace Verif

/-- the classes with the classes they are derived from, without `AuthorizationResponse` (below) and the pieces of evidence, which
are never accepted (C70); the `class` lines of oauth2/__init__.py:54-360, device_authorization.py:28, oidc/__init__.py:259-1111,
identity_assurance.py:151-505, session.py:27-81 -/
def derivedPairs : List (Schema × Schema) :=
   [(oauth2_AuthorizationErrorResponse, oauth2_ResponseMessage),
    (oauth2_TokenErrorResponse, oauth2_ResponseMessage),
    (oauth2_AuthorizationResponse, oauth2_ResponseMessage),
    (oauth2_AccessTokenResponse, oauth2_ResponseMessage),
    (oauth2_NoneResponse, oauth2_ResponseMessage),
    (oauth2_JWTSecuredAuthorizationRequest, oauth2_AuthorizationRequest),
    (oauth2_PushedAuthorizationRequest, oauth2_AuthorizationRequest),
    (device_AccessTokenRequest, oidc_AccessTokenRequest),
    (oidc_RefreshAccessTokenRequest, oauth2_RefreshAccessTokenRequest),
    (oidc_TokenErrorResponse, oauth2_TokenErrorResponse),
    (oidc_AccessTokenResponse, oauth2_AccessTokenResponse),
    (oidc_AuthorizationErrorResponse, oauth2_AuthorizationErrorResponse),
    (oidc_AuthorizationRequest, oauth2_AuthorizationRequest),
    (oidc_AccessTokenRequest, oauth2_AccessTokenRequest),
    (oidc_OpenIDSchema, oauth2_ResponseMessage),
    (oidc_RegistrationResponse, oauth2_ResponseMessage),
    (oidc_ClientRegistrationErrorResponse, oauth2_ResponseMessage),
    (oidc_IdToken, oidc_OpenIDSchema),
    (oidc_OpenIDRequest, oidc_AuthorizationRequest),
    (oidc_ProviderConfigurationResponse, oauth2_ResponseMessage),
    (oidc_AuthnToken, oidc_JsonWebToken),
    (oidc_UserInfoErrorResponse, oauth2_ResponseMessage),
    (oidc_JRD, oauth2_ResponseMessage),
    (session_RefreshSessionRequest, oidc_MessageWithIdToken),
    (session_RefreshSessionResponse, oidc_MessageWithIdToken),
    (session_RefreshSessionResponse, oauth2_ResponseMessage),
    (session_CheckSessionRequest, oidc_MessageWithIdToken),
    (session_EndSessionResponse, oauth2_ResponseMessage),
    (ida_IdentityAssuranceClaims, oidc_OpenIDSchema),
    (ida_Provider, oidc_AddressClaim),
    (ida_IDAClaimsRequest, oidc_ClaimsRequest)]

/-- how `_type_check` treats a type -/
def VTyp.way : VTyp → Nat
  | .single .str => 0
  | .single .int => 0
  | .list _ => 1
  | _ => 2

/-- allowed values are at most as many, and compared in the same way -/
def refinesAllowed (p q : Spec) (av : Option (List Val)) (av' : Option (List Val)) : Bool :=
  match av, av' with
  | none, _ => true
  | some _, none => false
  | some a, some a' => a'.all (Val.memList · a) && p.vtyp.way == q.vtyp.way && p.nullAllowed == q.nullAllowed

/-- a parameter `p` of the base class, as the derived class has it -/
def refinesParam (sub sup : Schema) (n : String) (p : Spec) : Bool :=
  match dget sub.params n with
  | none => !p.required && (dget sup.allowed n).isNone
  | some q => (!p.required || q.required) && p.vtyp.isBool == q.vtyp.isBool && refinesAllowed p q (dget sup.allowed n) (dget sub.allowed n)

/-- the derived class insists on everything the base class insists on -/
def refines (sub sup : Schema) : Bool := sup.params.all fun p => p.1 == "*" || refinesParam sub sup p.1 p.2

theorem typeCheck_way {t t' : VTyp} {a a' : List Val} {v : Val} {na : Bool} (hw : t.way = t'.way) (hs : a'.all (Val.memList · a) = true)
    (h : typeCheck t' a' v na = true) : typeCheck t a v na = true := by
  have mem : ∀ x, Val.memList x a' = true → Val.memList x a = true := by
    intro x hx
    simp only [Val.memList, List.any_eq_true, List.all_eq_true] at hx hs ⊢
    obtain ⟨y, hy, hxy⟩ := hx
    obtain ⟨z, hz, hyz⟩ := hs y hy
    exact ⟨z, hz, val_eq_trans _ _ _ hxy hyz⟩
  have one : ∀ (l : List Val), l.all (fun v => Val.memList v a') = true → l.all (fun v => Val.memList v a) = true := by
    intro l hl
    rw [List.all_eq_true] at hl ⊢
    exact fun x hx => mem x (hl x hx)
  cases t with
  | single s =>
    cases t' with
    | single s' => cases s <;> cases s' <;> simp [VTyp.way] at hw <;> first | exact mem _ h | exact h
    | list s' => cases s <;> simp [VTyp.way] at hw
  | list s =>
    cases t' with
    | single s' => cases s' <;> simp [VTyp.way] at hw
    | list s' =>
      unfold typeCheck at h ⊢
      cases v <;> first | exact one _ h | rfl

theorem refines_base {sub sup : Schema} (h : refines sub sup = true) (st : Dict) : Permits (verifyBase sub st) (verifyBase sup st) := by
  intro u hu
  cases u
  unfold refines at h
  rw [List.all_eq_true] at h
  have each : ∀ (ps : List (String × Spec)), verifyParams sub.allowed st ps = .ok () → ∀ p ∈ ps, verifyParam sub.allowed st p.1 p.2 = .ok () := by
    intro ps
    induction ps with
    | nil => intro _ p hp; cases hp
    | cons q qs ih =>
      intro hq p hp
      unfold verifyParams at hq
      split at hq
      · cases hq
      · rename_i h1
        rcases List.mem_cons.mp hp with rfl | hp
        · exact h1
        · exact ih hq p hp
  have hsub := each _ hu
  unfold verifyBase
  have all : ∀ (ps : List (String × Spec)), (∀ p ∈ ps, verifyParam sup.allowed st p.1 p.2 = .ok ()) → verifyParams sup.allowed st ps = .ok () := by
    intro ps
    induction ps with
    | nil => intro _; rfl
    | cons q qs ih =>
      intro hq
      unfold verifyParams
      rw [hq q (by simp)]
      exact ih fun p hp => hq p (by simp [hp])
  refine all _ fun p hp => ?_
  obtain ⟨n, p⟩ := p
  have hp := h _ hp
  unfold verifyParam
  by_cases hn : n = "*"
  · rw [if_pos hn]
  rw [if_neg hn]
  simp only [beq_iff_eq, hn, Bool.false_or, Bool.or_eq_true, false_or] at hp
  unfold refinesParam at hp
  cases hq : dget sub.params n with
  | none =>
    rw [hq] at hp
    simp only [Bool.and_eq_true, Bool.not_eq_true', Option.isNone_iff_eq_none] at hp
    rw [hp.1, hp.2]
    cases dget st n with
    | none => rfl
    | some v => simp
  | some q =>
    rw [hq] at hp
    simp only [Bool.and_eq_true, Bool.or_eq_true, Bool.not_eq_true', beq_iff_eq] at hp
    obtain ⟨⟨hr, hb⟩, ha⟩ := hp
    have hs := hsub _ (dget_mem hq)
    unfold verifyParam at hs
    rw [if_neg hn] at hs
    simp only [] at hs
    cases hv : dget st n with
    | none =>
      rw [hv] at hs
      simp only [] at hs ⊢
      rcases hr with hr | hr
      · rw [hr]; rfl
      · rw [hr] at hs; cases hs
    | some v =>
      rw [hv] at hs
      simp only [] at hs ⊢
      rw [hb]
      split at hs
      · rename_i hf
        rw [if_pos hf]
        rcases hr with hr | hr
        · rw [hr]; rfl
        · rw [hr] at hs; cases hs
      · rename_i hf
        rw [if_neg hf]
        unfold refinesAllowed at ha
        cases h1 : dget sup.allowed n with
        | none => rfl
        | some a =>
          rw [h1] at ha
          cases h2 : dget sub.allowed n with
          | none => rw [h2] at ha; cases ha
          | some a' =>
            rw [h2] at ha hs
            simp only [Bool.and_eq_true, beq_iff_eq] at ha hs ⊢
            split at hs
            · rename_i ht
              rw [if_pos (typeCheck_way ha.1.2 ha.1.1 (ha.2 ▸ ht))]
            · cases hs

theorem derived_refine : ∀ p ∈ derivedPairs, refines p.1 p.2 = true := by decide +kernel

/-- **C157**, what every class checks -/
theorem C157_base : ∀ p ∈ derivedPairs, ∀ st, verifyBase p.1 st = .ok () → verifyBase p.2 st = .ok () :=
  fun p hp st h => refines_base (derived_refine p hp) st () h

theorem derived {sub sup : Schema} (h : (sub, sup) ∈ derivedPairs) (st : Dict) : Permits (verifyBase sub st) (verifyBase sup st) :=
  fun _ => C157_base _ h st

theorem derived_response {sub sup : Schema} (h : refines sub sup = true) (st : Dict) : Permits (responseVerify sub st) (responseVerify sup st) :=
  permits_bind (refines_base h st) fun _ => permits_rfl _

/-- **C157**, responses without a method of their own, and what the others have in common -/
theorem C157_response : ∀ p ∈ derivedPairs, ∀ st, responseVerify p.1 st = .ok () → responseVerify p.2 st = .ok () :=
  fun p hp st h => derived_response (derived_refine p hp) st () h

theorem ok_first {x : Res α} {f : α → Res β} {b : β} (h : (x >>= f) = .ok b) : ∃ a, x = .ok a ∧ f a = .ok b := by
  cases x with
  | error e => cases h
  | ok a => exact ⟨a, rfl, h⟩

/-- **C157**, token responses -/
theorem C157_token_response {C : Crypto} {now : Int} {st kw a : Dict} {jar : JarArg C} (h : accessTokenResponseVerify C now st jar kw = .ok a) :
    responseVerify oauth2_AccessTokenResponse st = .ok () := by
  obtain ⟨_, h1, _⟩ := ok_first h
  exact C157_response (oidc_AccessTokenResponse, oauth2_AccessTokenResponse) (by simp [derivedPairs]) st h1

/-- **C157**, registration responses and provider configurations -/
theorem C157_registration_response {st : Dict} (h : registrationResponseVerify st = .ok ()) : responseVerify oauth2_ResponseMessage st = .ok () := by
  obtain ⟨_, h1, _⟩ := ok_first h
  exact C157_response (oidc_RegistrationResponse, oauth2_ResponseMessage) (by simp [derivedPairs]) st h1
theorem C157_provider_config {f : List Char → Bool} {st kw : Dict} (h : providerConfigVerify f st kw = .ok ()) :
    responseVerify oauth2_ResponseMessage st = .ok () := by
  obtain ⟨_, h1, _⟩ := ok_first h
  exact C157_response (oidc_ProviderConfigurationResponse, oauth2_ResponseMessage) (by simp [derivedPairs]) st h1

/-- **C157**, authorization requests -/
theorem C157_authz_request {C : Crypto} {st kw a : Dict} {jar : JarArg C} (h : authzRequestVerify C st jar kw = .ok a) :
    verifyBase oauth2_AuthorizationRequest st = .ok () := by
  obtain ⟨_, h1, _⟩ := ok_first h
  exact C157_base (oidc_AuthorizationRequest, oauth2_AuthorizationRequest) (by simp [derivedPairs]) st h1

/-- **C157**, token requests of the device flow -/
theorem C157_device {st : Dict} (h : deviceTokenRequestVerify st = .ok ()) :
    verifyBase oidc_AccessTokenRequest st = .ok () ∧ verifyBase oauth2_AccessTokenRequest st = .ok () := by
  obtain ⟨_, h1, _⟩ := ok_first h
  have h2 := C157_base (device_AccessTokenRequest, oidc_AccessTokenRequest) (by simp [derivedPairs]) st h1
  exact ⟨h2, C157_base (oidc_AccessTokenRequest, oauth2_AccessTokenRequest) (by simp [derivedPairs]) st h2⟩

/-- **C157**, authentication tokens -/
theorem C157_authn_token {now : Int} {st kw : Dict} (h : jsonWebTokenVerify now oidc_AuthnToken st kw = .ok ()) :
    jsonWebTokenVerify now oidc_JsonWebToken st kw = .ok () :=
  permits_bind (derived (sub := oidc_AuthnToken) (sup := oidc_JsonWebToken) (by simp [derivedPairs]) st) (fun _ => permits_rfl _) _ h

/-- **C157**, messages with an ID token: the same message is left behind -/
theorem C157_with_id_token {C : Crypto} {now : Int} {sub : Schema} (hs : (sub, oidc_MessageWithIdToken) ∈ derivedPairs) {st kw a : Dict} {jar : JarArg C}
    (h : messageWithIdTokenVerify C now sub st jar kw = .ok a) : messageWithIdTokenVerify C now oidc_MessageWithIdToken st jar kw = .ok a := by
  refine permits_bind ?_ (fun _ => permits_rfl _) _ h
  intro u hu
  cases u
  have e : besideIdTokenVerify oidc_MessageWithIdToken st = verifyBase oidc_MessageWithIdToken st := by
    unfold besideIdTokenVerify; rw [if_neg (by decide)]
  rw [e]
  unfold besideIdTokenVerify at hu
  split at hu
  · obtain ⟨_, h1, _⟩ := ok_first hu
    exact C157_base _ hs st h1
  · exact C157_base _ hs st hu

/-- **C157**, the answer to a session refresh is a response, too -/
theorem C157_refresh_session {C : Crypto} {now : Int} {st kw a : Dict} {jar : JarArg C}
    (h : messageWithIdTokenVerify C now session_RefreshSessionResponse st jar kw = .ok a) : responseVerify oauth2_ResponseMessage st = .ok () := by
  obtain ⟨_, h1, _⟩ := ok_first h
  unfold besideIdTokenVerify at h1
  rw [if_pos (by decide)] at h1
  exact C157_response (session_RefreshSessionResponse, oauth2_ResponseMessage) (by simp [derivedPairs]) st h1

/-- **C157**, assured claims: the same answer -/
theorem C157_identity_assurance {st : Dict} {b : Bool} (h : openIdSchemaVerify ida_IdentityAssuranceClaims st = .ok b) :
    openIdSchemaVerify oidc_OpenIDSchema st = .ok b :=
  permits_bind (derived_response (derived_refine (ida_IdentityAssuranceClaims, oidc_OpenIDSchema) (by simp [derivedPairs])) st)
    (fun _ => permits_rfl _) _ h

/-- **C157**, claims requests with assurance -/
theorem C157_claims_request {n : Nat} {st a : Dict} (h : idaClaimsRequestVerify n st = .ok a) : verifyBase oidc_ClaimsRequest st = .ok () := by
  obtain ⟨_, h1, _⟩ := ok_first h
  exact C157_base (ida_IDAClaimsRequest, oidc_ClaimsRequest) (by simp [derivedPairs]) st h1

/-- **C157**, ID tokens as user info.  What is missing: the answer need not be `True` (`C157_counterexample_id_token`); it is when
no claim is null. -/
theorem C157_id_token_partial {now : Int} {st kw : Dict} (h : idTokenVerify now st kw = .ok ()) :
    ∃ b, openIdSchemaVerify oidc_OpenIDSchema st = .ok b ∧ ((∀ p ∈ st, p.2 ≠ .none) → b = true) := by
  obtain ⟨b, h1, _⟩ := ok_first h
  refine ⟨b, permits_bind (derived_response (derived_refine (oidc_IdToken, oidc_OpenIDSchema) (by simp [derivedPairs])) st)
    (fun _ => permits_rfl _) _ h1, fun hn => ?_⟩
  obtain ⟨_, _, h2⟩ := ok_first h1
  obtain ⟨_, _, h3⟩ := ok_first h2
  cases h3
  simp only [Bool.not_eq_true', List.any_eq_false]
  intro p hp
  have := hn p hp
  cases hv : p.2 <;> simp_all [Val.isNone]

theorem C157_counterexample_id_token :
    (idTokenVerify 1500 (toyClaims ++ [("email", .none)]) []).isOk = true ∧
    openIdSchemaVerify oidc_OpenIDSchema (toyClaims ++ [("email", .none)]) = .ok false := by decide +kernel

/-! ## authorization responses, which need not have what either of their base classes requires -/

/-- the class without its demands on some parameters -/
def Schema.without (sch : Schema) (ns : List String) : Schema := { sch with params := sch.params.filter fun p => !ns.contains p.1 }

theorem verifyBase_with {sch : Schema} {ns : List String} {st : Dict} (ha : ∀ n ∈ ns, dget sch.allowed n = none)
    (ht : ∀ n ∈ ns, ∃ v, dget st n = some v ∧ v.truthy = true) : Permits (verifyBase (sch.without ns) st) (verifyBase sch st) := by
  intro u hu
  cases u
  unfold verifyBase Schema.without at *
  simp only [] at hu
  generalize sch.params = ps at hu
  induction ps with
  | nil => rfl
  | cons p ps ih =>
    obtain ⟨n, sp⟩ := p
    by_cases hn : ns.contains n = true
    · simp only [List.filter_cons, hn, Bool.not_true, Bool.false_eq_true, if_false] at hu
      unfold verifyParams
      have hm : n ∈ ns := by simpa using hn
      obtain ⟨v, h1, h2⟩ := ht n hm
      have : verifyParam sch.allowed st n sp = .ok () := by
        unfold verifyParam
        split
        · rfl
        · rw [h1, ha n hm]
          simp [h2]
      rw [this]
      exact ih hu
    · simp only [List.filter_cons, hn, Bool.not_false, if_true] at hu
      unfold verifyParams at hu ⊢
      split at hu
      · cases hu
      · exact ih hu

/-- **C157**, authorization responses with a code.  What is missing: they are accepted without one, too. -/
theorem C157_authz_response_partial {C : Crypto} {now : Int} {st kw : Dict} {jar : JarArg C} {r : Bool × Dict}
    (h : authzResponseVerify C now st jar kw = .ok r) (hc : ∃ v, dget st "code" = some v ∧ v.truthy = true) :
    oauth2AuthzResponseVerify oauth2_AuthorizationResponse st kw = .ok () := by
  obtain ⟨_, h1, _⟩ := ok_first h
  refine permits_bind ?_ (fun _ => permits_rfl _) _ h1
  refine permits_bind ?_ fun _ => permits_rfl _
  have hr : refines oidc_AuthorizationResponse (oauth2_AuthorizationResponse.without ["code"]) = true := by decide +kernel
  intro u hu
  refine verifyBase_with (sch := oauth2_AuthorizationResponse) (ns := ["code"]) ?_ ?_ u (refines_base hr st u hu)
  · intro n hn; simp only [List.mem_singleton] at hn; subst hn; rfl
  · intro n hn; simp only [List.mem_singleton] at hn; subst hn; exact hc

/-- **C157**, authorization responses with an access token and its type.  What is missing: they are accepted without these, too. -/
theorem C157_authz_response_token_partial {C : Crypto} {now : Int} {st kw : Dict} {jar : JarArg C} {r : Bool × Dict}
    (h : authzResponseVerify C now st jar kw = .ok r) (ha : ∃ v, dget st "access_token" = some v ∧ v.truthy = true)
    (ht : ∃ v, dget st "token_type" = some v ∧ v.truthy = true) : responseVerify oauth2_AccessTokenResponse st = .ok () := by
  obtain ⟨_, h1, _⟩ := ok_first h
  obtain ⟨_, h2, _⟩ := ok_first h1
  refine permits_bind ?_ (fun _ => permits_rfl _) _ h2
  have hr : refines oidc_AuthorizationResponse (oauth2_AccessTokenResponse.without ["access_token", "token_type"]) = true := by decide +kernel
  intro u hu
  refine verifyBase_with (sch := oauth2_AccessTokenResponse) (ns := ["access_token", "token_type"]) ?_ ?_ u (refines_base hr st u hu)
  · intro n hn; simp only [List.mem_cons, List.not_mem_nil, or_false] at hn; rcases hn with rfl | rfl <;> rfl
  · intro n hn; simp only [List.mem_cons, List.not_mem_nil, or_false] at hn
    rcases hn with rfl | rfl
    · exact ha
    · exact ht

theorem C157_counterexample_authz_response :
    (authzResponseVerify toy 1500 [("id_token", .str "T")] (some (some ())) strictArgs).isOk = true ∧
    oauth2AuthzResponseVerify oauth2_AuthorizationResponse [("id_token", .str "T")] strictArgs = .error .missingRequiredAttribute ∧
    responseVerify oauth2_AccessTokenResponse [("id_token", .str "T")] = .error .missingRequiredAttribute := by decide +kernel

/-- secured and pushed requests do not look at what their base class requires -/
theorem C157_counterexample_requests :
    (jwtSecuredVerify toy [("request_uri", .str "https://rp/r")] (some (some ())) []).isOk = true ∧
    (pushedVerify toy [] (some (some ())) []).isOk = true ∧
    verifyBase oauth2_AuthorizationRequest [("request_uri", .str "https://rp/r")] = .error .missingRequiredAttribute ∧
    verifyBase oauth2_AuthorizationRequest [] = .error .missingRequiredAttribute := by decide +kernel

/-- the hypotheses are met -/
example : derivedPairs.length = 31 ∧ (session_CheckSessionRequest, oidc_MessageWithIdToken) ∈ derivedPairs := ⟨by decide, by simp [derivedPairs]⟩
example : (jsonWebTokenVerify 1500 oidc_AuthnToken [("iss", .str "c"), ("sub", .str "c"), ("aud", .list [.str "op"]), ("jti", .str "1"), ("exp", .int 2000)] []).isOk = true ∧
    (authzResponseVerify boundToy 1500 [("id_token", .str "T"), ("access_token", .str "at"), ("token_type", .str "Bearer"), ("code", .str "code")]
      (some (some ())) strictArgs).isOk = true := by decide +kernel
/-- the converse fails: the base classes accept more -/
example : verifyBase oauth2_AuthorizationRequest [("response_type", .list [.str "code"]), ("client_id", .str "c")] = .ok () ∧
    verifyBase oidc_AuthorizationRequest [("response_type", .list [.str "code"]), ("client_id", .str "c")] = .error .missingRequiredAttribute := by
  decide +kernel

end Verif
