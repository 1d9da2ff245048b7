import Verif.Props.Milder
import Verif.Props.Unknown
import Verif.Props.Registration
import Verif.Props.Requests
import Verif.Props.Logout
import Verif.Props.Authentic

/-!
# C156: what may be left out of a message
-/

namespace Verif

/-- `st'` is `st` without the parameter `k` -/
structure Omits (k : String) (st st' : Dict) : Prop where
  none : dget st' k = none
  rest : ∀ j, j ≠ k → dget st' j = dget st j

theorem omits_ddel (k : String) (st : Dict) : Omits k st (ddel st k) :=
  ⟨dget_ddel_same _ _, fun _ h => dget_ddel_ne _ (Ne.symm h)⟩

theorem Omits.get {k : String} {st st' : Dict} (h : Omits k st st') (j : String) : (j = k ∧ dget st' j = .none) ∨ dget st' j = dget st j := by
  by_cases e : j = k
  · exact .inl ⟨e, e ▸ h.none⟩
  · exact .inr (h.rest j e)

/-- the class does not require the parameter -/
def Optional (sch : Schema) (k : String) : Prop := ∀ p ∈ sch.params, p.1 = k → p.2.required = false

instance (sch : Schema) (k : String) : Decidable (Optional sch k) := inferInstanceAs (Decidable (∀ p ∈ sch.params, p.1 = k → p.2.required = false))

/-- **C156**, classes without a `verify` of their own: whatever is optional can be left out. -/
theorem C156_base {sch : Schema} {k : String} (ho : Optional sch k) {st st' : Dict} (h : Omits k st st') :
    Permits (verifyBase sch st) (verifyBase sch st') := by
  unfold verifyBase
  unfold Optional at ho
  generalize sch.params = ps at ho
  induction ps with
  | nil => exact permits_rfl _
  | cons p ps ih =>
    obtain ⟨a, sp⟩ := p
    have hp : Permits (verifyParam sch.allowed st a sp) (verifyParam sch.allowed st' a sp) := by
      intro u hu
      unfold verifyParam at hu ⊢
      rcases h.get a with ⟨e, hn⟩ | he
      · have := ho (a, sp) (by simp) e
        simp only [] at this
        rw [hn]
        simp [this]
      · rw [he]; exact hu
    intro u hu
    have ih' := ih fun q hq => ho q (by simp [hq])
    unfold verifyParams at hu ⊢
    cases hx : verifyParam sch.allowed st a sp with
    | error e => rw [hx] at hu; cases hu
    | ok _ =>
      rw [hp _ hx]
      rw [hx] at hu
      exact ih' _ hu

theorem matchArg_omits {k : String} {st st' : Dict} (h : Omits k st st') (kw : Dict) (n : String) (e : Exc) :
    Permits (matchArg st kw n e) (matchArg st' kw n e) := by
  intro u hu
  unfold matchArg at hu ⊢
  rcases h.get n with ⟨_, hn⟩ | he
  · rw [hn]
  · rw [he]; exact hu

theorem errorDescription_omits {k : String} {st st' : Dict} (h : Omits k st st') : Permits (errorDescription st) (errorDescription st') := by
  intro u hu
  unfold errorDescription at hu ⊢
  rcases h.get "error_description" with ⟨_, hn⟩ | he
  · rw [hn]
  · rw [he]; exact hu

/-- **C156**, responses -/
theorem C156_response {sch : Schema} {k : String} (ho : Optional sch k) {st st' : Dict} (h : Omits k st st') :
    Permits (responseVerify sch st) (responseVerify sch st') :=
  permits_bind (C156_base ho h) fun _ => errorDescription_omits h

/-- **C156**, OAuth2 authorization responses -/
theorem C156_oauth2_authz_response {sch : Schema} {k : String} (ho : Optional sch k) {st st' : Dict} (h : Omits k st st') (kw : Dict) :
    Permits (oauth2AuthzResponseVerify sch st kw) (oauth2AuthzResponseVerify sch st' kw) :=
  permits_bind (C156_response ho h) fun _ => permits_bind (matchArg_omits h _ _ _) fun _ => matchArg_omits h _ _ _

theorem birthdate_omits {k : String} {st st' : Dict} (h : Omits k st st') : Permits (birthdateCheck st) (birthdateCheck st') := by
  intro u hu
  unfold birthdateCheck at hu ⊢
  rcases h.get "birthdate" with ⟨_, hn⟩ | he
  · rw [hn]
  · rw [he]; exact hu

/-- **C156**, user info: with the answer `True` -/
theorem C156_user_info {sch : Schema} {k : String} (ho : Optional sch k) {st st' : Dict} (h : Omits k st st') (hn : DNodup st')
    (ha : openIdSchemaVerify sch st = .ok true) : openIdSchemaVerify sch st' = .ok true := by
  unfold openIdSchemaVerify at ha ⊢
  cases h1 : responseVerify sch st with
  | error e => rw [h1] at ha; cases ha
  | ok _ =>
    rw [C156_response ho h _ h1]
    rw [h1] at ha
    cases h2 : birthdateCheck st with
    | error e => simp only [bind, Except.bind, h2] at ha; cases ha
    | ok _ =>
      simp only [bind, Except.bind, h2, birthdate_omits h _ h2, Except.ok.injEq, Bool.not_eq_true', List.any_eq_false] at ha ⊢
      rintro ⟨j, v⟩ hm
      have hg := mem_dget hn hm
      rcases h.get j with ⟨_, hj⟩ | hj
      · rw [hj] at hg; cases hg
      · rw [hj] at hg
        exact ha _ (dget_mem hg)

theorem getReq_omits {k : String} {st st' : Dict} (h : Omits k st st') {n : String} (hn : n ≠ k) : getReq st' n = getReq st n := by
  unfold getReq; rw [h.rest n hn]

theorem userInfo_ok {sch : Schema} {k : String} (ho : Optional sch k) {st st' : Dict} (h : Omits k st st') {b : Bool}
    (ha : openIdSchemaVerify sch st = .ok b) : ∃ b', openIdSchemaVerify sch st' = .ok b' := by
  unfold openIdSchemaVerify at ha ⊢
  cases h1 : responseVerify sch st with
  | error e => rw [h1] at ha; cases ha
  | ok _ =>
    rw [C156_response ho h _ h1]
    rw [h1] at ha
    cases h2 : birthdateCheck st with
    | error e => simp only [bind, Except.bind, h2] at ha; cases ha
    | ok _ => exact ⟨_, by simp only [bind, Except.bind, birthdate_omits h _ h2]; rfl⟩

/-- **C156**, ID tokens: all but `azp` -/
theorem C156_id_token {k : String} (ho : Optional oidc_IdToken k) (hk : k ≠ "azp") {st st' : Dict} (h : Omits k st st') (now : Int) (kw : Dict) :
    Permits (idTokenVerify now st kw) (idTokenVerify now st' kw) := by
  have h1 : "exp" ≠ k := by rintro rfl; revert ho; decide +kernel
  have h2 : "iat" ≠ k := by rintro rfl; revert ho; decide +kernel
  have h3 : "aud" ≠ k := by rintro rfl; revert ho; decide +kernel
  intro u hu
  unfold idTokenVerify at hu ⊢
  cases hb : openIdSchemaVerify oidc_IdToken st with
  | error e => rw [hb] at hu; cases hu
  | ok b =>
    obtain ⟨b', hb'⟩ := userInfo_ok ho h hb
    rw [hb] at hu
    rw [hb']
    simp only [bind, Except.bind] at hu ⊢
    have e1 : audCheck st' kw = audCheck st kw := by
      unfold audCheck severalAud
      rw [h.rest _ h3, h.rest _ (Ne.symm hk)]
    have e2 : azpCheck st' kw = azpCheck st kw := by
      unfold azpCheck
      rw [h.rest _ (Ne.symm hk)]
    have e3 : ∀ skew, expCheck now skew st' = expCheck now skew st := fun skew => by unfold expCheck; rw [getReq_omits h h1]
    have e4 : ∀ skew, iatCheck now skew st' kw = iatCheck now skew st kw := fun skew => by unfold iatCheck; rw [getReq_omits h h2]
    rw [e1, e2]
    simp only [e3, e4]
    exact permits_bind (matchArg_omits h kw "iss" .issuerMismatch) (fun _ => permits_bind (permits_rfl _) fun _ => permits_bind (permits_rfl _) fun _ =>
      permits_bind (permits_rfl _) fun _ => permits_bind (permits_rfl _) fun _ => permits_bind (permits_rfl _) fun _ =>
      matchArg_omits h kw "nonce" .valueError) u hu

theorem timeCheck_omits {k : String} {st st' : Dict} (h : Omits k st st') (kw : Dict) (n : String) (ok : Rat → Rat → Bool) (e : Exc) :
    Permits (timeCheck st kw n ok e) (timeCheck st' kw n ok e) := by
  intro u hu
  unfold timeCheck at hu ⊢
  rcases h.get n with ⟨_, hn⟩ | he
  · rw [hn]
  · rw [he]; exact hu

theorem audArg_omits {k : String} {st st' : Dict} (h : Omits k st st') (kw : Dict) : Permits (audArg st kw) (audArg st' kw) := by
  intro u hu
  unfold audArg at hu ⊢
  rcases h.get "aud" with ⟨_, hn⟩ | he
  · rw [hn]
  · rw [he]; exact hu

/-- **C156**, JSON Web Tokens -/
theorem C156_json_web_token {sch : Schema} {k : String} (ho : Optional sch k) {st st' : Dict} (h : Omits k st st') (now : Int) (kw : Dict) :
    Permits (jsonWebTokenVerify now sch st kw) (jsonWebTokenVerify now sch st' kw) :=
  permits_bind (C156_base ho h) fun _ => permits_bind (timeCheck_omits h _ _ _ _) fun _ => permits_bind (timeCheck_omits h _ _ _ _) fun _ =>
    permits_bind (timeCheck_omits h _ _ _ _) fun _ => permits_bind (audArg_omits h _) fun _ => matchArg_omits h _ _ _

/-- **C156**, logout tokens: all but `sub` and `sid` -/
theorem C156_logout_token {k : String} (ho : Optional session_LogoutToken k) (hk : k ∉ ["sub", "sid"]) {st st' : Dict} (h : Omits k st st')
    (now : Int) (hdr : Option Dict) (kw : Dict) : Permits (logoutTokenVerify now st hdr kw) (logoutTokenVerify now st' hdr kw) := by
  have h1 : "events" ≠ k := by rintro rfl; revert ho; decide +kernel
  simp only [List.mem_cons, List.not_mem_nil, or_false, not_or] at hk
  unfold logoutTokenVerify
  refine permits_bind (C156_base ho h) fun _ => permits_bind ?_ fun _ => permits_bind ?_ fun _ => permits_bind ?_ fun _ =>
    permits_bind (audArg_omits h _) fun _ => permits_bind (matchArg_omits h _ _ _) fun _ => permits_bind (timeCheck_omits h _ _ _ _) fun _ =>
    permits_rfl _
  · intro u hu
    unfold dhas at hu ⊢
    rcases h.get "nonce" with ⟨_, hn⟩ | he
    · rw [hn]; rfl
    · rw [he]; exact hu
  · unfold eventsCheck; rw [h.rest _ h1]; exact permits_rfl _
  · unfold dhas; rw [h.rest _ (Ne.symm hk.1), h.rest _ (Ne.symm hk.2)]; exact permits_rfl _

/-- **C156**, registration responses: all but the two that go together -/
theorem C156_registration_response {k : String} (ho : Optional oidc_RegistrationResponse k)
    (hk : k ∉ ["registration_client_uri", "registration_access_token"]) {st st' : Dict} (h : Omits k st st') :
    Permits (registrationResponseVerify st) (registrationResponseVerify st') := by
  simp only [List.mem_cons, List.not_mem_nil, or_false, not_or] at hk
  refine permits_bind (C156_response ho h) fun _ => ?_
  unfold dhas; rw [h.rest _ (Ne.symm hk.1), h.rest _ (Ne.symm hk.2)]; exact permits_rfl _

/-- **C156**, token requests of the device flow: all but `client_id` -/
theorem C156_device_token_request {k : String} (ho : Optional device_AccessTokenRequest k) (hk : k ≠ "client_id") {st st' : Dict}
    (h : Omits k st st') : Permits (deviceTokenRequestVerify st) (deviceTokenRequestVerify st') := by
  have h1 : "grant_type" ≠ k := by rintro rfl; revert ho; decide +kernel
  refine permits_bind (C156_base ho h) fun _ => ?_
  intro u hu
  unfold dhas at hu ⊢
  rw [h.rest _ h1, h.rest _ (Ne.symm hk)]
  rcases h.get "device_code" with ⟨_, hn⟩ | he
  · rw [hn]; rfl
  · rw [he]; exact hu

/-- **C156**, provider configurations: all but `token_endpoint` -/
theorem C156_provider_config {k : String} (ho : Optional oidc_ProviderConfigurationResponse k) (hk : k ≠ "token_endpoint") {st st' : Dict}
    (h : Omits k st st') (netlocOk : List Char → Bool) (kw : Dict) :
    Permits (providerConfigVerify netlocOk st kw) (providerConfigVerify netlocOk st' kw) := by
  have h1 : "issuer" ≠ k := by rintro rfl; revert ho; decide +kernel
  have h2 : "id_token_signing_alg_values_supported" ≠ k := by rintro rfl; revert ho; decide +kernel
  have h3 : "response_types_supported" ≠ k := by rintro rfl; revert ho; decide +kernel
  refine permits_bind (C156_response ho h) fun _ => permits_bind ?_ fun _ => ?_
  · intro u hu
    unfold scopesSupported at hu ⊢
    rcases h.get "scopes_supported" with ⟨_, hn⟩ | he
    · rw [hn]
    · rw [he]; exact hu
  · have e : tokenEndpoint st' = tokenEndpoint st := by
      unfold tokenEndpoint getR dhas
      rw [h.rest _ h3, h.rest _ (Ne.symm hk)]
    unfold issuerParts getR
    rw [e, h.rest _ h1, h.rest _ h2]
    exact permits_rfl _

/-! ## methods with a state -/

/-- what is accepted on the left is accepted on the right -/
def Admits (x y : Res α) : Prop := ∀ a, x = .ok a → ∃ b, y = .ok b

theorem admits_of_permits {x y : Res α} (h : Permits x y) : Admits x y := fun a ha => ⟨a, h a ha⟩

theorem admits_bind {x y : Res α} {f g : α → Res β} (h : Permits x y) (hf : ∀ a, Admits (f a) (g a)) : Admits (x >>= f) (y >>= g) := by
  intro b hb
  cases hx : x with
  | error e => rw [hx] at hb; cases hb
  | ok a =>
    rw [h a hx]
    rw [hx] at hb
    exact hf a b hb

theorem clear_omits {k : String} {st st' : Dict} (h : Omits k st st') : Omits k (clearVerifiedClaims st) (clearVerifiedClaims st') := by
  have hd : ∀ {a b : Dict} (n : String), Omits k a b → Omits k (ddel a n) (ddel b n) := by
    intro a b n hab
    constructor
    · by_cases e : n = k
      · rw [e]; exact dget_ddel_same _ _
      · rw [dget_ddel_ne _ e]; exact hab.none
    · intro j hj
      by_cases e : n = j
      · rw [e, dget_ddel_same, dget_ddel_same]
      · rw [dget_ddel_ne _ e, dget_ddel_ne _ e]; exact hab.rest j hj
  exact hd _ (hd _ (hd _ h))

theorem hashCheck_omits {C : Crypto} {k : String} {st st' : Dict} (h : Omits k st st') (f : String) (idt : Dict) (a n : String) (e : Exc) :
    Permits (hashCheck C f st idt a n e) (hashCheck C f st' idt a n e) := by
  intro u hu
  unfold hashCheck at hu ⊢
  rcases h.get a with ⟨_, hn⟩ | he
  · rw [hn]
  · rw [he]; exact hu

theorem hashStep_omits {C : Crypto} {k : String} {st st' : Dict} (h : Omits k st st') (b : Bool) (m : JwtMsg C) :
    Permits (hashStep C b st m) (hashStep C b st' m) := by
  unfold hashStep
  split
  · exact permits_bind (permits_rfl _) fun _ => permits_bind (hashCheck_omits h _ _ _ _ _) fun _ => hashCheck_omits h _ _ _ _ _
  · exact permits_rfl _

theorem verifyIdTokenCore_omits {C : Crypto} {k : String} {st st' : Dict} (h : Omits k st st') (now : Int) (v : Val) (b : Bool)
    (jar : JarArg C) (kw : Dict) : Permits (verifyIdTokenCore C now st v b jar kw) (verifyIdTokenCore C now st' v b jar kw) := by
  unfold verifyIdTokenCore
  exact permits_bind (permits_rfl _) fun _ => permits_bind (permits_rfl _) fun _ => permits_bind (permits_rfl _) fun _ =>
    permits_bind (permits_rfl _) fun _ => permits_bind (permits_rfl _) fun _ => permits_bind (permits_rfl _) fun _ =>
    permits_bind (permits_rfl _) fun _ => permits_bind (hashStep_omits h _ _) fun _ => permits_rfl _

theorem verifyIdToken_omits {C : Crypto} {k n : String} (hk : n ≠ k) {st st' : Dict} (h : Omits k st st') (now : Int) (b : Bool)
    (jar : JarArg C) (kw : Dict) : Admits (verifyIdToken C now st n b jar kw) (verifyIdToken C now st' n b jar kw) := by
  unfold verifyIdToken
  have e : getR st' n = getR st n := by unfold getR; rw [h.rest _ hk]
  rw [e]
  refine admits_bind (permits_rfl _) fun _ => admits_bind (verifyIdTokenCore_omits h _ _ _ _ _) fun _ => admits_bind (permits_rfl _) fun _ => ?_
  exact fun _ _ => ⟨_, rfl⟩

theorem verifyIfPresent_omits {C : Crypto} {k n : String} {st st' : Dict} (h : Omits k st st') (now : Int) (b : Bool)
    (jar : JarArg C) (kw : Dict) : Admits (verifyIfPresent C now st n b jar kw) (verifyIfPresent C now st' n b jar kw) := by
  unfold verifyIfPresent dhas
  by_cases hk : n = k
  · subst hk
    rw [h.none]
    exact fun _ _ => ⟨st', rfl⟩
  · rw [h.rest _ hk]
    split
    · exact verifyIdToken_omits hk h _ _ _ _
    · exact fun _ _ => ⟨_, rfl⟩

/-- **C156**, token responses: whatever is optional, the ID token included -/
theorem C156_token_response {C : Crypto} {k : String} (ho : Optional oidc_AccessTokenResponse k) {st st' : Dict} (h : Omits k st st')
    (now : Int) (jar : JarArg C) (kw : Dict) : Admits (accessTokenResponseVerify C now st jar kw) (accessTokenResponseVerify C now st' jar kw) :=
  admits_bind (C156_response ho h) fun _ => verifyIfPresent_omits (clear_omits h) _ _ _ _

/-- **C156**, messages with an ID token -/
theorem C156_with_id_token {C : Crypto} {sch : Schema} {k : String} (ho : Optional sch k) {st st' : Dict} (h : Omits k st st')
    (now : Int) (jar : JarArg C) (kw : Dict) : Admits (messageWithIdTokenVerify C now sch st jar kw) (messageWithIdTokenVerify C now sch st' jar kw) := by
  refine admits_bind ?_ fun _ => verifyIfPresent_omits h _ _ _ _
  unfold besideIdTokenVerify
  split
  · exact C156_response ho h
  · exact C156_base ho h

/-- **C156**, OIDC authorization responses for this client -/
theorem C156_authz_response {C : Crypto} {k : String} (ho : Optional oidc_AuthorizationResponse k) {st st' s : Dict} (h : Omits k st st')
    {now : Int} {jar : JarArg C} {kw : Dict} (ha : authzResponseVerify C now st jar kw = .ok (true, s)) :
    ∃ s', authzResponseVerify C now st' jar kw = .ok (true, s') := by
  unfold authzResponseVerify at ha ⊢
  have hc := clear_omits h
  generalize clearVerifiedClaims st = t at ha hc
  generalize clearVerifiedClaims st' = t' at hc ⊢
  cases h1 : oauth2AuthzResponseVerify oidc_AuthorizationResponse st kw with
  | error e => rw [h1] at ha; cases ha
  | ok _ =>
    rw [C156_oauth2_authz_response ho h _ _ h1]
    rw [h1] at ha
    simp only [bind, Except.bind] at ha ⊢
    cases h2 : forMe t kw with
    | error e => rw [h2] at ha; cases ha
    | ok b =>
      rw [h2] at ha
      cases b with
      | false => simp [authzResponseRest] at ha
      | true =>
        have h3 : forMe t' kw = .ok true := by
          unfold forMe at h2 ⊢
          rcases hc.get "aud" with ⟨_, hn⟩ | he
          · rw [hn]
          · rw [he]; exact h2
        rw [h3]
        simp only [authzResponseRest, if_true] at ha ⊢
        cases h4 : verifyIfPresent C now t "id_token" true jar kw with
        | error e => rw [h4] at ha; cases ha
        | ok a =>
          obtain ⟨b, hb⟩ := verifyIfPresent_omits (n := "id_token") hc now true jar kw a h4
          exact ⟨b, by rw [hb]; rfl⟩

/-- **C156**, end-session requests: all but the hint -/
theorem C156_end_session {C : Crypto} {k : String} (ho : Optional session_EndSessionRequest k) (hk : k ≠ "id_token_hint") {st st' s : Dict}
    (h : Omits k st st') {now : Int} {jar : JarArg C} {kw : Dict} (ha : endSessionVerify C now st jar kw = .ok (true, s)) :
    ∃ s', endSessionVerify C now st' jar kw = .ok (true, s') := by
  unfold endSessionVerify at ha ⊢
  have hc := clear_omits h
  generalize clearVerifiedClaims st = t at ha hc
  generalize clearVerifiedClaims st' = t' at hc ⊢
  cases h1 : verifyBase session_EndSessionRequest st with
  | error e => rw [h1] at ha; cases ha
  | ok _ =>
    rw [C156_base ho h _ h1]
    rw [h1] at ha
    simp only [bind, Except.bind] at ha ⊢
    unfold endSessionRest dhas at ha ⊢
    rw [hc.rest _ (Ne.symm hk)]
    split at ha
    · rename_i hp
      rw [if_pos hp]
      cases h4 : hintVerify C now t jar kw with
      | error e => rw [h4] at ha; cases ha
      | ok a =>
        have : Admits (hintVerify C now t jar kw) (hintVerify C now t' jar kw) := by
          unfold hintVerify
          have e : getR t' "id_token_hint" = getR t "id_token_hint" := by unfold getR; rw [hc.rest _ (Ne.symm hk)]
          rw [e]
          refine admits_bind (permits_rfl _) fun _ => admits_bind (permits_rfl _) fun m => ?_
          intro x hx
          cases h5 : verifyIdToken C now t "id_token_hint" false (some m.jar) kw with
          | error e => rw [h5] at hx; cases hx
          | ok y =>
            obtain ⟨z, hz⟩ := verifyIdToken_omits (Ne.symm hk) hc now false (some m.jar) kw y h5
            exact ⟨_, by rw [hz]; rfl⟩
        obtain ⟨b, hb⟩ := this a h4
        exact ⟨b, by rw [hb]; rfl⟩
    · rename_i hp
      rw [if_neg hp]
      rcases hc.get "post_logout_redirect_uri" with ⟨_, hn⟩ | he
      · rw [hn]; exact ⟨_, rfl⟩
      · rw [he]
        split at ha
        · cases ha
        · rename_i hq; rw [if_neg hq]; exact ⟨_, rfl⟩

/-- **C156**, back-channel logout requests -/
theorem C156_back_channel {C : Crypto} {k : String} (ho : Optional session_BackChannelLogoutRequest k) {st st' : Dict} (h : Omits k st st')
    (now : Int) (jar : JarArg C) (kw : Dict) : Admits (backChannelVerify C now st jar kw) (backChannelVerify C now st' jar kw) := by
  have hk : "logout_token" ≠ k := by rintro rfl; revert ho; decide +kernel
  unfold backChannelVerify
  have e : getR st' "logout_token" = getR st "logout_token" := by unfold getR; rw [h.rest _ hk]
  rw [e]
  exact admits_bind (C156_base ho h) fun _ => admits_bind (permits_rfl _) fun _ => admits_bind (permits_rfl _) fun _ =>
    admits_bind (permits_rfl _) fun _ => admits_bind (permits_rfl _) fun _ => fun _ _ => ⟨_, rfl⟩

/-- **C156**, OIDC authorization requests without a request object: all but `nonce` and `prompt` -/
theorem C156_authz_request {C : Crypto} {k : String} (ho : Optional oidc_AuthorizationRequest k) (hk : k ∉ ["nonce", "prompt"]) {st st' : Dict}
    (h : Omits k st st') (hr : dget st "request" = none) (jar : JarArg C) (kw : Dict) :
    Admits (authzRequestVerify C st jar kw) (authzRequestVerify C st' jar kw) := by
  have h1 : "client_id" ≠ k := by rintro rfl; revert ho; decide +kernel
  have h2 : "response_type" ≠ k := by rintro rfl; revert ho; decide +kernel
  have h3 : "scope" ≠ k := by rintro rfl; revert ho; decide +kernel
  simp only [List.mem_cons, List.not_mem_nil, or_false, not_or] at hk
  have hr' : dget st' "request" = none := by
    rcases h.get "request" with ⟨_, hn⟩ | he
    · exact hn
    · rw [he]; exact hr
  have hc := clear_omits h
  have hs : ∀ s, dget s "request" = none → dget (clearVerifiedClaims s) "request" = none := fun s hs => by
    rw [clear_dget _ _ (by decide) (by decide) (by decide)]; exact hs
  have hs1 := hs _ hr
  have hs2 := hs _ hr'
  unfold authzRequestVerify
  generalize clearVerifiedClaims st = t at hc hs1 ⊢
  generalize clearVerifiedClaims st' = t' at hc hs2 ⊢
  have e1 : authzArgs t' kw = authzArgs t kw := by unfold authzArgs getR; rw [hc.rest _ h1]
  rw [e1]
  refine admits_bind (C156_base ho h) fun _ => admits_bind (permits_rfl _) fun args => ?_
  have q1 : requestStep C t jar args = .ok (t, jar) := by unfold requestStep; rw [hs1]
  have q2 : requestStep C t' jar args = .ok (t', jar) := by unfold requestStep; rw [hs2]
  rw [q1, q2]
  simp only [bind, Except.bind]
  intro a ha
  have conds : ∀ s s', (∀ j ∈ ["response_type", "nonce", "scope", "prompt"], dget s' j = dget s j) → authzRequestConds s' kw = authzRequestConds s kw := by
    intro s s' hj
    have a1 := hj "response_type" (by decide)
    have a2 := hj "nonce" (by decide)
    have a3 := hj "scope" (by decide)
    have a4 := hj "prompt" (by decide)
    unfold authzRequestConds getReq nonceStep scopeStep promptStep consentStep promptHas scopeOf matchArg
    rw [a1, a2, a3, a4]
  have base : ∀ j ∈ ["response_type", "nonce", "scope", "prompt"], dget t' j = dget t j := by
    intro j hj
    simp only [List.mem_cons, List.not_mem_nil, or_false] at hj
    rcases hj with rfl | rfl | rfl | rfl
    · exact hc.rest _ h2
    · exact hc.rest _ (Ne.symm hk.1)
    · exact hc.rest _ h3
    · exact hc.rest _ (Ne.symm hk.2)
  have stored : ∀ v, ∀ j ∈ ["response_type", "nonce", "scope", "prompt"],
      dget (dset t "verified_id_token_hint" v) j = dget t j := by
    intro v j hj
    rw [dget_dset_ne _ _ (by rintro rfl; revert hj; decide)]
  have stored' : ∀ v, ∀ j ∈ ["response_type", "nonce", "scope", "prompt"],
      dget (dset t' "verified_id_token_hint" v) j = dget t' j := by
    intro v j hj
    rw [dget_dset_ne _ _ (by rintro rfl; revert hj; decide)]
  cases hh : hintStep C t jar args with
  | error e => rw [hh] at ha; cases ha
  | ok s =>
    have hs3 : ∀ j ∈ ["response_type", "nonce", "scope", "prompt"], dget s j = dget t j := by
      unfold hintStep at hh
      split at hh
      · split at hh
        · cases hh; exact stored _
        · cases hh
      · cases hh; exact fun _ _ => rfl
    have : ∃ s', hintStep C t' jar args = .ok s' ∧ ∀ j ∈ ["response_type", "nonce", "scope", "prompt"], dget s' j = dget t' j := by
      unfold hintStep at hh ⊢
      rcases hc.get "id_token_hint" with ⟨_, hn⟩ | he
      · rw [hn]; exact ⟨_, rfl, fun _ _ => rfl⟩
      · rw [he]
        generalize dget t "id_token_hint" = o at hh
        split at hh
        · split at hh
          · exact ⟨_, rfl, stored' _⟩
          · cases hh
        · exact ⟨_, rfl, fun _ _ => rfl⟩
    obtain ⟨s', e', hj'⟩ := this
    rw [e']
    rw [hh] at ha
    simp only [] at ha ⊢
    rw [conds s s' fun j hj => (hj' j hj).trans ((base j hj).trans (hs3 j hj).symm)]
    cases hcd : authzRequestConds s kw with
    | error e => rw [hcd] at ha; cases ha
    | ok _ => exact ⟨_, rfl⟩

/-! ## request objects of OAuth2 -/

theorem requestObject_any {C : Crypto} {st : Dict} (st' : Dict) {req : Val} {jar : JarArg C} {kw a : Dict} {t : String}
    (h : requestObject C st req jar kw t = .ok a) : ∃ b, requestObject C st' req jar kw t = .ok b := by
  unfold requestObject at h ⊢
  split at h
  · cases h
  · exact ⟨_, rfl⟩

/-- **C156**, secured requests: whatever stands beside the request object or the reference to it, required or not -/
theorem C156_jwt_secured {C : Crypto} {k : String} (hk : k ∉ ["request", "request_uri"]) {st st' : Dict} (h : Omits k st st')
    (jar : JarArg C) (kw : Dict) : Admits (jwtSecuredVerify C st jar kw) (jwtSecuredVerify C st' jar kw) := by
  simp only [List.mem_cons, List.not_mem_nil, or_false, not_or] at hk
  intro a ha
  unfold jwtSecuredVerify dhas at ha ⊢
  rw [h.rest _ (Ne.symm hk.1), h.rest _ (Ne.symm hk.2)]
  split at ha
  · exact requestObject_any st' ha
  · split at ha
    · rename_i hq; rw [if_pos hq]; exact ⟨_, rfl⟩
    · cases ha

/-- **C156**, pushed requests: anything, required or not -/
theorem C156_pushed {C : Crypto} {k : String} {st st' : Dict} (h : Omits k st st') (jar : JarArg C) (kw : Dict) :
    Admits (pushedVerify C st jar kw) (pushedVerify C st' jar kw) := by
  intro a ha
  unfold pushedVerify at ha ⊢
  rcases h.get "request" with ⟨_, hn⟩ | he
  · rw [hn]; exact ⟨_, rfl⟩
  · rw [he]
    split at ha
    · exact requestObject_any st' ha
    · exact ⟨_, rfl⟩

/-- although the classes require a client, nobody asks for it; one of the two ways to the request object is needed -/
theorem C156_client_unasked :
    ¬ Optional oauth2_JWTSecuredAuthorizationRequest "client_id" ∧ ¬ Optional oauth2_PushedAuthorizationRequest "client_id" ∧
    (let m : Dict := [("request_uri", .str "https://rp/r"), ("client_id", .str "c")]
     (jwtSecuredVerify toy m (some (some ())) []).isOk = true ∧ (jwtSecuredVerify toy (ddel m "client_id") (some (some ())) []).isOk = true ∧
     (jwtSecuredVerify toy (ddel m "request_uri") (some (some ())) []).isOk = false) ∧
    (pushedVerify toy [] (some (some ())) []).isOk = true := by
  decide +kernel

/-! ## registration requests -/

def encNames : List String := ["request_object_encryption_enc", "id_token_encrypted_response_enc", "userinfo_encrypted_response_enc"]
def algNames : List String := ["request_object_encryption_alg", "id_token_encrypted_response_alg", "userinfo_encrypted_response_alg"]

/-- the two states differ at most in `k`, which is missing or is one of the methods with a default -/
def NearlySame (k : String) (st st' : Dict) : Prop := ∀ j, dget st' j = dget st j ∨ (j = k ∧ (dget st' j = none ∨ (j ∈ encNames ∧ dhas st j = true)))

theorem pairStep_omits {k alg enc : String} (hk : alg ≠ k) (hd : dget oidc_RegistrationRequest.params enc = some singleOptionalString)
    (he : enc ∈ encNames) {st st' a : Dict} (h : NearlySame k st st') (ha : pairStep st alg enc = .ok a) :
    ∃ b, pairStep st' alg enc = .ok b ∧ NearlySame k a b := by
  have halg : dget st' alg = dget st alg := by
    rcases h alg with e | ⟨e, _⟩
    · exact e
    · exact absurd e hk
  have set2 : NearlySame k (dset st enc (.str "A128CBC-HS256")) (dset st' enc (.str "A128CBC-HS256")) := by
    intro j
    by_cases e : enc = j
    · subst e; left; rw [dget_dset_same, dget_dset_same]
    · have := h j
      unfold dhas at this ⊢
      rw [dget_dset_ne _ _ e, dget_dset_ne _ _ e]; exact this
  unfold pairStep at ha ⊢
  rw [setItem_enc hd] at ha ⊢
  unfold dhas at ha ⊢
  rw [halg]
  split at ha
  · rename_i hp
    rw [if_pos hp]
    rcases h enc with e | ⟨e, e'⟩
    · rw [e]
      split at ha
      · rename_i hq; rw [if_pos hq]; cases ha; exact ⟨_, rfl, h⟩
      · rename_i hq; rw [if_neg hq]; cases ha; exact ⟨_, rfl, set2⟩
    · have ha' : dhas a enc = true ∧ ∀ j, j ≠ k → dget a j = dget st j := by
        split at ha
        · rename_i hq; cases ha; exact ⟨hq, fun _ _ => rfl⟩
        · cases ha
          exact ⟨by simp [dhas, dget_dset_same], fun j hj => dget_dset_ne _ _ (fun x : enc = j => hj (x.symm.trans e))⟩
      have one : NearlySame k a st' := by
        intro j
        by_cases ej : j = k
        · have : j = enc := ej.trans e.symm
          exact .inr ⟨ej, .inr ⟨this ▸ he, this ▸ ha'.1⟩⟩
        · left
          rw [ha'.2 j ej]
          exact (h j).resolve_right fun x => ej x.1
      have two : NearlySame k a (dset st' enc (.str "A128CBC-HS256")) := by
        intro j
        by_cases ej : j = k
        · have : j = enc := ej.trans e.symm
          exact .inr ⟨ej, .inr ⟨this ▸ he, this ▸ ha'.1⟩⟩
        · left
          rw [dget_dset_ne _ _ (fun x : enc = j => ej (x.symm.trans e))]
          exact (one j).resolve_right fun x => ej x.1
      split
      · exact ⟨_, rfl, one⟩
      · exact ⟨_, rfl, two⟩
  · rename_i hp
    rw [if_neg hp]
    split at ha
    · cases ha
    · rename_i hq
      cases ha
      rcases h enc with e | ⟨e, e' | e'⟩
      · rw [e, if_neg hq]; exact ⟨_, rfl, h⟩
      · rw [e']; exact ⟨_, rfl, h⟩
      · exact absurd e'.2 hq

/-- **C156**, registration requests: all but the three algorithms that go with a method -/
theorem C156_registration_request {k : String} (ho : Optional oidc_RegistrationRequest k) (hk : k ∉ algNames) {st st' : Dict}
    (h : Omits k st st') : Admits (registrationRequestVerify st) (registrationRequestVerify st') := by
  simp only [algNames, List.mem_cons, List.not_mem_nil, or_false, not_or] at hk
  have h0 : NearlySame k st st' := fun j => (h.get j).symm.imp id fun x => ⟨x.1, .inl x.2⟩
  unfold registrationRequestVerify
  refine admits_bind (C156_base ho h) fun _ => admits_bind ?_ fun _ => ?_
  · intro u hu
    unfold initiateLogin at hu ⊢
    rcases h.get "initiate_login_uri" with ⟨_, hn⟩ | he
    · rw [hn]
    · rw [he]; exact hu
  intro a ha
  cases h1 : pairStep st "request_object_encryption_alg" "request_object_encryption_enc" with
  | error e => rw [h1] at ha; cases ha
  | ok a1 =>
    obtain ⟨b1, e1, n1⟩ := pairStep_omits (Ne.symm hk.1) rfl (by decide) h0 h1
    rw [h1] at ha
    rw [e1]
    simp only [bind, Except.bind] at ha ⊢
    cases h2 : pairStep a1 "id_token_encrypted_response_alg" "id_token_encrypted_response_enc" with
    | error e => rw [h2] at ha; cases ha
    | ok a2 =>
      obtain ⟨b2, e2, n2⟩ := pairStep_omits (Ne.symm hk.2.1) rfl (by decide) n1 h2
      rw [h2] at ha
      rw [e2]
      simp only [] at ha ⊢
      cases h3 : pairStep a2 "userinfo_encrypted_response_alg" "userinfo_encrypted_response_enc" with
      | error e => rw [h3] at ha; cases ha
      | ok a3 =>
        obtain ⟨b3, e3, n3⟩ := pairStep_omits (Ne.symm hk.2.2) rfl (by decide) n2 h3
        rw [h3] at ha
        rw [e3]
        simp only [] at ha ⊢
        have : Permits (authSigningAlg a3) (authSigningAlg b3) := by
          intro u hu
          unfold authSigningAlg at hu ⊢
          rcases n3 "token_endpoint_auth_signing_alg" with e | ⟨_, e | e⟩
          · rw [e]; exact hu
          · rw [e]
          · exact absurd e.1 (by decide)
        cases h4 : authSigningAlg a3 with
        | error e => rw [h4] at ha; cases ha
        | ok _ => rw [this _ h4]; exact ⟨_, rfl⟩

/-! ## what does matter -/

/-- a registration that is turned down because an algorithm is missing next to its method -/
theorem C156_algorithm_matters :
    let m : Dict := [("redirect_uris", .list [.str "https://rp/cb"]), ("id_token_encrypted_response_alg", .str "RSA-OAEP"),
      ("id_token_encrypted_response_enc", .str "A128GCM")]
    Optional oidc_RegistrationRequest "id_token_encrypted_response_alg" ∧
    (registrationRequestVerify m).isOk = true ∧
    (registrationRequestVerify (ddel m "id_token_encrypted_response_alg")).isOk = false ∧
    (registrationRequestVerify (ddel m "id_token_encrypted_response_enc")).isOk = true := by
  decide +kernel

/-- leaving out one of two registration parameters, or `azp` next to several audiences, or the endpoint for codes -/
theorem C156_conditional_matters :
    (let m : Dict := [("client_id", .str "c"), ("redirect_uris", .list [.str "https://rp/cb"]), ("registration_client_uri", .str "https://op/r"),
        ("registration_access_token", .str "t")]
     (registrationResponseVerify m).isOk = true ∧ (registrationResponseVerify (ddel m "registration_client_uri")).isOk = false ∧
     (registrationResponseVerify (ddel m "registration_access_token")).isOk = false ∧
     (registrationResponseVerify (ddel (ddel m "registration_access_token") "registration_client_uri")).isOk = true) ∧
    (let m : Dict := dset (dset toyClaims "aud" (.list [.str "client", .str "other"])) "azp" (.str "client")
     (idTokenVerify 1500 m [("client_id", .str "client")]).isOk = true ∧
     (idTokenVerify 1500 (ddel m "azp") [("client_id", .str "client")]).isOk = false) ∧
    (let m : Dict := [("device_code", .str "d"), ("grant_type", .str "urn:ietf:params:oauth:grant-type:device_code"), ("client_id", .str "c"),
        ("code", .str "d"), ("redirect_uri", .str "https://rp/cb")]
     (deviceTokenRequestVerify m).isOk = true ∧ (deviceTokenRequestVerify (ddel m "client_id")).isOk = false) ∧
    (let m : Dict := dset (dset (toyConfig "https://op") "response_types_supported" (.list [.str "code"])) "token_endpoint" (.str "https://op/t")
     (providerConfigVerify (fun _ => true) m []).isOk = true ∧ (providerConfigVerify (fun _ => true) (ddel m "token_endpoint") []).isOk = false ∧
     (providerConfigVerify (fun _ => true) (ddel m "jwks_uri") []).isOk = false) := by
  decide +kernel

/-- a logout token needs a subject or a session; which of the two does not matter -/
theorem C156_subject_matters :
    (logoutTokenVerify 1500 (dset toyLogout "sid" (.str "s")) none []).isOk = true ∧
    (logoutTokenVerify 1500 (ddel (dset toyLogout "sid" (.str "s")) "sub") none []).isOk = true ∧
    (logoutTokenVerify 1500 (ddel (dset toyLogout "sid" (.str "s")) "sid") none []).isOk = true ∧
    (logoutTokenVerify 1500 (ddel (ddel (dset toyLogout "sid" (.str "s")) "sid") "sub") none []).isOk = false := by
  decide +kernel

/-- a hint that makes a redirect acceptable, a nonce that goes with an ID token, a prompt that goes with offline access -/
theorem C156_request_matters :
    (let m : Dict := [("id_token_hint", .str "T"), ("post_logout_redirect_uri", .str "https://rp/out")]
     (endSessionVerify toy 1500 m (some (some ())) strictArgs).map Prod.fst = .ok true ∧
     (endSessionVerify toy 1500 (ddel m "id_token_hint") (some (some ())) strictArgs).map Prod.fst = .ok false) ∧
    (let m : Dict := [("response_type", .list [.str "id_token"]), ("client_id", .str "c"), ("redirect_uri", .str "https://rp/cb"),
        ("scope", .list [.str "openid", .str "offline_access"]), ("nonce", .str "n"), ("prompt", .list [.str "consent"]), ("state", .str "s")]
     (authzRequestVerify toy m (some (some ())) []).isOk = true ∧
     (authzRequestVerify toy (ddel m "nonce") (some (some ())) []).isOk = false ∧
     (authzRequestVerify toy (ddel m "prompt") (some (some ())) []).isOk = false ∧
     (authzRequestVerify toy (ddel m "state") (some (some ())) []).isOk = true) := by
  decide +kernel

/-- the hypotheses are met, and the ID token is among what can go -/
example : Optional oidc_AccessTokenResponse "id_token" ∧ Optional oidc_AuthorizationResponse "id_token" ∧ Optional oidc_AuthorizationRequest "state" ∧
    Optional oidc_IdToken "nonce" ∧ Optional session_LogoutToken "sub" ∧ Optional session_EndSessionRequest "state" ∧
    Optional session_BackChannelLogoutRequest "state" ∧ Optional oidc_RegistrationResponse "client_secret" ∧
    Optional device_AccessTokenRequest "device_code" ∧ Optional oidc_ProviderConfigurationResponse "scopes_supported" ∧
    ¬ Optional oidc_IdToken "aud" := by decide +kernel
example : Omits "id_token" [("access_token", .str "at"), ("id_token", .str "T")] [("access_token", .str "at")] :=
  omits_ddel "id_token" [("access_token", .str "at"), ("id_token", .str "T")]
example :
    let m : Dict := [("access_token", .str "at"), ("token_type", .str "Bearer"), ("id_token", .str "T")]
    (accessTokenResponseVerify toy 1500 m (some (some ())) strictArgs).isOk = true ∧
    (accessTokenResponseVerify toy 1500 (ddel m "id_token") (some (some ())) strictArgs).isOk = true := by decide +kernel
example : (idTokenVerify 1500 toyClaims strictArgs).isOk = true ∧ (idTokenVerify 1500 (ddel toyClaims "nonce") strictArgs).isOk = true := by
  decide +kernel
/-- For a response meant for somebody else the answer `False` comes before the ID token is looked at; without the audience
it is looked at. -/
example :
    let m : Dict := [("id_token", .str "junk"), ("aud", .list [.str "somebody"])]
    (authzResponseVerify toy 1500 m (some (some ())) strictArgs).map Prod.fst = .ok false ∧
    (authzResponseVerify toy 1500 (ddel m "aud") (some (some ())) strictArgs).isOk = false := by decide +kernel

end Verif
