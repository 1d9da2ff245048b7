import Verif.Model.VerifyState
import Verif.Props.Requests

/-!
# C107: verified slots are genuine after every outcome
-/

namespace Verif

/-! ## the two models agree -/

/-- The stateful outcome and the plain one are the same run. -/
def Agrees (s : SOut) (r : Res (Bool × Dict)) : Prop :=
  match s with
  | (.ok b, st') => r = .ok (b, st')
  | (.error e, _) => r = .error e

theorem agrees_idToken (C : Crypto) (now : Int) (st : Dict) (claim : String) (ch : Bool) (jar : JarArg C) (kw : Dict) :
    Agrees (verifyIdTokenS C now st claim ch jar kw) ((verifyIdToken C now st claim ch jar kw).map (true, ·)) := by
  unfold verifyIdTokenS verifyIdToken
  cases getR st claim with
  | error e => rfl
  | ok v =>
    cases h : verifyIdTokenCore C now st v ch jar kw with
    | error e => simp [Agrees, h, bind, Except.bind, Except.map]
    | ok m =>
      cases hf : formatOk (.msg oidc_IdToken.cls m.st) <;> simp [Agrees, h, hf, bind, Except.bind, Except.map]

theorem agrees_ifPresent (C : Crypto) (now : Int) (st : Dict) (claim : String) (ch : Bool) (jar : JarArg C) (kw : Dict) :
    Agrees (verifyIfPresentS C now st claim ch jar kw) ((verifyIfPresent C now st claim ch jar kw).map (true, ·)) := by
  unfold verifyIfPresentS verifyIfPresent
  split
  · exact agrees_idToken ..
  · rfl

theorem agrees_tokenResponse (C : Crypto) (now : Int) (st : Dict) (jar : JarArg C) (kw : Dict) :
    Agrees (accessTokenResponseVerifyS C now st jar kw) ((accessTokenResponseVerify C now st jar kw).map (true, ·)) := by
  unfold accessTokenResponseVerifyS accessTokenResponseVerify
  cases responseVerify oidc_AccessTokenResponse st with
  | error e => rfl
  | ok _ => exact agrees_ifPresent ..

theorem agrees_authzResponse (C : Crypto) (now : Int) (st : Dict) (jar : JarArg C) (kw : Dict) :
    Agrees (authzResponseVerifyS C now st jar kw) (authzResponseVerify C now st jar kw) := by
  unfold authzResponseVerifyS authzResponseVerify
  cases oauth2AuthzResponseVerify oidc_AuthorizationResponse st kw with
  | error e => rfl
  | ok _ =>
    simp only [bind, Except.bind]
    cases forMe (clearVerifiedClaims st) kw with
    | error e => rfl
    | ok b =>
      cases b with
      | false => rfl
      | true => exact agrees_ifPresent ..

theorem agrees_withIdToken (C : Crypto) (now : Int) (sch : Schema) (st : Dict) (jar : JarArg C) (kw : Dict) :
    Agrees (messageWithIdTokenVerifyS C now sch st jar kw)
      ((messageWithIdTokenVerify C now sch st jar kw).map (true, ·)) := by
  unfold messageWithIdTokenVerifyS messageWithIdTokenVerify
  cases besideIdTokenVerify sch st with
  | error e => rfl
  | ok _ => exact agrees_ifPresent ..

theorem agrees_authzRequest (C : Crypto) (st : Dict) (jar : JarArg C) (kw : Dict) :
    Agrees (authzRequestVerifyS C st jar kw) ((authzRequestVerify C st jar kw).map (true, ·)) := by
  unfold authzRequestVerifyS authzRequestVerify
  cases verifyBase oidc_AuthorizationRequest st with
  | error e => rfl
  | ok _ =>
    simp only [bind, Except.bind]
    cases authzArgs (clearVerifiedClaims st) kw with
    | error e => rfl
    | ok args =>
      simp only
      cases requestStep C (clearVerifiedClaims st) jar args with
      | error e => rfl
      | ok p =>
        obtain ⟨st₁, jar₁⟩ := p
        simp only
        cases hintStep C st₁ jar₁ args with
        | error e => rfl
        | ok st₂ =>
          simp only
          cases authzRequestConds st₂ kw <;> rfl

theorem agrees_hint (C : Crypto) (now : Int) (st : Dict) (jar : JarArg C) (kw : Dict) :
    Agrees (hintVerifyS C now st jar kw) ((hintVerify C now st jar kw).map (true, ·)) := by
  unfold hintVerifyS hintVerify
  cases getR st "id_token_hint" with
  | error e => rfl
  | ok t =>
    simp only [bind, Except.bind]
    cases fromJwt C oidc_IdToken (strOf C t) jar (pick idTokenVerifyArgs kw) with
    | error e => rfl
    | ok m =>
      simp only
      have h := agrees_idToken C now st "id_token_hint" false (some m.jar) kw
      revert h
      cases verifyIdTokenS C now st "id_token_hint" false (some m.jar) kw with
      | mk r st' =>
        cases verifyIdToken C now st "id_token_hint" false (some m.jar) kw <;> cases r <;>
          simp [Agrees, Except.map]
        rintro rfl rfl
        simp

theorem agrees_endSession (C : Crypto) (now : Int) (st : Dict) (jar : JarArg C) (kw : Dict) :
    Agrees (endSessionVerifyS C now st jar kw) (endSessionVerify C now st jar kw) := by
  unfold endSessionVerifyS endSessionVerify
  cases verifyBase session_EndSessionRequest st with
  | error e => rfl
  | ok _ =>
    simp only [bind, Except.bind, endSessionRest]
    split
    · exact agrees_hint ..
    · split <;> rfl

theorem agrees_backChannel (C : Crypto) (now : Int) (st : Dict) (jar : JarArg C) (kw : Dict) :
    Agrees (backChannelVerifyS C now st jar kw) ((backChannelVerify C now st jar kw).map (true, ·)) := by
  unfold backChannelVerifyS backChannelVerify
  cases verifyBase session_BackChannelLogoutRequest st with
  | error e => rfl
  | ok _ =>
    simp only [bind, Except.bind]
    cases getR st "logout_token" with
    | error e => rfl
    | ok t =>
      simp only
      cases fromJwt C session_LogoutToken (strOf C t) jar (pick idTokenVerifyArgs kw) with
      | error e => rfl
      | ok m =>
        simp only
        cases logoutTokenVerify now m.st m.header kw with
        | error e => rfl
        | ok _ =>
          simp only
          cases formatOk (.msg session_LogoutToken.cls m.st) <;> rfl

/-! ## the message after every outcome -/

theorem dset_dset (d : Dict) (k : String) (v w : Val) : dset (dset d k v) k w = dset d k w := by
  induction d with
  | nil => simp [dset]
  | cons p d ih =>
    obtain ⟨k', u⟩ := p
    by_cases h : k' = k
    · simp [dset, h]
    · simp [dset, h, ih]

theorem verifyIdTokenS_state (C : Crypto) (now : Int) (st : Dict) (claim : String) (ch : Bool) (jar : JarArg C) (kw : Dict) :
    (verifyIdTokenS C now st claim ch jar kw).2 = st ∨
    ∃ v m, dget st claim = some v ∧
      fromJwt C oidc_IdToken (strOf C v) jar (pick idTokenVerifyArgs kw) = .ok m ∧
      idTokenVerify now m.st kw = .ok () ∧
      (verifyIdTokenS C now st claim ch jar kw).2 = dset st (verifiedClaimName claim) (.msg oidc_IdToken.cls m.st) := by
  unfold verifyIdTokenS
  cases hv : getR st claim with
  | error e => exact .inl rfl
  | ok v =>
    simp only
    cases hc : verifyIdTokenCore C now st v ch jar kw with
    | error e => exact .inl rfl
    | ok m =>
      refine .inr ⟨v, m, getR_ok.mp hv, ?_, ?_, rfl⟩
      all_goals
        unfold verifyIdTokenCore at hc
        simp only [bind_ok] at hc
        obtain ⟨_, _, _, _, _, _, _, _, _, _, m', h1, _, h2, _, _, h3⟩ := hc
        cases h3
        assumption

theorem verifyIfPresentS_state (C : Crypto) (now : Int) (st : Dict) (claim : String) (ch : Bool) (jar : JarArg C)
    (kw : Dict) :
    (verifyIfPresentS C now st claim ch jar kw).2 = st ∨
    ∃ v m, dget st claim = some v ∧
      fromJwt C oidc_IdToken (strOf C v) jar (pick idTokenVerifyArgs kw) = .ok m ∧
      idTokenVerify now m.st kw = .ok () ∧
      (verifyIfPresentS C now st claim ch jar kw).2 = dset st (verifiedClaimName claim) (.msg oidc_IdToken.cls m.st) := by
  unfold verifyIfPresentS
  split
  · exact verifyIdTokenS_state ..
  · exact .inl rfl

/-- Every parameter but the three slots is as it was. -/
def SlotFrame (st st' : Dict) : Prop :=
  ∀ k, k ≠ "__verified_id_token" → k ≠ "__verified_id_token_hint" → k ≠ "__verified_request" → dget st' k = dget st k

theorem clear_frame (st : Dict) : SlotFrame st (clearVerifiedClaims st) :=
  fun k h1 h2 h3 => clear_dget _ _ h1 h2 h3

/-- A response whose ID token is verified, after every outcome behind the base verification. -/
theorem idToken_state (C : Crypto) (now : Int) (st : Dict) (ch : Bool) (jar : JarArg C) (kw st' : Dict)
    (h : st' = (verifyIfPresentS C now (clearVerifiedClaims st) "id_token" ch jar kw).2) :
    SlotFrame st st' ∧ dget st' "__verified_id_token_hint" = none ∧ dget st' "__verified_request" = none ∧
    (dget st' "__verified_id_token" = none ∨
      ∃ v, dget st "id_token" = some v ∧ VerifiedToken C now v jar kw (dget st' "__verified_id_token")) := by
  subst h
  obtain ⟨c1, c2, c3⟩ := clear_slots st
  have hid : dget (clearVerifiedClaims st) "id_token" = dget st "id_token" :=
    clear_dget _ _ (by decide) (by decide) (by decide)
  have hn : verifiedClaimName "id_token" = "__verified_id_token" := by decide
  rcases verifyIfPresentS_state C now (clearVerifiedClaims st) "id_token" ch jar kw with h | ⟨v, m, h1, h2, h3, h4⟩
  · rw [h]
    exact ⟨clear_frame st, c2, c3, .inl c1⟩
  · rw [h4, hn]
    refine ⟨fun k k1 k2 k3 => ?_, ?_, ?_, .inr ⟨v, hid ▸ h1, m, h2, h3, dget_dset_same _ _ _⟩⟩
    · rw [dget_dset_ne _ _ (Ne.symm k1)]; exact clear_frame st k k1 k2 k3
    · rw [dget_dset_ne _ _ (by decide)]; exact c2
    · rw [dget_dset_ne _ _ (by decide)]; exact c3

/-- C107, token response: after every outcome (`True` or an exception) behind the base verification, the slots are empty
or hold the ID token verified in this call, and nothing else changed. -/
theorem C107_token_response_partial (C : Crypto) (now : Int) (st : Dict) (jar : JarArg C) (kw : Dict) (r : Res Bool)
    (st' : Dict) (hb : responseVerify oidc_AccessTokenResponse st = .ok ())
    (h : accessTokenResponseVerifyS C now st jar kw = (r, st')) :
    SlotFrame st st' ∧ dget st' "__verified_id_token_hint" = none ∧ dget st' "__verified_request" = none ∧
    (dget st' "__verified_id_token" = none ∨
      ∃ v, dget st "id_token" = some v ∧ VerifiedToken C now v jar kw (dget st' "__verified_id_token")) := by
  refine idToken_state C now st false jar kw st' ?_
  simp only [accessTokenResponseVerifyS, hb] at h
  rw [h]

/-- C107, authorization response. -/
theorem C107_authz_response_partial (C : Crypto) (now : Int) (st : Dict) (jar : JarArg C) (kw : Dict) (r : Res Bool)
    (st' : Dict) (hb : oauth2AuthzResponseVerify oidc_AuthorizationResponse st kw = .ok ())
    (h : authzResponseVerifyS C now st jar kw = (r, st')) :
    SlotFrame st st' ∧ dget st' "__verified_id_token_hint" = none ∧ dget st' "__verified_request" = none ∧
    (dget st' "__verified_id_token" = none ∨
      ∃ v, dget st "id_token" = some v ∧ VerifiedToken C now v jar kw (dget st' "__verified_id_token")) := by
  simp only [authzResponseVerifyS, hb] at h
  obtain ⟨c1, c2, c3⟩ := clear_slots st
  split at h
  · cases h; exact ⟨clear_frame st, c2, c3, .inl c1⟩
  · cases h; exact ⟨clear_frame st, c2, c3, .inl c1⟩
  · refine idToken_state C now st true jar kw st' ?_
    rw [h]

/-- C107, end session request: the slot of the hint is empty or holds an ID token decoded and verified here. -/
theorem C107_end_session_partial (C : Crypto) (now : Int) (st : Dict) (jar : JarArg C) (kw : Dict) (r : Res Bool)
    (st' : Dict) (hb : verifyBase session_EndSessionRequest st = .ok ())
    (h : endSessionVerifyS C now st jar kw = (r, st')) :
    SlotFrame st st' ∧ dget st' "__verified_id_token" = none ∧ dget st' "__verified_request" = none ∧
    (dget st' "__verified_id_token_hint" = none ∨
      ∃ v, dget st "id_token_hint" = some v ∧
        (VerifiedHint C now v jar kw (dget st' "__verified_id_token_hint") ∨
         ∃ m, fromJwt C oidc_IdToken (strOf C v) jar (pick idTokenVerifyArgs kw) = .ok m ∧
           VerifiedToken C now v (some m.jar) kw (dget st' "__verified_id_token_hint"))) := by
  simp only [endSessionVerifyS, hb] at h
  obtain ⟨c1, c2, c3⟩ := clear_slots st
  have hid : dget (clearVerifiedClaims st) "id_token_hint" = dget st "id_token_hint" :=
    clear_dget _ _ (by decide) (by decide) (by decide)
  have hn : verifiedClaimName "id_token_hint" = "__verified_id_token_hint" := by decide
  have done : st' = clearVerifiedClaims st → _ := fun hs => by
    subst hs
    exact (⟨clear_frame st, c1, c3, .inl c2⟩ : SlotFrame st _ ∧ dget _ "__verified_id_token" = none ∧
      dget _ "__verified_request" = none ∧ (dget _ "__verified_id_token_hint" = none ∨
      ∃ v, dget st "id_token_hint" = some v ∧
        (VerifiedHint C now v jar kw (dget (clearVerifiedClaims st) "__verified_id_token_hint") ∨
         ∃ m, fromJwt C oidc_IdToken (strOf C v) jar (pick idTokenVerifyArgs kw) = .ok m ∧
           VerifiedToken C now v (some m.jar) kw (dget (clearVerifiedClaims st) "__verified_id_token_hint"))))
  split at h
  · unfold hintVerifyS at h
    cases hv : getR (clearVerifiedClaims st) "id_token_hint" with
    | error e => simp only [hv] at h; cases h; exact done rfl
    | ok t =>
      have ht := getR_ok.mp hv
      simp only [hv] at h
      cases hm : fromJwt C oidc_IdToken (strOf C t) jar (pick idTokenVerifyArgs kw) with
      | error e => simp only [hm] at h; cases h; exact done rfl
      | ok m =>
        simp only [hm] at h
        have hS := verifyIdTokenS_state C now (clearVerifiedClaims st) "id_token_hint" false (some m.jar) kw
        have hA := agrees_idToken C now (clearVerifiedClaims st) "id_token_hint" false (some m.jar) kw
        cases hs : verifyIdTokenS C now (clearVerifiedClaims st) "id_token_hint" false (some m.jar) kw with
        | mk r₁ s₁ =>
          simp only [hs] at h hS
          rw [hs] at hA
          have fr : ∀ w, SlotFrame st (dset (clearVerifiedClaims st) "__verified_id_token_hint" w) ∧
              dget (dset (clearVerifiedClaims st) "__verified_id_token_hint" w) "__verified_id_token" = none ∧
              dget (dset (clearVerifiedClaims st) "__verified_id_token_hint" w) "__verified_request" = none := by
            intro w
            refine ⟨fun k k1 k2 k3 => ?_, ?_, ?_⟩
            · rw [dget_dset_ne _ _ (Ne.symm k2)]; exact clear_frame st k k1 k2 k3
            · rw [dget_dset_ne _ _ (by decide)]; exact c1
            · rw [dget_dset_ne _ _ (by decide)]; exact c3
          rw [hid] at ht
          cases r₁ with
          | error e =>
            cases h
            rcases hS with rfl | ⟨v, m', hv', hm', hver, rfl⟩
            · exact done rfl
            · rw [hid, ht] at hv'; cases hv'
              rw [hn]
              obtain ⟨f1, f2, f3⟩ := fr (.msg oidc_IdToken.cls m'.st)
              exact ⟨f1, f2, f3, .inr ⟨t, ht, .inr ⟨m, hm, m', hm', hver, dget_dset_same _ _ _⟩⟩⟩
          | ok b =>
            cases b with
            | false =>
              simp only [Agrees] at hA
              cases hx : verifyIdToken C now (clearVerifiedClaims st) "id_token_hint" false (some m.jar) kw with
              | error e => rw [hx] at hA; cases hA
              | ok s => rw [hx] at hA; cases hA
            | true =>
              simp only [Agrees] at hA
              cases hx : verifyIdToken C now (clearVerifiedClaims st) "id_token_hint" false (some m.jar) kw with
              | error e => rw [hx] at hA; cases hA
              | ok s =>
                rw [hx] at hA; cases hA
                cases h
                obtain ⟨v, _, _, _, _, m', hv', _, _, _, _, _, hm', hver, _, rfl⟩ := verifyIdToken_ok hx
                rw [hid, ht] at hv'; cases hv'
                rw [hn, dset_dset]
                obtain ⟨f1, f2, f3⟩ := fr (.msg oidc_IdToken.cls m.st)
                exact ⟨f1, f2, f3, .inr ⟨t, ht, .inl ⟨m, m', hm, hm', hver, dget_dset_same _ _ _⟩⟩⟩
  · split at h <;> (cases h; exact done rfl)

/-- C107, authorization request: the message afterwards is the old one without the slots, or the content of the request
object; in addition there may be a hint, read with a key of the key jar. -/
theorem authzRequest_state (C : Crypto) (st : Dict) (jar : JarArg C) (kw : Dict) (r : Res Bool) (st' : Dict)
    (hb : verifyBase oidc_AuthorizationRequest st = .ok ()) (h : authzRequestVerifyS C st jar kw = (r, st')) :
    st' = clearVerifiedClaims st ∨
    ∃ args st₁ jar₁, requestStep C (clearVerifiedClaims st) jar args = .ok (st₁, jar₁) ∧
      (st' = st₁ ∨ hintStep C st₁ jar₁ args = .ok st') := by
  simp only [authzRequestVerifyS, hb] at h
  cases ha : authzArgs (clearVerifiedClaims st) kw with
  | error e => simp only [ha] at h; cases h; exact .inl rfl
  | ok args =>
    simp only [ha] at h
    cases hr : requestStep C (clearVerifiedClaims st) jar args with
    | error e => simp only [hr] at h; cases h; exact .inl rfl
    | ok p =>
      obtain ⟨st₁, jar₁⟩ := p
      simp only [hr] at h
      refine .inr ⟨args, st₁, jar₁, hr, ?_⟩
      cases hh : hintStep C st₁ jar₁ args with
      | error e => simp only [hh] at h; cases h; exact .inl rfl
      | ok st₂ => simp only [hh] at h; cases h; exact .inr rfl

/-- C107, authorization request without a request object: after every outcome behind the base verification the three
slots are empty, and everything but `verified_id_token_hint` is as it was. -/
theorem C107_authz_request_plain_partial (C : Crypto) (st : Dict) (jar : JarArg C) (kw : Dict) (r : Res Bool) (st' : Dict)
    (hb : verifyBase oidc_AuthorizationRequest st = .ok ()) (hr : ∀ t, dget st "request" ≠ some (.str t))
    (h : authzRequestVerifyS C st jar kw = (r, st')) :
    dget st' "__verified_id_token" = none ∧ dget st' "__verified_id_token_hint" = none ∧
    dget st' "__verified_request" = none ∧
    ∀ k, k ≠ "__verified_id_token" → k ≠ "__verified_id_token_hint" → k ≠ "__verified_request" →
      k ≠ "verified_id_token_hint" → dget st' k = dget st k := by
  obtain ⟨c1, c2, c3⟩ := clear_slots st
  have hq : dget (clearVerifiedClaims st) "request" = dget st "request" :=
    clear_dget _ _ (by decide) (by decide) (by decide)
  rcases authzRequest_state C st jar kw r st' hb h with rfl | ⟨args, st₁, jar₁, h1, h2⟩
  · exact ⟨c1, c2, c3, fun k k1 k2 k3 _ => clear_frame st k k1 k2 k3⟩
  · rcases requestStep_ok h1 with ⟨_, rfl, _⟩ | ⟨t, m, ht, _⟩
    · rcases h2 with rfl | h2
      · exact ⟨c1, c2, c3, fun k k1 k2 k3 _ => clear_frame st k k1 k2 k3⟩
      · have hf := hintStep_frame h2
        exact ⟨by rw [hf _ (by decide)]; exact c1, by rw [hf _ (by decide)]; exact c2,
          by rw [hf _ (by decide)]; exact c3,
          fun k k1 k2 k3 k4 => by rw [hf _ k4]; exact clear_frame st k k1 k2 k3⟩
    · rw [hq] at ht
      exact absurd ht (hr t)

/-- C107, authorization request: `__verified_request` is empty or holds the request object read in this call, after every
outcome behind the base verification. -/
theorem C107_authz_request_object_partial (C : Crypto) (st : Dict) (jar : JarArg C) (kw : Dict) (r : Res Bool)
    (st' : Dict) (hb : verifyBase oidc_AuthorizationRequest st = .ok ())
    (h : authzRequestVerifyS C st jar kw = (r, st')) :
    dget st' "__verified_request" = none ∨
    ∃ t args m, dget st "request" = some (.str t) ∧ fromJwt C oidc_OpenIDRequest t jar args = .ok m ∧
      dget st' "__verified_request" = some (.msg oidc_OpenIDRequest.cls m.st) := by
  obtain ⟨_, _, c3⟩ := clear_slots st
  have hq : dget (clearVerifiedClaims st) "request" = dget st "request" :=
    clear_dget _ _ (by decide) (by decide) (by decide)
  rcases authzRequest_state C st jar kw r st' hb h with rfl | ⟨args, st₁, jar₁, h1, h2⟩
  · exact .inl c3
  · have e : dget st' "__verified_request" = dget st₁ "__verified_request" := by
      rcases h2 with rfl | h2
      · rfl
      · exact hintStep_frame h2 _ (by decide)
    rw [e]
    rcases requestStep_ok h1 with ⟨_, rfl, _⟩ | ⟨t, m, ht, hm, _, hv⟩
    · exact .inl c3
    · exact .inr ⟨t, args, m, hq ▸ ht, hm, hv⟩

/-- C107, back-channel logout: afterwards the message is as it was — with the sender's own
`__verified_logout_token` — or the slot holds the logout token verified here. -/
theorem C107_back_channel_partial (C : Crypto) (now : Int) (st : Dict) (jar : JarArg C) (kw : Dict) (r : Res Bool)
    (st' : Dict) (h : backChannelVerifyS C now st jar kw = (r, st')) :
    (st' = st ∧ r ≠ .ok true) ∨
    ∃ v m, dget st "logout_token" = some v ∧
      fromJwt C session_LogoutToken (strOf C v) jar (pick idTokenVerifyArgs kw) = .ok m ∧
      logoutTokenVerify now m.st m.header kw = .ok () ∧
      dget st' "__verified_logout_token" = some (.msg session_LogoutToken.cls m.st) ∧
      ∀ k, k ≠ "__verified_logout_token" → dget st' k = dget st k := by
  unfold backChannelVerifyS at h
  cases hb : verifyBase session_BackChannelLogoutRequest st with
  | error e => simp only [hb] at h; cases h; exact .inl ⟨rfl, nofun⟩
  | ok _ =>
    simp only [hb] at h
    cases hv : getR st "logout_token" with
    | error e => simp only [hv] at h; cases h; exact .inl ⟨rfl, nofun⟩
    | ok t =>
      simp only [hv] at h
      cases hm : fromJwt C session_LogoutToken (strOf C t) jar (pick idTokenVerifyArgs kw) with
      | error e => simp only [hm] at h; cases h; exact .inl ⟨rfl, nofun⟩
      | ok m =>
        simp only [hm] at h
        cases hl : logoutTokenVerify now m.st m.header kw with
        | error e => simp only [hl] at h; cases h; exact .inl ⟨rfl, nofun⟩
        | ok _ =>
          simp only [hl] at h
          cases h
          exact .inr ⟨t, m, getR_ok.mp hv, hm, hl, dget_dset_same _ _ _, fun k hk => dget_dset_ne _ _ (Ne.symm hk)⟩

/-! ## what is not true -/

/-- C107 is false when the base verification fails: the slots are cleared behind it, so the message of the sender is kept
whole, forged slots included.  For every message and all four methods. -/
theorem C107_base_failure (C : Crypto) (now : Int) (st : Dict) (jar : JarArg C) (kw : Dict) (e : Exc) :
    (responseVerify oidc_AccessTokenResponse st = .error e →
      accessTokenResponseVerifyS C now st jar kw = (.error e, st)) ∧
    (oauth2AuthzResponseVerify oidc_AuthorizationResponse st kw = .error e →
      authzResponseVerifyS C now st jar kw = (.error e, st)) ∧
    (verifyBase session_EndSessionRequest st = .error e → endSessionVerifyS C now st jar kw = (.error e, st)) ∧
    (verifyBase oidc_AuthorizationRequest st = .error e → authzRequestVerifyS C st jar kw = (.error e, st)) := by
  refine ⟨fun h => ?_, fun h => ?_, fun h => ?_, fun h => ?_⟩
  · simp only [accessTokenResponseVerifyS, h]
  · simp only [authzResponseVerifyS, h]
  · simp only [endSessionVerifyS, h]
  · simp only [authzRequestVerifyS, h]

/-- A token response without `token_type` is rejected and keeps its forged `__verified_id_token`. -/
theorem C107_counterexample_base :
    accessTokenResponseVerifyS toy 1500
      [("access_token", .str "a"), ("__verified_id_token", .dict [("sub", .str "admin")])] (some (some ())) [] =
    (.error .missingRequiredAttribute,
      [("access_token", .str "a"), ("__verified_id_token", .dict [("sub", .str "admin")])]) := by decide +kernel

/-- A back-channel logout whose token cannot be read keeps its forged `__verified_logout_token`. -/
theorem C107_counterexample_back_channel :
    ((backChannelVerifyS toy 1500
      [("logout_token", .str "?"), ("__verified_logout_token", .dict [("sub", .str "admin")])] (some (some ())) []).1.isOk,
     dget (backChannelVerifyS toy 1500
      [("logout_token", .str "?"), ("__verified_logout_token", .dict [("sub", .str "admin")])] (some (some ())) []).2
      "__verified_logout_token") = (false, some (.dict [("sub", .str "admin")])) := by decide +kernel

/-- A message with an ID token is accepted with the sender's own `__verified_request`. -/
theorem C107_counterexample_with_id_token :
    (let s := messageWithIdTokenVerifyS toy 1500 oidc_MessageWithIdToken
      [("id_token", .str "T"), ("__verified_request", .dict [("client_id", .str "forged")])] (some (some ())) []
     (s.1, dget s.2 "__verified_request")) = (.ok true, some (.dict [("client_id", .str "forged")])) := by decide +kernel

/-- The client signs a request object whose `prompt` is not acceptable. -/
def promptCrypto : Crypto := toyCrypto
  [("R", ⟨[("alg", .str "RS256")],
    .ok (.dict (toyRequest [("prompt", .list [.str "none", .str "login"])]))⟩)] ["c"] ["R"]

/-- An authorization request that is rejected for what its request object says has become the request object: the
caller who catches the exception no longer has the parameters that were sent. -/
theorem C107_counterexample_replaced :
    (let s := authzRequestVerifyS promptCrypto (toyRequest [("request", .str "R"), ("state", .str "x")])
        (some (some ())) []
     (s.1, dget s.2 "state", dget s.2 "prompt")) =
    (.error .invalidRequest, none, some (.list [.str "none", .str "login"])) := by decide +kernel

/-! ## the hypotheses can be met -/

example : responseVerify oidc_AccessTokenResponse
    [("access_token", .str "a"), ("token_type", .str "b"), ("id_token", .str "T"),
     ("__verified_id_token", .dict [("sub", .str "admin")])] = .ok () := by decide +kernel

/-- a token of unknown signer: rejected, and the forged slot is gone -/
example :
    (let s := accessTokenResponseVerifyS toy 1500
        [("access_token", .str "a"), ("token_type", .str "b"), ("id_token", .str "?"),
             ("__verified_id_token", .dict [("sub", .str "admin")])] (some (some ())) []
     (s.1.isOk, s.2)) = (false, [("access_token", .str "a"), ("token_type", .str "b"), ("id_token", .str "?")]) := by
  decide +kernel

example :
    (let s := endSessionVerifyS toy 1500 [("id_token_hint", .str "?"),
        ("__verified_id_token_hint", .dict [("sub", .str "admin")])] (some (some ())) []
     (s.1.isOk, s.2)) = (false, [("id_token_hint", .str "?")]) := by decide +kernel

example :
    (let s := authzRequestVerifyS toy (toyRequest [("prompt", .list [.str "none", .str "login"]),
        ("__verified_request", .str "forged")]) (some none) []
     (s.1, s.2)) = (.error .invalidRequest, toyRequest [("prompt", .list [.str "none", .str "login"])]) := by
  decide +kernel

end Verif
