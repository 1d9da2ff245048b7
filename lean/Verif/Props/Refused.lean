import Verif.Props.VerifyState
import Verif.Props.Registration
import Verif.Props.Repeat
import Verif.Props.ErrorMessage

/-!
# C161: a refused message stays as it was, and is refused again
-/

namespace Verif

/-! ## registration requests -/

theorem agrees_registration (st : Dict) :
    Agrees (registrationRequestVerifyS st) ((registrationRequestVerify st).map (true, ·)) := by
  unfold registrationRequestVerifyS registrationRequestVerify
  cases verifyBase oidc_RegistrationRequest st with
  | error e => rfl
  | ok _ =>
    simp only [bind, Except.bind]
    cases initiateLogin st with
    | error e => rfl
    | ok _ =>
      simp only [pairStepsS]
      cases pairStep st "request_object_encryption_alg" "request_object_encryption_enc" with
      | error e => rfl
      | ok s1 =>
        simp only
        cases pairStep s1 "id_token_encrypted_response_alg" "id_token_encrypted_response_enc" with
        | error e => rfl
        | ok s2 =>
          simp only
          cases pairStep s2 "userinfo_encrypted_response_alg" "userinfo_encrypted_response_enc" with
          | error e => rfl
          | ok s3 =>
            simp only
            cases authSigningAlg s3 <;> rfl

/-- The message has got nothing but the encryption methods that go with the algorithms it names. -/
def OnlyFilled (st st' : Dict) : Prop :=
  ∀ k, dget st' k = dget st k ∨
    dget st k = none ∧ dget st' k = some (.str "A128CBC-HS256") ∧ ∃ p ∈ encPairs, k = p.2 ∧ dget st p.1 ≠ none

theorem pairStep_cases (st : Dict) {a e : String}
    (hd : dget oidc_RegistrationRequest.params e = some singleOptionalString) :
    (dget st a = none ∧ dget st e ≠ none ∧ pairStep st a e = .error .missingRequiredAttribute) ∨
    ((dget st a = none ↔ dget st e = none) ∧ pairStep st a e = .ok st) ∨
    (dget st a ≠ none ∧ dget st e = none ∧ pairStep st a e = .ok (dset st e (.str "A128CBC-HS256"))) := by
  unfold pairStep
  rw [setItem_enc hd]
  unfold dhas
  cases ha : dget st a <;> cases he : dget st e <;> simp

/-- The loop over distinct parameters: what it stored, and what it does when it is run again. -/
theorem pairSteps_again (pairs : List (String × String)) :
    ∀ (st : Dict) (r : Res Unit) (st' : Dict),
    (∀ p ∈ pairs, dget oidc_RegistrationRequest.params p.2 = some singleOptionalString) →
    (∀ p ∈ pairs, ∀ q ∈ pairs, p.1 ≠ q.2) → (pairs.map (·.2)).Nodup →
    pairStepsS pairs st = (r, st') →
    pairStepsS pairs st' = (r, st') ∧
    (∀ k, dget st' k = dget st k ∨
      dget st k = none ∧ dget st' k = some (.str "A128CBC-HS256") ∧ ∃ p ∈ pairs, k = p.2 ∧ dget st p.1 ≠ none) := by
  induction pairs with
  | nil => intro st r st' _ _ _ h; cases h; exact ⟨rfl, fun k => .inl rfl⟩
  | cons p ps ih =>
    obtain ⟨a, e⟩ := p
    intro st r st' hd hx hn h
    have hd' : ∀ p ∈ ps, dget oidc_RegistrationRequest.params p.2 = some singleOptionalString :=
      fun q hq => hd q (List.mem_cons_of_mem _ hq)
    have hx' : ∀ p ∈ ps, ∀ q ∈ ps, p.1 ≠ q.2 :=
      fun q hq q' hq' => hx q (List.mem_cons_of_mem _ hq) q' (List.mem_cons_of_mem _ hq')
    have hn' : (ps.map (·.2)).Nodup := (List.nodup_cons.mp hn).2
    have he : ∀ p ∈ ps, e ≠ p.2 := fun q hq eq =>
      (List.nodup_cons.mp hn).1 (List.mem_map.mpr ⟨q, hq, eq.symm⟩)
    have ha : ∀ p ∈ ps, a ≠ p.2 := fun q hq => hx (a, e) (List.mem_cons_self ..) q (List.mem_cons_of_mem _ hq)
    have hae : a ≠ e := hx (a, e) (List.mem_cons_self ..) (a, e) (List.mem_cons_self ..)
    have keep : ∀ {s : Dict} {k : String}, (∀ p ∈ ps, k ≠ p.2) →
        (∀ k, dget st' k = dget s k ∨ dget s k = none ∧ dget st' k = some (.str "A128CBC-HS256") ∧
          ∃ p ∈ ps, k = p.2 ∧ dget s p.1 ≠ none) → dget st' k = dget s k := by
      intro s k hk hf
      rcases hf k with h | ⟨_, _, p, hp, rfl, _⟩
      · exact h
      · exact absurd rfl (hk p hp)
    rcases pairStep_cases st (a := a) (hd (a, e) (List.mem_cons_self ..)) with ⟨h1, h2, h3⟩ | ⟨h1, h3⟩ | ⟨h1, h2, h3⟩
    · simp only [pairStepsS, h3] at h
      cases h
      exact ⟨by simp only [pairStepsS, h3], fun k => .inl rfl⟩
    · simp only [pairStepsS, h3] at h
      obtain ⟨i1, i2⟩ := ih st r st' hd' hx' hn' h
      have ka := keep ha i2
      have ke := keep he i2
      refine ⟨?_, fun k => ?_⟩
      · simp only [pairStepsS]
        rw [pairStep_done (by rw [ka, ke]; exact h1)]
        exact i1
      · rcases i2 k with h | ⟨x, y, p, hp, z⟩
        · exact .inl h
        · exact .inr ⟨x, y, p, List.mem_cons_of_mem _ hp, z⟩
    · simp only [pairStepsS, h3] at h
      obtain ⟨i1, i2⟩ := ih (dset st e (.str "A128CBC-HS256")) r st' hd' hx' hn' h
      have ka := keep ha i2
      have ke := keep he i2
      rw [dget_dset_ne _ _ hae.symm] at ka
      rw [dget_dset_same] at ke
      refine ⟨?_, fun k => ?_⟩
      · simp only [pairStepsS]
        rw [pairStep_done (by rw [ka, ke]; simp [h1])]
        exact i1
      · by_cases hk : e = k
        · subst hk
          exact .inr ⟨h2, ke, (a, e), List.mem_cons_self .., rfl, h1⟩
        · rcases i2 k with h | ⟨x, y, p, hp, z, w⟩
          · rw [dget_dset_ne _ _ hk] at h; exact .inl h
          · rw [dget_dset_ne _ _ hk] at x
            refine .inr ⟨x, y, p, List.mem_cons_of_mem _ hp, z, ?_⟩
            have : e ≠ p.1 := (hx p (List.mem_cons_of_mem _ hp) (a, e) (List.mem_cons_self ..)).symm
            rwa [dget_dset_ne _ _ this] at w

/-- A parameter that is neither required nor limited to some values does not matter to the base verification. -/
theorem verifyBase_free {sch : Schema} {st st' : Dict}
    (h : ∀ a sp, (a, sp) ∈ sch.params → dget st' a = dget st a ∨ dget sch.allowed a = none ∧ sp.required = false) :
    verifyBase sch st' = verifyBase sch st := by
  unfold verifyBase
  generalize sch.params = ps at h
  induction ps with
  | nil => rfl
  | cons p ps ih =>
    obtain ⟨a, sp⟩ := p
    have e : verifyParam sch.allowed st' a sp = verifyParam sch.allowed st a sp := by
      rcases h a sp (List.mem_cons_self ..) with h | ⟨h1, h2⟩
      · unfold verifyParam; rw [h]
      · unfold verifyParam
        simp only [h1, h2]
        cases dget st a <;> cases dget st' a <;> simp
    simp only [verifyParams, e, ih fun b sp' hm => h b sp' (List.mem_cons_of_mem _ hm)]

theorem filled_verifyBase {st st' : Dict} (h : OnlyFilled st st') :
    verifyBase oidc_RegistrationRequest st' = verifyBase oidc_RegistrationRequest st := by
  apply verifyBase_free
  intro a sp ha
  rcases h a with h | ⟨_, _, p, hp, rfl, _⟩
  · exact .inl h
  · refine .inr ?_
    have : ∀ q ∈ oidc_RegistrationRequest.params, ∀ p ∈ encPairs, q.1 = p.2 →
        dget oidc_RegistrationRequest.allowed p.2 = none ∧ q.2.required = false := by
      intro q hq p hp e
      simp only [encPairs, List.mem_cons, List.not_mem_nil, or_false] at hp
      rcases hp with rfl | rfl | rfl <;> (
        refine ⟨rfl, ?_⟩
        have := (by decide +kernel : ∀ q ∈ oidc_RegistrationRequest.params, (q.1 = "request_object_encryption_enc" ∨
          q.1 = "id_token_encrypted_response_enc" ∨ q.1 = "userinfo_encrypted_response_enc") → q.2.required = false)
        exact this q hq (by simp [e]))
    exact this _ ha p hp rfl

theorem encPairs_declared : ∀ p ∈ encPairs, dget oidc_RegistrationRequest.params p.2 = some singleOptionalString := by
  intro p hp
  simp only [encPairs, List.mem_cons, List.not_mem_nil, or_false] at hp
  rcases hp with rfl | rfl | rfl <;> rfl

/-- **C161**, registration requests (`_partial`: encryption methods may have been added, `C161_counterexample_registration`):
whatever the outcome, every parameter keeps its value, nothing is added but the default encryption methods, and
verifying again has the same outcome and changes nothing more. -/
theorem C161_registration_partial {st st' : Dict} {r : Res Bool} (h : registrationRequestVerifyS st = (r, st')) :
    OnlyFilled st st' ∧ registrationRequestVerifyS st' = (r, st') := by
  have h0 := h
  unfold registrationRequestVerifyS at h
  cases hb : verifyBase oidc_RegistrationRequest st with
  | error e => simp only [hb] at h; cases h; exact ⟨fun k => .inl rfl, h0⟩
  | ok _ =>
    simp only [hb] at h
    cases hl : initiateLogin st with
    | error e => simp only [hl] at h; cases h; exact ⟨fun k => .inl rfl, h0⟩
    | ok _ =>
      simp only [hl] at h
      cases hp : pairStepsS encPairs st with
      | mk r₁ s₁ =>
        have hs : s₁ = st' := by
          cases r₁ <;> (unfold encPairs at hp; simp only [hp] at h; cases h; rfl)
        subst hs
        obtain ⟨i1, i2⟩ := pairSteps_again encPairs st r₁ s₁ encPairs_declared
          (by decide) (by decide) hp
        have hlogin : initiateLogin s₁ = .ok () := by
          rw [← hl]
          unfold initiateLogin
          rcases i2 "initiate_login_uri" with h | ⟨_, _, p, hp, e, _⟩
          · rw [h]
          · simp only [encPairs, List.mem_cons, List.not_mem_nil, or_false] at hp
            rcases hp with rfl | rfl | rfl <;> simp at e
        refine ⟨i2, ?_⟩
        unfold registrationRequestVerifyS
        rw [filled_verifyBase i2, hb, hlogin]
        unfold encPairs at hp i1
        simp only [hp] at h
        simp only [i1]
        exact h

/-- **C161** is false for registration requests: this one is refused for the second pair of parameters when the
first has been completed. -/
theorem C161_counterexample_registration :
    registrationRequestVerifyS
      [("redirect_uris", .list [.str "https://a.org/cb"]), ("request_object_encryption_alg", .str "RSA-OAEP"),
       ("id_token_encrypted_response_enc", .str "A128GCM")] =
    (.error .missingRequiredAttribute,
      [("redirect_uris", .list [.str "https://a.org/cb"]), ("request_object_encryption_alg", .str "RSA-OAEP"),
       ("id_token_encrypted_response_enc", .str "A128GCM"),
       ("request_object_encryption_enc", .str "A128CBC-HS256")]) := by decide +kernel

/-! ## messages with tokens -/

/-- The sender put nothing in the places the library keeps verified tokens in. -/
def NoSlots (st : Dict) : Prop := ∀ k, IsSlot k → dget st k = none

theorem clear_noSlots {st : Dict} (h : NoSlots st) : clearVerifiedClaims st = st := by
  rw [clear_eq, ddel_absent (h _ (.inl rfl)), ddel_absent (h _ (.inr (.inl rfl))), ddel_absent (h _ (.inr (.inr rfl)))]

/-- The message after a refusal: as it was, or (the token is fine, but cannot be written to the log) with the verified
token in its slot. -/
def AsItWas (C : Crypto) (now : Int) (claim : String) (kw : Dict) (st : Dict) (r : Res Bool) (st' : Dict) : Prop :=
  st' = st ∨ ∃ v m jar e, dget st claim = some v ∧
    fromJwt C oidc_IdToken (strOf C v) jar (pick idTokenVerifyArgs kw) = .ok m ∧ idTokenVerify now m.st kw = .ok () ∧
    toDict libEnv oidc_IdToken.cls m.st = .error e ∧ r = .error e ∧
    st' = dset st ("__verified_" ++ claim) (.msg oidc_IdToken.cls m.st)

theorem format_error {c : Cls} {d : Dict} {e : Exc} (h : formatOk (.msg c d) = .error e) :
    toDict libEnv c d = .error e := by
  unfold formatOk at h
  simp only at h
  split at h
  · cases h
  · cases h; assumption

theorem idTokenS_refused {C : Crypto} {now : Int} {st : Dict} {claim : String} {ch : Bool} {jar : JarArg C} {kw : Dict}
    {r : Res Bool} {st' : Dict} (h : verifyIdTokenS C now st claim ch jar kw = (r, st')) (hr : r ≠ .ok true) :
    AsItWas C now claim kw st r st' := by
  have hs := verifyIdTokenS_state C now st claim ch jar kw
  rw [h] at hs
  rcases hs with hs | ⟨v, m, h1, h2, h3, h4⟩
  · exact .inl hs
  · unfold verifyIdTokenS at h
    rw [getR_ok.mpr h1] at h
    simp only at h
    cases hc : verifyIdTokenCore C now st v ch jar kw with
    | error e => rw [hc] at h; cases h; exact .inl rfl
    | ok m' =>
      rw [hc] at h
      simp only at h
      have hm : m' = m := by
        unfold verifyIdTokenCore at hc
        simp only [bind_ok] at hc
        obtain ⟨_, _, _, _, _, _, _, _, _, _, m', h1, _, _, _, _, h3⟩ := hc
        cases h3
        rw [h2] at h1; cases h1; rfl
      subst hm
      cases hf : formatOk (.msg oidc_IdToken.cls m'.st) with
      | ok _ => rw [hf] at h; cases h; exact absurd rfl hr
      | error e =>
        rw [hf] at h
        cases h
        exact .inr ⟨v, m', jar, e, h1, h2, h3, format_error hf, rfl, rfl⟩

theorem ifPresentS_refused {C : Crypto} {now : Int} {st : Dict} {claim : String} {ch : Bool} {jar : JarArg C} {kw : Dict}
    {r : Res Bool} {st' : Dict} (h : verifyIfPresentS C now st claim ch jar kw = (r, st')) (hr : r ≠ .ok true) :
    AsItWas C now claim kw st r st' := by
  unfold verifyIfPresentS at h
  split at h
  · exact idTokenS_refused h hr
  · cases h; exact .inl rfl

/-- **C161**, token responses -/
theorem C161_token_response_partial {C : Crypto} {now : Int} {st : Dict} {jar : JarArg C} {kw : Dict} {r : Res Bool} {st' : Dict}
    (hn : NoSlots st) (h : accessTokenResponseVerifyS C now st jar kw = (r, st')) (hr : r ≠ .ok true) :
    AsItWas C now "id_token" kw st r st' := by
  unfold accessTokenResponseVerifyS at h
  rw [clear_noSlots hn] at h
  split at h
  · cases h; exact .inl rfl
  · exact ifPresentS_refused h hr

/-- **C161**, authorization responses, refused with an exception or as not for this client -/
theorem C161_authz_response_partial {C : Crypto} {now : Int} {st : Dict} {jar : JarArg C} {kw : Dict} {r : Res Bool} {st' : Dict}
    (hn : NoSlots st) (h : authzResponseVerifyS C now st jar kw = (r, st')) (hr : r ≠ .ok true) :
    AsItWas C now "id_token" kw st r st' := by
  unfold authzResponseVerifyS at h
  rw [clear_noSlots hn] at h
  split at h
  · cases h; exact .inl rfl
  · split at h
    · cases h; exact .inl rfl
    · cases h; exact .inl rfl
    · exact ifPresentS_refused h hr

/-- **C161**, other messages with an ID token; here slots of the sender are kept as well -/
theorem C161_message_partial {C : Crypto} {now : Int} {sch : Schema} {st : Dict} {jar : JarArg C} {kw : Dict} {r : Res Bool} {st' : Dict}
    (h : messageWithIdTokenVerifyS C now sch st jar kw = (r, st')) (hr : r ≠ .ok true) :
    AsItWas C now "id_token" kw st r st' := by
  unfold messageWithIdTokenVerifyS at h
  split at h
  · cases h; exact .inl rfl
  · exact ifPresentS_refused h hr

/-- **C161**, end session requests, refused with an exception or as a redirect without a hint -/
theorem C161_end_session_partial {C : Crypto} {now : Int} {st : Dict} {jar : JarArg C} {kw : Dict} {r : Res Bool} {st' : Dict}
    (hn : NoSlots st) (h : endSessionVerifyS C now st jar kw = (r, st')) (hr : r ≠ .ok true) :
    AsItWas C now "id_token_hint" kw st r st' := by
  unfold endSessionVerifyS at h
  rw [clear_noSlots hn] at h
  split at h
  · cases h; exact .inl rfl
  · split at h
    · unfold hintVerifyS at h
      split at h
      · cases h; exact .inl rfl
      · split at h
        · cases h; exact .inl rfl
        · split at h
          · next he => cases h; exact idTokenS_refused he hr
          · next he => cases h; exact idTokenS_refused he hr
          · cases h; exact absurd rfl hr
    · split at h
      · cases h; exact .inl rfl
      · cases h; exact .inl rfl

/-- **C161**, back-channel logout requests -/
theorem C161_back_channel_partial {C : Crypto} {now : Int} {st : Dict} {jar : JarArg C} {kw : Dict} {r : Res Bool} {st' : Dict}
    (h : backChannelVerifyS C now st jar kw = (r, st')) (hr : r ≠ .ok true) :
    st' = st ∨ ∃ v m e, dget st "logout_token" = some v ∧
      fromJwt C session_LogoutToken (strOf C v) jar (pick idTokenVerifyArgs kw) = .ok m ∧
      logoutTokenVerify now m.st m.header kw = .ok () ∧ toDict libEnv session_LogoutToken.cls m.st = .error e ∧
      r = .error e ∧ st' = dset st "__verified_logout_token" (.msg session_LogoutToken.cls m.st) := by
  unfold backChannelVerifyS at h
  split at h
  · cases h; exact .inl rfl
  · split at h
    · cases h; exact .inl rfl
    · next v hv =>
      split at h
      · cases h; exact .inl rfl
      · next m hm =>
        split at h
        · cases h; exact .inl rfl
        · next hl =>
          cases hf : formatOk (.msg session_LogoutToken.cls m.st) with
          | ok _ => rw [hf] at h; cases h; exact absurd rfl hr
          | error e =>
            rw [hf] at h; cases h
            exact .inr ⟨v, m, e, getR_ok.mp hv, hm, hl, format_error hf, rfl, rfl⟩

/-- **C161**, authorization requests without a request object: only a hint that was read may have been added. -/
theorem C161_authz_request_partial {C : Crypto} {st : Dict} {jar : JarArg C} {kw : Dict} {r : Res Bool} {st' : Dict}
    (hn : NoSlots st) (hq : ∀ t, dget st "request" ≠ some (.str t)) (h : authzRequestVerifyS C st jar kw = (r, st')) :
    st' = st ∨ ∃ t args m, dget st "id_token_hint" = some (.str t) ∧ fromJwt C oidc_IdToken t jar args = .ok m ∧
      st' = dset st "verified_id_token_hint" (.msg oidc_IdToken.cls m.st) := by
  unfold authzRequestVerifyS at h
  rw [clear_noSlots hn] at h
  split at h
  · cases h; exact .inl rfl
  · split at h
    · cases h; exact .inl rfl
    · next args _ =>
      split at h
      · cases h; exact .inl rfl
      · next s₁ j₁ hs =>
        rcases requestStep_ok hs with ⟨_, rfl, rfl⟩ | ⟨t, _, ht, _⟩
        · split at h
          · cases h; exact .inl rfl
          · next s₂ hh =>
            cases h
            rcases hintStep_ok hh with ⟨_, rfl⟩ | ⟨t, m, h1, h2, rfl⟩
            · exact .inl rfl
            · exact .inr ⟨t, args, m, h1, h2, rfl⟩
        · exact absurd ht (hq t)

/-! ## refused again -/

theorem ifPresentS_same (C : Crypto) (now : Int) (st : Dict) (ch : Bool) (jar : JarArg C) (kw : Dict) :
    SameBut st (verifyIfPresentS C now (clearVerifiedClaims st) "id_token" ch jar kw).2 := by
  rcases verifyIfPresentS_state C now (clearVerifiedClaims st) "id_token" ch jar kw with h | ⟨v, m, _, _, _, h⟩
  · rw [h]; exact sameBut_clear st
  · rw [h]; exact sameBut_fill st _ idTokenSlot

/-- **C161**, token responses: verified again, whatever the outcome was, the outcome and the message are the same. -/
theorem C161_token_response_again {C : Crypto} {now : Int} {st : Dict} {jar : JarArg C} {kw : Dict} {r : Res Bool} {st' : Dict}
    (h : accessTokenResponseVerifyS C now st jar kw = (r, st')) : accessTokenResponseVerifyS C now st' jar kw = (r, st') := by
  have h0 := h
  unfold accessTokenResponseVerifyS at h
  split at h
  · cases h; exact h0
  · next hb =>
    have hs := ifPresentS_same C now st false jar kw
    rw [h] at hs
    unfold accessTokenResponseVerifyS
    rw [responseVerify_same (by unfold SlotFree IsSlot; decide) hs, hb, hs.1]
    exact h

/-- **C161**, authorization responses -/
theorem C161_authz_response_again {C : Crypto} {now : Int} {st : Dict} {jar : JarArg C} {kw : Dict} {r : Res Bool} {st' : Dict}
    (h : authzResponseVerifyS C now st jar kw = (r, st')) : authzResponseVerifyS C now st' jar kw = (r, st') := by
  have h0 := h
  unfold authzResponseVerifyS at h
  split at h
  · cases h; exact h0
  · next hb =>
    have hs : SameBut st st' := by
      split at h
      · cases h; exact sameBut_clear st
      · cases h; exact sameBut_clear st
      · have := ifPresentS_same C now st true jar kw
        rw [h] at this
        exact this
    have e : oauth2AuthzResponseVerify oidc_AuthorizationResponse st' kw =
        oauth2AuthzResponseVerify oidc_AuthorizationResponse st kw := by
      unfold oauth2AuthzResponseVerify matchArg
      rw [responseVerify_same (by unfold SlotFree IsSlot; decide) hs, hs.2 "client_id" (by simp [IsSlot]),
        hs.2 "iss" (by simp [IsSlot])]
    unfold authzResponseVerifyS
    rw [e, hb, hs.1]
    exact h

/-- **C161**, end session requests -/
theorem C161_end_session_again {C : Crypto} {now : Int} {st : Dict} {jar : JarArg C} {kw : Dict} {r : Res Bool} {st' : Dict}
    (h : endSessionVerifyS C now st jar kw = (r, st')) : endSessionVerifyS C now st' jar kw = (r, st') := by
  have h0 := h
  unfold endSessionVerifyS at h
  split at h
  · cases h; exact h0
  · next hb =>
    have hstate : ∀ (j : JarArg C) r₁ s₁, verifyIdTokenS C now (clearVerifiedClaims st) "id_token_hint" false j kw = (r₁, s₁) →
        s₁ = clearVerifiedClaims st ∨ ∃ w, s₁ = dset (clearVerifiedClaims st) "__verified_id_token_hint" w := by
      intro j r₁ s₁ he
      have hs := verifyIdTokenS_state C now (clearVerifiedClaims st) "id_token_hint" false j kw
      rw [he] at hs
      rcases hs with hs | ⟨_, m, _, _, _, hs⟩
      · exact .inl hs
      · exact .inr ⟨_, hs⟩
    have hsame : ∀ s₁, (s₁ = clearVerifiedClaims st ∨ ∃ w, s₁ = dset (clearVerifiedClaims st) "__verified_id_token_hint" w) →
        SameBut st s₁ := by
      rintro s₁ (rfl | ⟨w, rfl⟩)
      · exact sameBut_clear st
      · exact sameBut_fill st _ (.inr (.inl rfl))
    have hs : SameBut st st' := by
      split at h
      · unfold hintVerifyS at h
        split at h
        · cases h; exact sameBut_clear st
        · split at h
          · cases h; exact sameBut_clear st
          · split at h
            · next he => cases h; exact hsame _ (hstate _ _ _ he)
            · next he => cases h; exact hsame _ (hstate _ _ _ he)
            · next he =>
              cases h
              refine hsame _ (.inr ?_)
              rcases hstate _ _ _ he with rfl | ⟨w, rfl⟩
              · exact ⟨_, rfl⟩
              · exact ⟨_, dset_dset _ _ _ _⟩
      · split at h
        · cases h; exact sameBut_clear st
        · cases h; exact sameBut_clear st
    unfold endSessionVerifyS
    rw [verifyBase_same (by unfold SlotFree IsSlot; decide) hs, hb, hs.1]
    exact h

/-- Two request objects of the client; the first, whose `prompt` is not acceptable, carries the second. -/
def nestedCrypto : Crypto := toyCrypto
  [("R", ⟨[("alg", .str "RS256")],
    .ok (.dict (toyRequest [("prompt", .list [.str "none", .str "login"]), ("request", .str "Q")]))⟩),
   ("Q", ⟨[("alg", .str "RS256")], .ok (.dict (toyRequest []))⟩)] ["c"] ["R", "Q"]

/-- **C161** is false for authorization requests with a request object: refused at first, accepted the second time. -/
theorem C161_counterexample_again :
    (let s := authzRequestVerifyS nestedCrypto (toyRequest [("request", .str "R")]) (some (some ())) []
     (s.1, (authzRequestVerifyS nestedCrypto s.2 (some (some ())) []).1)) =
    (.error .invalidRequest, .ok true) := by decide +kernel

/-! ## the hypotheses can be met -/

example : NoSlots [("access_token", .str "a"), ("token_type", .str "b"), ("id_token", .str "?")] := by
  rintro k (rfl | rfl | rfl) <;> rfl

example :
    (accessTokenResponseVerifyS toy 1500 [("access_token", .str "a"), ("token_type", .str "b"), ("id_token", .str "?")]
      (some (some ())) []).1 ≠ .ok true := by decide +kernel

example :
    (registrationRequestVerifyS [("redirect_uris", .list [.str "https://a.org/cb"]),
      ("userinfo_encrypted_response_alg", .str "RSA-OAEP"), ("token_endpoint_auth_signing_alg", .str "none")]).1 =
    .error .valueError := by decide +kernel

example : (backChannelVerifyS toy 1500 [("logout_token", .str "?")] (some (some ())) []).1 ≠ .ok true := by decide +kernel

example : (endSessionVerifyS toy 1500 [("post_logout_redirect_uri", .str "https://a.org/")] (some (some ())) []).1 =
    .ok false := by decide +kernel

end Verif
