import Verif.Props.Repeat
import Verif.Model.IdentityAssurance

/-!
# C131: parameters a class does not know do not influence its verification

Two messages with the same values at the parameters of the class get the same verdict, whatever else they hold: both are
accepted, both give the same answer, or both are refused with the same exception.  What verification leaves at the known
parameters and in the slots is also the same.
-/

namespace Verif

/-- the same values at the given names -/
def EqualAt (N : String → Prop) (st st' : Dict) : Prop := ∀ k, N k → dget st' k = dget st k

/-- two outcomes: the same exception, or related results -/
def Alike (R : α → α → Prop) : Res α → Res α → Prop
  | .error e, .error e' => e = e'
  | .ok a, .ok b => R a b
  | _, _ => False

theorem alike_bind {R : α → α → Prop} {S : β → β → Prop} {x y : Res α} {f g : α → Res β} (h : Alike R x y)
    (hf : ∀ a b, R a b → Alike S (f a) (g b)) : Alike S (x >>= f) (y >>= g) := by
  cases x with
  | error e => cases y with
    | error e' => exact h
    | ok b => exact h.elim
  | ok a => cases y with
    | error e' => exact h.elim
    | ok b => exact hf a b h

theorem alike_seq {S : β → β → Prop} {x y : Res α} {f g : α → Res β} (h : y = x) (hf : ∀ a, Alike S (f a) (g a)) :
    Alike S (x >>= f) (y >>= g) := by
  subst h
  cases y with
  | error e => exact rfl
  | ok a => exact hf a

theorem alike_map {R : α → α → Prop} {S : β → β → Prop} {x y : Res α} {f : α → β} (h : Alike R x y)
    (hf : ∀ a b, R a b → S (f a) (f b)) : Alike S (x.map f) (y.map f) := by
  cases x with
  | error e => cases y with
    | error e' => exact h
    | ok b => exact h.elim
  | ok a => cases y with
    | error e' => exact h.elim
    | ok b => exact hf a b h

theorem alike_eq {x y : Res α} : Alike Eq x y ↔ y = x := by
  cases x <;> cases y <;> simp [Alike, eq_comm]

/-- the parameters of a class -/
def Known (sch : Schema) (k : String) : Prop := k ∈ dkeys sch.params

/-- the parameters of a class and the three slots -/
def KnownOrSlot (sch : Schema) (k : String) : Prop := Known sch k ∨ IsSlot k

instance (sch : Schema) (k : String) : Decidable (Known sch k) := inferInstanceAs (Decidable (k ∈ dkeys sch.params))

theorem dhas_same {st st' : Dict} {k : String} (h : dget st' k = dget st k) : dhas st' k = dhas st k := by
  unfold dhas; rw [h]

theorem equalAt_dset {N : String → Prop} {st st' : Dict} (h : EqualAt N st st') (k : String) (v : Val) :
    EqualAt N (dset st k v) (dset st' k v) := by
  intro a ha
  by_cases e : k = a
  · subst e; rw [dget_dset_same, dget_dset_same]
  · rw [dget_dset_ne _ _ e, dget_dset_ne _ _ e]; exact h a ha

theorem equalAt_ddel {N : String → Prop} {st st' : Dict} (h : EqualAt N st st') (k : String) :
    EqualAt N (ddel st k) (ddel st' k) := by
  intro a ha
  by_cases e : k = a
  · subst e; rw [dget_ddel_same, dget_ddel_same]
  · rw [dget_ddel_ne _ e, dget_ddel_ne _ e]; exact h a ha

theorem equalAt_dupdate {N : String → Prop} {st st' : Dict} (h : EqualAt N st st') (e : Dict) :
    EqualAt N (dupdate st e) (dupdate st' e) := by
  unfold dupdate
  induction e generalizing st st' with
  | nil => exact h
  | cons p r ih => exact ih (equalAt_dset h p.1 p.2)

theorem equalAt_dropKeys {N : String → Prop} {st st' : Dict} (h : EqualAt N st st') (kept : String → Bool) :
    EqualAt N (dropKeys kept st) (dropKeys kept st') := by
  intro a ha
  rw [dget_dropKeys, dget_dropKeys, h a ha]

theorem equalAt_merge {N : String → Prop} {st st' : Dict} (h : EqualAt N st st') (ro : Dict) (t : String) (w : Option (List String)) :
    EqualAt N (merge st ro t w) (merge st' ro t w) := by
  unfold merge mergeBase
  apply equalAt_dupdate
  repeat' split
  · exact equalAt_dropKeys h _
  · exact h
  · exact equalAt_dropKeys h _
  · exact h

/-- clearing the slots makes them the same -/
theorem equalAt_clear {sch : Schema} {st st' : Dict} (h : EqualAt (Known sch) st st') :
    EqualAt (KnownOrSlot sch) (clearVerifiedClaims st) (clearVerifiedClaims st') := by
  obtain ⟨a1, a2, a3⟩ := clear_slots st
  obtain ⟨b1, b2, b3⟩ := clear_slots st'
  intro k hk
  by_cases hs : IsSlot k
  · rcases hs with rfl | rfl | rfl
    · rw [a1, b1]
    · rw [a2, b2]
    · rw [a3, b3]
  · have hn : ∀ k', IsSlot k' → k ≠ k' := fun k' hk' e => hs (e ▸ hk')
    rw [clear_dget _ _ (hn _ (.inl rfl)) (hn _ (.inr (.inl rfl))) (hn _ (.inr (.inr rfl))),
      clear_dget _ _ (hn _ (.inl rfl)) (hn _ (.inr (.inl rfl))) (hn _ (.inr (.inr rfl)))]
    exact h k (hk.resolve_right hs)

theorem verifyBase_equalAt {sch : Schema} {st st' : Dict} (h : EqualAt (Known sch) st st') : verifyBase sch st' = verifyBase sch st :=
  verifyBase_congr (fun a ha _ => h a ha)

/-- **C131**, responses: `error_description` is one of their parameters -/
theorem C131_response {sch : Schema} {st st' : Dict} (h : EqualAt (Known sch) st st') (he : Known sch "error_description") :
    responseVerify sch st' = responseVerify sch st := by
  unfold responseVerify errorDescription
  rw [verifyBase_equalAt h, h _ he]

/-- the classes whose verification is that of responses -/
example : ∀ sch ∈ [oauth2_ResponseMessage, oauth2_AuthorizationErrorResponse, oauth2_TokenErrorResponse, oauth2_AccessTokenResponse,
    oidc_AuthorizationErrorResponse, oidc_TokenErrorResponse, oidc_ClientRegistrationErrorResponse, oidc_UserInfoErrorResponse],
    Known sch "error_description" := by decide

theorem matchArg_same {st st' : Dict} (kw : Dict) {k : String} (e : Exc) (h : dget st' k = dget st k) :
    matchArg st' kw k e = matchArg st kw k e := by
  unfold matchArg; rw [h]

theorem oauth2AuthzResponse_same {sch : Schema} {st st' kw : Dict} (h : EqualAt (Known sch) st st')
    (h1 : Known sch "error_description") (h2 : Known sch "client_id") (h3 : Known sch "iss") :
    oauth2AuthzResponseVerify sch st' kw = oauth2AuthzResponseVerify sch st kw := by
  unfold oauth2AuthzResponseVerify
  rw [C131_response h h1, matchArg_same kw _ (h _ h2), matchArg_same kw _ (h _ h3)]

/-- **C131**, authorization responses of OAuth 2 -/
theorem C131_oauth2_authz_response {st st' kw : Dict} (h : EqualAt (Known oauth2_AuthorizationResponse) st st') :
    oauth2AuthzResponseVerify oauth2_AuthorizationResponse st' kw = oauth2AuthzResponseVerify oauth2_AuthorizationResponse st kw :=
  oauth2AuthzResponse_same h (by decide) (by decide) (by decide)

/-- **C131**, ID tokens: nothing outside the declared claims matters, not even null -/
theorem C131_id_token {now : Int} {st st' kw : Dict} (h : EqualAt (Known oidc_IdToken) st st') :
    idTokenVerify now st' kw = idTokenVerify now st kw := by
  have hb : birthdateCheck st' = birthdateCheck st := by unfold birthdateCheck; rw [h "birthdate" (by decide)]
  have ho : (openIdSchemaVerify oidc_IdToken st').map (fun _ => ()) = (openIdSchemaVerify oidc_IdToken st).map (fun _ => ()) := by
    unfold openIdSchemaVerify
    rw [C131_response h (by decide), hb]
    cases responseVerify oidc_IdToken st with
    | error e => rfl
    | ok u => cases birthdateCheck st <;> rfl
  have hd : ∀ {β : Type} (f : Res β), ∀ s, (openIdSchemaVerify oidc_IdToken s >>= fun _ => f) =
      ((openIdSchemaVerify oidc_IdToken s).map (fun _ => ()) >>= fun _ => f) := by
    intro β f s
    cases openIdSchemaVerify oidc_IdToken s <;> rfl
  unfold idTokenVerify
  rw [hd, hd, ho]
  have h1 : audCheck st' kw = audCheck st kw := by
    unfold audCheck severalAud
    rw [h "aud" (by decide), h "azp" (by decide)]
  have h2 : azpCheck st' kw = azpCheck st kw := by unfold azpCheck; rw [h "azp" (by decide)]
  have h3 : ∀ skew, expCheck now skew st' = expCheck now skew st := by
    intro skew; unfold expCheck getReq; rw [h "exp" (by decide)]
  have h4 : ∀ skew, iatCheck now skew st' kw = iatCheck now skew st kw := by
    intro skew; unfold iatCheck getReq; rw [h "iat" (by decide)]
  simp only [h1, h2, h3, h4, matchArg_same kw _ (h "iss" (by decide)), matchArg_same kw _ (h "nonce" (by decide))]

/-- **C131**, user info: the same exception or the same checks passed; the answer is `False` also for a null among the unknown
claims -/
theorem C131_user_info_partial {sch : Schema} {st st' : Dict} (h : EqualAt (Known sch) st st') (h1 : Known sch "error_description")
    (h2 : Known sch "birthdate") (hn : ∀ p ∈ st, p.2.isNone = false) (hn' : ∀ p ∈ st', p.2.isNone = false) :
    openIdSchemaVerify sch st' = openIdSchemaVerify sch st := by
  have hb : birthdateCheck st' = birthdateCheck st := by unfold birthdateCheck; rw [h _ h2]
  have hany : ∀ s : Dict, (∀ p ∈ s, p.2.isNone = false) → s.any (fun p => p.2.isNone) = false := by
    intro s hs
    rw [List.any_eq_false]
    intro p hp
    rw [hs p hp]
    decide
  unfold openIdSchemaVerify
  rw [C131_response h h1, hb, hany st hn, hany st' hn']

/-- a null under an unknown name changes the answer -/
theorem C131_counterexample_user_info :
    openIdSchemaVerify oidc_OpenIDSchema [("sub", .str "diana"), ("x", .none)] = .ok false ∧
    openIdSchemaVerify oidc_OpenIDSchema [("sub", .str "diana")] = .ok true := by decide +kernel

theorem hashStep_same {C : Crypto} {st st' : Dict} (b : Bool) (m : JwtMsg C)
    (h : b = true → dget st' "access_token" = dget st "access_token" ∧ dget st' "code" = dget st "code") :
    hashStep C b st' m = hashStep C b st m := by
  unfold hashStep
  cases b with
  | false => rfl
  | true =>
    obtain ⟨h1, h2⟩ := h rfl
    simp only [if_true]
    unfold hashChecks hashCheck
    rw [h1, h2]

theorem verifyIfPresent_alike {C : Crypto} {now : Int} {N : String → Prop} {st st' : Dict} {claim : String} {b : Bool} {jar : JarArg C}
    {kw : Dict} (h : EqualAt N st st') (hc : N claim) (hb : b = true → N "access_token" ∧ N "code") :
    Alike (EqualAt N) (verifyIfPresent C now st claim b jar kw) (verifyIfPresent C now st' claim b jar kw) := by
  unfold verifyIfPresent
  rw [dhas_same (h claim hc)]
  split
  · unfold verifyIdToken
    refine alike_seq (by unfold getR; rw [h claim hc]) fun v => ?_
    refine alike_seq ?_ fun m => ?_
    · unfold verifyIdTokenCore
      simp only [hashStep_same _ _ (fun hh => ⟨h _ (hb (Bool.and_eq_true_iff.1 hh).2).1, h _ (hb (Bool.and_eq_true_iff.1 hh).2).2⟩)]
    refine alike_seq rfl fun _ => ?_
    exact equalAt_dset h _ _
  · exact h

/-- **C131**, token responses of OpenID Connect -/
theorem C131_token_response {C : Crypto} {now : Int} {st st' : Dict} {jar : JarArg C} {kw : Dict}
    (h : EqualAt (Known oidc_AccessTokenResponse) st st') :
    Alike (EqualAt (KnownOrSlot oidc_AccessTokenResponse)) (accessTokenResponseVerify C now st jar kw)
      (accessTokenResponseVerify C now st' jar kw) := by
  unfold accessTokenResponseVerify
  refine alike_seq (C131_response h (by decide)) fun _ => ?_
  exact verifyIfPresent_alike (equalAt_clear h) (.inl (by decide)) (by simp)

/-- **C131**, authorization responses of OpenID Connect: with `aud`, which is not one of their parameters, as an exception -/
theorem C131_authz_response_partial {C : Crypto} {now : Int} {st st' : Dict} {jar : JarArg C} {kw : Dict}
    (h : EqualAt (Known oidc_AuthorizationResponse) st st') (ha : dget st' "aud" = dget st "aud") :
    Alike (fun a b => b.1 = a.1 ∧ EqualAt (KnownOrSlot oidc_AuthorizationResponse) a.2 b.2)
      (authzResponseVerify C now st jar kw) (authzResponseVerify C now st' jar kw) := by
  unfold authzResponseVerify
  have hc := equalAt_clear h
  have hf : forMe (clearVerifiedClaims st') kw = forMe (clearVerifiedClaims st) kw := by
    unfold forMe
    rw [clear_dget _ _ (by decide) (by decide) (by decide), clear_dget _ _ (by decide) (by decide) (by decide), ha]
  refine alike_seq (oauth2AuthzResponse_same h (by decide) (by decide) (by decide)) fun _ => ?_
  refine alike_seq hf fun mine => ?_
  unfold authzResponseRest
  cases mine with
  | false => exact ⟨rfl, hc⟩
  | true =>
    simp only [if_true]
    refine alike_map (verifyIfPresent_alike (b := true) hc (.inl (by decide)) fun _ => ⟨.inl (by decide), .inl (by decide)⟩) ?_
    exact fun a b hab => ⟨rfl, hab⟩

/-- The unknown parameter `aud` makes an authorization response count as one for somebody else. -/
theorem C131_counterexample_authz_response (C : Crypto) (now : Int) (jar : JarArg C) (st : Dict) (c : String)
    (hv : oauth2AuthzResponseVerify oidc_AuthorizationResponse st [("client_id", .str c)] = .ok ())
    (ha : dget st "aud" = none) :
    ∃ st', EqualAt (Known oidc_AuthorizationResponse) st st' ∧
      authzResponseVerify C now st' jar [("client_id", .str c)] = .ok (false, clearVerifiedClaims st') := by
  refine ⟨dset st "aud" (.list []), ?_, ?_⟩
  · intro k hk
    exact dget_dset_ne _ _ (by rintro rfl; revert hk; decide)
  · have hs : EqualAt (Known oidc_AuthorizationResponse) st (dset st "aud" (.list [])) := by
      intro k hk
      exact dget_dset_ne _ _ (by rintro rfl; revert hk; decide)
    unfold authzResponseVerify
    rw [oauth2AuthzResponse_same hs (by decide) (by decide) (by decide), hv]
    have hf : forMe (clearVerifiedClaims (dset st "aud" (.list []))) [("client_id", .str c)] = .ok false := by
      unfold forMe
      rw [clear_dget _ _ (by decide) (by decide) (by decide), dget_dset_same]
      rfl
    simp only [hf, bind, Except.bind, authzResponseRest]
    rfl

/-- **C131**, messages with an ID token -/
theorem C131_message_with_id_token {C : Crypto} {now : Int} {sch : Schema} {st st' : Dict} {jar : JarArg C} {kw : Dict}
    (h : EqualAt (Known sch) st st') (hi : Known sch "id_token")
    (he : sch.cls = session_RefreshSessionResponse.cls → Known sch "error_description") :
    Alike (EqualAt (Known sch)) (messageWithIdTokenVerify C now sch st jar kw) (messageWithIdTokenVerify C now sch st' jar kw) := by
  unfold messageWithIdTokenVerify
  refine alike_seq ?_ fun _ => ?_
  · unfold besideIdTokenVerify
    split
    · next hc => exact C131_response h (he hc)
    · exact verifyBase_equalAt h
  exact verifyIfPresent_alike h hi (by simp)

example : ∀ sch ∈ [oidc_MessageWithIdToken, session_RefreshSessionRequest, session_CheckSessionRequest, session_RefreshSessionResponse],
    Known sch "id_token" ∧ (sch.cls = session_RefreshSessionResponse.cls → Known sch "error_description") := by decide

/-! ## requests -/

theorem requestStep_alike {C : Crypto} {st st' : Dict} {jar : JarArg C} {args : Dict}
    (h : EqualAt (KnownOrSlot oidc_AuthorizationRequest) st st')
    (ho : ∀ t m, dget st "request" = some (.str t) → fromJwt C oidc_OpenIDRequest t jar args = .ok m → EqualAt (fun k => dhas m.st k) st st') :
    Alike (fun a b => EqualAt (KnownOrSlot oidc_AuthorizationRequest) a.1 b.1 ∧ b.2 = a.2) (requestStep C st jar args) (requestStep C st' jar args) := by
  unfold requestStep
  rw [h "request" (.inl (by decide))]
  split
  · next t ht =>
    cases hm : fromJwt C oidc_OpenIDRequest t jar args with
    | error e => exact rfl
    | ok m =>
      have hs := ho t m ht hm
      have hl : ∀ l : Dict, (∀ p ∈ l, p ∈ m.st) → logDifferences st' l = logDifferences st l := by
        intro l
        induction l with
        | nil => intro _; rfl
        | cons p r ih =>
          intro hp
          obtain ⟨k, v⟩ := p
          have hk : dget st' k = dget st k :=
            hs k ((dhas_iff _ _).2 (List.mem_map_of_mem (f := (·.1)) (hp (k, v) (by simp))))
          rw [logDifferences.eq_def, logDifferences.eq_def st]
          simp only [hk, ih (fun p hpr => hp p (by simp [hpr]))]
      simp only [hl m.st (fun p hp => hp)]
      cases logDifferences st m.st with
      | error e => exact rfl
      | ok u => exact ⟨equalAt_dset (equalAt_dupdate (equalAt_dropKeys h _) _) _ _, rfl⟩
  · exact ⟨h, rfl⟩

theorem hintStep_alike {C : Crypto} {st st' : Dict} {jar : JarArg C} {args : Dict}
    (h : EqualAt (KnownOrSlot oidc_AuthorizationRequest) st st') :
    Alike (EqualAt (KnownOrSlot oidc_AuthorizationRequest)) (hintStep C st jar args) (hintStep C st' jar args) := by
  unfold hintStep
  rw [h "id_token_hint" (.inl (by decide))]
  split
  · cases fromJwt C oidc_IdToken _ jar args with
    | error e => exact rfl
    | ok m => exact equalAt_dset h _ _
  · exact h

theorem authzRequestConds_same {st st' kw : Dict} (h : EqualAt (Known oidc_AuthorizationRequest) st st') :
    authzRequestConds st' kw = authzRequestConds st kw := by
  have h1 : scopeStep st' = scopeStep st := by
    unfold scopeStep consentStep promptHas scopeOf
    rw [h "scope" (by decide), h "prompt" (by decide)]
  have h2 : promptStep st' = promptStep st := by unfold promptStep; rw [h "prompt" (by decide)]
  have h3 : ∀ rt, nonceStep st' kw rt = nonceStep st kw rt := by
    intro rt; unfold nonceStep; rw [h "nonce" (by decide), matchArg_same kw _ (h "nonce" (by decide))]
  unfold authzRequestConds getReq
  rw [h "response_type" (by decide)]
  simp only [h1, h2, h3]

theorem authzArgs_agree {st st' kw : Dict} (h : dget st' "client_id" = dget st "client_id") : authzArgs st' kw = authzArgs st kw := by
  unfold authzArgs getR; rw [h]

/-- **C131**, OpenID Connect authorization requests.  Parameters that the request object holds as well are not unknown: their
difference is logged. -/
theorem C131_authz_request {C : Crypto} {st st' : Dict} {jar : JarArg C} {kw : Dict}
    (h : EqualAt (Known oidc_AuthorizationRequest) st st')
    (ho : ∀ t args m, dget st "request" = some (.str t) → fromJwt C oidc_OpenIDRequest t jar args = .ok m →
      EqualAt (fun k => dhas m.st k) st st') :
    Alike (EqualAt (KnownOrSlot oidc_AuthorizationRequest)) (authzRequestVerify C st jar kw) (authzRequestVerify C st' jar kw) := by
  have hc := equalAt_clear h
  unfold authzRequestVerify
  refine alike_seq (verifyBase_equalAt h) fun _ => ?_
  refine alike_seq (authzArgs_agree (hc _ (.inl (by decide)))) fun args => ?_
  refine alike_bind (requestStep_alike (args := args) hc ?_) fun a b hab => ?_
  · intro t m ht hm k hk
    by_cases hs : IsSlot k
    · exact hc k (.inr hs)
    · have hn : ∀ k', IsSlot k' → k ≠ k' := fun k' hk' e => hs (e ▸ hk')
      rw [clear_dget _ _ (hn _ (.inl rfl)) (hn _ (.inr (.inl rfl))) (hn _ (.inr (.inr rfl))),
        clear_dget _ _ (hn _ (.inl rfl)) (hn _ (.inr (.inl rfl))) (hn _ (.inr (.inr rfl)))]
      rw [clear_dget _ _ (by decide) (by decide) (by decide)] at ht
      exact ho t args m ht hm k hk
  obtain ⟨a1, a2⟩ := a
  obtain ⟨b1, b2⟩ := b
  obtain ⟨hab, rfl⟩ := hab
  refine alike_bind (hintStep_alike hab) fun s s' hs => ?_
  refine alike_seq (authzRequestConds_same fun k hk => hs k (.inl hk)) fun _ => ?_
  exact hs

theorem requestObject_alike {C : Crypto} {N : String → Prop} {st st' : Dict} {req : Val} {jar : JarArg C} {kw : Dict} {t : String}
    (h : EqualAt N st st') : Alike (EqualAt N) (requestObject C st req jar kw t) (requestObject C st' req jar kw t) := by
  unfold requestObject
  cases fromJwt C oauth2_AuthorizationRequest (strOf C req) jar (requestArgs kw) with
  | error e => exact rfl
  | ok m => exact equalAt_dset (equalAt_merge (equalAt_ddel h _) _ _ _) _ _

/-- **C131**, JWT-secured requests -/
theorem C131_jwt_secured {C : Crypto} {st st' : Dict} {jar : JarArg C} {kw : Dict}
    (h : EqualAt (Known oauth2_JWTSecuredAuthorizationRequest) st st') :
    Alike (EqualAt (Known oauth2_JWTSecuredAuthorizationRequest)) (jwtSecuredVerify C st jar kw) (jwtSecuredVerify C st' jar kw) := by
  unfold jwtSecuredVerify
  rw [h "request" (by decide), dhas_same (h "request_uri" (by decide))]
  split
  · exact requestObject_alike h
  · split
    · exact h
    · exact rfl

/-- **C131**, pushed requests -/
theorem C131_pushed {C : Crypto} {st st' : Dict} {jar : JarArg C} {kw : Dict}
    (h : EqualAt (Known oauth2_PushedAuthorizationRequest) st st') :
    Alike (EqualAt (Known oauth2_PushedAuthorizationRequest)) (pushedVerify C st jar kw) (pushedVerify C st' jar kw) := by
  unfold pushedVerify
  rw [h "request" (by decide)]
  split
  · exact requestObject_alike h
  · exact h

/-! ## registration and discovery -/

theorem pairStep_alike {st st' : Dict} {a e : String} (h : EqualAt (Known oidc_RegistrationRequest) st st')
    (ha : Known oidc_RegistrationRequest a) (he : Known oidc_RegistrationRequest e)
    (hd : dget oidc_RegistrationRequest.params e = some singleOptionalString) :
    Alike (EqualAt (Known oidc_RegistrationRequest)) (pairStep st a e) (pairStep st' a e) := by
  unfold pairStep
  rw [dhas_same (h a ha), dhas_same (h e he), setItem_enc hd, setItem_enc hd]
  repeat' split
  · exact h
  · exact equalAt_dset h _ _
  · exact rfl
  · exact h

/-- **C131**, registration requests -/
theorem C131_registration_request {st st' : Dict} (h : EqualAt (Known oidc_RegistrationRequest) st st') :
    Alike (EqualAt (Known oidc_RegistrationRequest)) (registrationRequestVerify st) (registrationRequestVerify st') := by
  unfold registrationRequestVerify
  refine alike_seq (verifyBase_equalAt h) fun _ => ?_
  refine alike_seq (by unfold initiateLogin; rw [h "initiate_login_uri" (by decide)]) fun _ => ?_
  refine alike_bind (pairStep_alike h (by decide) (by decide) rfl) fun s1 s1' h1 => ?_
  refine alike_bind (pairStep_alike h1 (by decide) (by decide) rfl) fun s2 s2' h2 => ?_
  refine alike_bind (pairStep_alike h2 (by decide) (by decide) rfl) fun s3 s3' h3 => ?_
  refine alike_seq (by unfold authSigningAlg; rw [h3 "token_endpoint_auth_signing_alg" (by decide)]) fun _ => ?_
  exact h3

/-- **C131**, registration responses -/
theorem C131_registration_response {st st' : Dict} (h : EqualAt (Known oidc_RegistrationResponse) st st') :
    registrationResponseVerify st' = registrationResponseVerify st := by
  unfold registrationResponseVerify
  rw [C131_response h (by decide), dhas_same (h "registration_client_uri" (by decide)),
    dhas_same (h "registration_access_token" (by decide))]

/-- **C131**, provider configurations -/
theorem C131_provider_config {netlocOk : List Char → Bool} {st st' kw : Dict}
    (h : EqualAt (Known oidc_ProviderConfigurationResponse) st st') :
    providerConfigVerify netlocOk st' kw = providerConfigVerify netlocOk st kw := by
  have h1 : scopesSupported st' = scopesSupported st := by unfold scopesSupported; rw [h "scopes_supported" (by decide)]
  have h2 : issuerParts netlocOk st' = issuerParts netlocOk st := by unfold issuerParts; rw [h "issuer" (by decide)]
  have h3 : tokenEndpoint st' = tokenEndpoint st := by
    unfold tokenEndpoint getR
    rw [h "response_types_supported" (by decide), dhas_same (h "token_endpoint" (by decide))]
  unfold providerConfigVerify
  rw [C131_response h (by decide), h1, h2, h3]
  unfold getR
  rw [h "id_token_signing_alg_values_supported" (by decide)]

/-! ## tokens and logout -/

theorem timeCheck_same {st st' : Dict} (kw : Dict) {k : String} (ok : Rat → Rat → Bool) (e : Exc) (h : dget st' k = dget st k) :
    timeCheck st' kw k ok e = timeCheck st kw k ok e := by
  unfold timeCheck; rw [h]

theorem audArg_same {st st' : Dict} (kw : Dict) (h : dget st' "aud" = dget st "aud") : audArg st' kw = audArg st kw := by
  unfold audArg; rw [h]

/-- **C131**, JSON Web Tokens -/
theorem C131_json_web_token {now : Int} {sch : Schema} {st st' kw : Dict} (h : EqualAt (Known sch) st st')
    (hk : ∀ k ∈ ["exp", "iat", "nbf", "aud", "iss"], Known sch k) :
    jsonWebTokenVerify now sch st' kw = jsonWebTokenVerify now sch st kw := by
  unfold jsonWebTokenVerify
  rw [verifyBase_equalAt h, timeCheck_same kw _ _ (h "exp" (hk _ (by simp))), timeCheck_same kw _ _ (h "iat" (hk _ (by simp))),
    timeCheck_same kw _ _ (h "nbf" (hk _ (by simp))), audArg_same kw (h "aud" (hk _ (by simp))),
    matchArg_same kw _ (h "iss" (hk _ (by simp)))]

example : ∀ k ∈ ["exp", "iat", "nbf", "aud", "iss"], Known oidc_JsonWebToken k := by decide

/-- **C131**, logout tokens, which know `nonce` as what they must not hold -/
theorem C131_logout_token {now : Int} {st st' kw : Dict} {hdr : Option Dict} (h : EqualAt (Known session_LogoutToken) st st')
    (hn : dget st' "nonce" = dget st "nonce") :
    logoutTokenVerify now st' hdr kw = logoutTokenVerify now st hdr kw := by
  have he : eventsCheck st' = eventsCheck st := by unfold eventsCheck; rw [h "events" (by decide)]
  unfold logoutTokenVerify
  rw [verifyBase_equalAt h, dhas_same hn, he, dhas_same (h "sub" (by decide)), dhas_same (h "sid" (by decide)),
    audArg_same kw (h "aud" (by decide)), matchArg_same kw _ (h "iss" (by decide)), timeCheck_same kw _ _ (h "iat" (by decide))]

/-- **C131**, back-channel logout requests -/
theorem C131_back_channel {C : Crypto} {now : Int} {st st' : Dict} {jar : JarArg C} {kw : Dict}
    (h : EqualAt (Known session_BackChannelLogoutRequest) st st') :
    Alike (EqualAt (fun k => Known session_BackChannelLogoutRequest k ∨ k = "__verified_logout_token"))
      (backChannelVerify C now st jar kw) (backChannelVerify C now st' jar kw) := by
  unfold backChannelVerify
  refine alike_seq (verifyBase_equalAt h) fun _ => ?_
  refine alike_seq (by unfold getR; rw [h "logout_token" (by decide)]) fun t => ?_
  refine alike_seq rfl fun m => ?_
  refine alike_seq rfl fun _ => ?_
  refine alike_seq rfl fun _ => ?_
  intro k hk
  rcases hk with hk | rfl
  · exact equalAt_dset h _ _ k hk
  · rw [dget_dset_same, dget_dset_same]

/-- **C131**, end-session requests -/
theorem C131_end_session {C : Crypto} {now : Int} {st st' : Dict} {jar : JarArg C} {kw : Dict}
    (h : EqualAt (Known session_EndSessionRequest) st st') :
    Alike (fun a b => b.1 = a.1 ∧ EqualAt (KnownOrSlot session_EndSessionRequest) a.2 b.2)
      (endSessionVerify C now st jar kw) (endSessionVerify C now st' jar kw) := by
  have hc := equalAt_clear h
  have hh := hc "id_token_hint" (.inl (by decide))
  unfold endSessionVerify
  refine alike_seq (verifyBase_equalAt h) fun _ => ?_
  unfold endSessionRest
  rw [dhas_same hh, dhas_same (hc "post_logout_redirect_uri" (.inl (by decide)))]
  split
  · next hp =>
    refine alike_map (R := EqualAt (KnownOrSlot session_EndSessionRequest)) ?_ (fun a b hab => ⟨rfl, hab⟩)
    unfold hintVerify
    refine alike_seq (by unfold getR; rw [hh]) fun t => ?_
    refine alike_seq rfl fun m => ?_
    have := verifyIfPresent_alike (C := C) (now := now) (b := false) (jar := some m.jar) (kw := kw) hc (claim := "id_token_hint")
      (.inl (by decide)) (by simp)
    unfold verifyIfPresent at this
    rw [dhas_same hh, if_pos hp, if_pos hp] at this
    exact alike_bind this fun a b hab => equalAt_dset hab _ _
  · split
    · exact ⟨rfl, hc⟩
    · exact ⟨rfl, hc⟩

/-- **C131**, token requests of the device flow: `device_code` is looked at although it is not one of their parameters -/
theorem C131_device_token_request_partial {st st' : Dict} (h : EqualAt (Known device_AccessTokenRequest) st st')
    (hd : dget st' "device_code" = dget st "device_code") :
    deviceTokenRequestVerify st' = deviceTokenRequestVerify st := by
  unfold deviceTokenRequestVerify
  rw [verifyBase_equalAt h, dhas_same hd, dhas_same (h "grant_type" (by decide)), dhas_same (h "client_id" (by decide))]

/-! ## claims requests of identity assurance -/

theorem claimsReqParams_same {rec : Assoc Spec → Val → Res Unit} {c : Cls} {st st' : Dict} :
    ∀ ps : List (String × Spec), (∀ k ∈ dkeys ps, dget st' k = dget st k) →
      claimsReqParams rec (.msg c st') ps = claimsReqParams rec (.msg c st) ps := by
  intro ps
  induction ps with
  | nil => intro _; rfl
  | cons p r ih =>
    obtain ⟨k, sp⟩ := p
    intro h
    have hs : subscript (.msg c st') k = subscript (.msg c st) k := by
      unfold subscript
      simp only [h k (by simp [dkeys])]
    rw [claimsReqParams.eq_def, claimsReqParams.eq_def rec (.msg c st)]
    simp only [hs, ih (fun k hk => h k (by simp [dkeys] at hk ⊢; exact .inr hk))]

theorem verifyClaimsRequest_same {n : Nat} {ps : Assoc Spec} {c : Cls} {st st' : Dict} (h : ∀ k ∈ dkeys ps, dget st' k = dget st k) :
    verifyClaimsRequest n ps (.msg c st') = verifyClaimsRequest n ps (.msg c st) := by
  cases n with
  | zero => rfl
  | succ n =>
    rw [verifyClaimsRequest, verifyClaimsRequest]
    exact claimsReqParams_same ps h

/-- **C131**, requests for verified claims -/
theorem C131_verified_claims_request {n : Nat} {st st' : Dict} (h : EqualAt (Known ida_VerifiedClaimsRequest) st st') :
    verifiedClaimsRequestVerify n st' = verifiedClaimsRequestVerify n st := by
  unfold verifiedClaimsRequestVerify
  rw [verifyBase_equalAt h, verifyClaimsRequest_same fun k hk => h k ?_]
  revert k
  decide

/-- **C131**, requests for verification elements -/
theorem C131_verification_request {n : Nat} {st st' : Dict} (h : EqualAt (Known ida_VerificationElementRequest) st st') :
    verificationElementRequestVerify n st' = verificationElementRequestVerify n st := by
  unfold verificationElementRequestVerify
  rw [verifyBase_equalAt h, verifyClaimsRequest_same fun k hk => h k ?_]
  revert k
  decide

/-! ## examples -/

/-- an authorization response with a parameter of some extension, and without -/
example : EqualAt (Known oauth2_AuthorizationResponse)
    [("code", .str "c"), ("state", .str "s")] [("session_hint", .list [.none]), ("code", .str "c"), ("state", .str "s")] ∧
    oauth2AuthzResponseVerify oauth2_AuthorizationResponse [("code", .str "c"), ("state", .str "s")] [] = .ok () := by
  refine ⟨?_, by decide +kernel⟩
  intro k hk
  rw [dget_cons]
  split
  · next e =>
    subst e
    revert hk
    decide
  · rfl

/-- an unknown claim that is null makes no difference to an ID token -/
example : EqualAt (Known oidc_IdToken) [("sub", .str "diana")] [("sub", .str "diana"), ("x", .none)] := by
  intro k hk
  by_cases e : k = "x"
  · subst e; revert hk; decide
  · simp only [dget_cons]
    split
    · rfl
    · rw [if_neg (Ne.symm e)]

/-- Requests with and without a parameter that the request object has as well are not alike: the object decides. -/
example : ¬ EqualAt (fun k => dhas ([("ui", .str "x")] : Dict) k) [] [("ui", .str "y")] := by
  intro h
  have := h "ui" rfl
  revert this
  decide

end Verif
