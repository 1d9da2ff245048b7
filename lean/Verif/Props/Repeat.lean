import Verif.Props.VerifyState
import Verif.Props.ListParams
import Verif.Props.Registration
import Verif.Props.Logout
import Verif.Props.RequestObject

/-! # C121: verifying a verified message again

A verification that succeeded leaves a message which is verified again with the same outcome and stays as it is. -/

namespace Verif

theorem dset_dset_same (d : Dict) (k : String) (v : Val) : dset (dset d k v) k v = dset d k v := by
  induction d with
  | nil => simp [dset]
  | cons p r ih =>
    obtain ⟨k', w⟩ := p
    by_cases h : k' = k
    · simp [dset, h]
    · simp only [dset, h, if_false, ih]

theorem ddel_append (a b : Dict) (k : String) : ddel (a ++ b) k = ddel a k ++ ddel b k := by
  simp [ddel]

theorem ddel_absent {d : Dict} {k : String} (h : dget d k = none) : ddel d k = d := by
  rw [dget_eq_none_iff] at h
  unfold ddel
  rw [List.filter_eq_self]
  intro p hp
  simp only [Bool.not_eq_eq_eq_not, Bool.not_true, decide_eq_false_iff_not]
  intro e
  exact h (by rw [← e]; exact List.mem_map_of_mem hp)

/-- the three slots -/
def IsSlot (k : String) : Prop := k = "__verified_id_token" ∨ k = "__verified_id_token_hint" ∨ k = "__verified_request"

theorem clear_eq (d : Dict) : clearVerifiedClaims d =
    ddel (ddel (ddel d "__verified_id_token") "__verified_id_token_hint") "__verified_request" := rfl

theorem clear_clear (st : Dict) : clearVerifiedClaims (clearVerifiedClaims st) = clearVerifiedClaims st := by
  obtain ⟨c1, c2, c3⟩ := clear_slots st
  rw [clear_eq (clearVerifiedClaims st), ddel_absent c1, ddel_absent c2, ddel_absent c3]

/-- clearing takes a slot that was filled after clearing away again, and nothing else -/
theorem clear_fill (st : Dict) (k : String) (v : Val) (hk : IsSlot k) :
    clearVerifiedClaims (dset (clearVerifiedClaims st) k v) = clearVerifiedClaims st := by
  obtain ⟨c1, c2, c3⟩ := clear_slots st
  have h0 : dget (clearVerifiedClaims st) k = none := by rcases hk with rfl | rfl | rfl <;> assumption
  rw [dset_fresh h0, clear_eq (clearVerifiedClaims st ++ _)]
  simp only [ddel_append]
  rw [← clear_eq (clearVerifiedClaims st), clear_clear]
  rcases hk with rfl | rfl | rfl <;> simp [ddel]

/-- the same message apart from the slots -/
def SameBut (st st' : Dict) : Prop :=
  clearVerifiedClaims st' = clearVerifiedClaims st ∧ ∀ k, ¬ IsSlot k → dget st' k = dget st k

theorem sameBut_clear (st : Dict) : SameBut st (clearVerifiedClaims st) :=
  ⟨clear_clear st, fun k hk => clear_dget _ _ (fun e => hk (.inl e)) (fun e => hk (.inr (.inl e))) (fun e => hk (.inr (.inr e)))⟩

theorem sameBut_fill (st : Dict) {k : String} (v : Val) (hk : IsSlot k) : SameBut st (dset (clearVerifiedClaims st) k v) := by
  refine ⟨clear_fill st k v hk, fun k' hk' => ?_⟩
  have hne : k ≠ k' := fun e => hk' (e ▸ hk)
  rw [dget_dset_ne _ _ hne]
  exact (sameBut_clear st).2 k' hk'

theorem verifyParam_congr {allowed : Assoc (List Val)} {st st' : Dict} {a : String} {sp : Spec}
    (h : a ≠ "*" → dget st' a = dget st a) : verifyParam allowed st' a sp = verifyParam allowed st a sp := by
  by_cases e : a = "*"
  · simp [verifyParam, e]
  · unfold verifyParam
    simp only [h e]

/-- the base verification looks at declared parameters only -/
theorem verifyBase_congr {sch : Schema} {st st' : Dict} (h : ∀ a ∈ dkeys sch.params, a ≠ "*" → dget st' a = dget st a) :
    verifyBase sch st' = verifyBase sch st := by
  unfold verifyBase
  revert h
  generalize sch.params = ps
  intro h
  induction ps with
  | nil => rfl
  | cons p r ih =>
    obtain ⟨a, sp⟩ := p
    unfold verifyParams
    rw [verifyParam_congr (h a (by simp [dkeys])), ih (fun b hb => h b (by simp [dkeys] at hb ⊢; exact .inr hb))]

/-- no slot is a declared parameter -/
def SlotFree (sch : Schema) : Prop := ∀ a ∈ dkeys sch.params, ¬ IsSlot a

theorem verifyBase_same {sch : Schema} (hs : SlotFree sch) {st st' : Dict} (h : SameBut st st') :
    verifyBase sch st' = verifyBase sch st := verifyBase_congr (fun a ha _ => h.2 a (hs a ha))

theorem responseVerify_same {sch : Schema} (hs : SlotFree sch) {st st' : Dict} (h : SameBut st st') :
    responseVerify sch st' = responseVerify sch st := by
  unfold responseVerify errorDescription
  rw [verifyBase_same hs h, h.2 "error_description" (by simp [IsSlot])]

/-- what a successful verification of a token leaves -/
theorem verifyIfPresent_result {C : Crypto} {now : Int} {st : Dict} {claim : String} {b : Bool} {jar : JarArg C}
    {kw st' : Dict} (h : verifyIfPresent C now st claim b jar kw = .ok st') :
    st' = st ∨ ∃ v, st' = dset st (verifiedClaimName claim) v := by
  unfold verifyIfPresent at h
  split at h
  · obtain ⟨_, _, _, _, _, m, _, _, _, _, _, _, _, _, _, rfl⟩ := verifyIdToken_ok h
    exact .inr ⟨_, rfl⟩
  · cases h; exact .inl rfl

theorem idTokenSlot : IsSlot (verifiedClaimName "id_token") := .inl rfl

/-- **C121**, token responses -/
theorem C121_token_response {C : Crypto} {now : Int} {st : Dict} {jar : JarArg C} {kw st' : Dict}
    (h : accessTokenResponseVerify C now st jar kw = .ok st') : accessTokenResponseVerify C now st' jar kw = .ok st' := by
  unfold accessTokenResponseVerify at h ⊢
  simp only [bind_ok] at h
  obtain ⟨_, h1, h2⟩ := h
  have hs : SameBut st st' := by
    rcases verifyIfPresent_result h2 with rfl | ⟨v, rfl⟩
    · exact sameBut_clear st
    · exact sameBut_fill st v idTokenSlot
  rw [responseVerify_same (by unfold SlotFree IsSlot; decide) hs, h1, hs.1]
  exact h2

/-- **C121**, authorization responses, whatever the result -/
theorem C121_authz_response {C : Crypto} {now : Int} {st : Dict} {jar : JarArg C} {kw st' : Dict} {b : Bool}
    (h : authzResponseVerify C now st jar kw = .ok (b, st')) : authzResponseVerify C now st' jar kw = .ok (b, st') := by
  unfold authzResponseVerify at h ⊢
  simp only [bind_ok] at h
  obtain ⟨_, h1, mine, h2, h3⟩ := h
  have hs : SameBut st st' := by
    unfold authzResponseRest at h3
    cases mine with
    | false => simp only [Bool.false_eq_true, if_false, ok_ok, Prod.mk.injEq] at h3; rw [← h3.2]; exact sameBut_clear st
    | true =>
      simp only [if_true, map_ok, Prod.mk.injEq] at h3
      obtain ⟨s, h3, _, rfl⟩ := h3
      rcases verifyIfPresent_result h3 with rfl | ⟨v, rfl⟩
      · exact sameBut_clear st
      · exact sameBut_fill st v idTokenSlot
  have e : oauth2AuthzResponseVerify oidc_AuthorizationResponse st' kw =
      oauth2AuthzResponseVerify oidc_AuthorizationResponse st kw := by
    unfold oauth2AuthzResponseVerify matchArg
    rw [responseVerify_same (by unfold SlotFree IsSlot; decide) hs, hs.2 "client_id" (by simp [IsSlot]),
      hs.2 "iss" (by simp [IsSlot])]
  rw [e, h1, hs.1]
  simp only [bind, Except.bind, h2]
  exact h3

theorem besideIdToken_congr {sch : Schema} {st st' : Dict} (h : ∀ a ∈ dkeys sch.params, dget st' a = dget st a)
    (he : dget st' "error_description" = dget st "error_description") : besideIdTokenVerify sch st' = besideIdTokenVerify sch st := by
  unfold besideIdTokenVerify responseVerify errorDescription
  rw [verifyBase_congr (fun a ha _ => h a ha), he]

/-- **C121**, messages with an ID token: here the slot is not cleared first, but filled with the same claims. -/
theorem C121_message {C : Crypto} {now : Int} {sch : Schema} (hf : SlotFree sch) {st : Dict} {jar : JarArg C}
    {kw st' : Dict} (h : messageWithIdTokenVerify C now sch st jar kw = .ok st') :
    messageWithIdTokenVerify C now sch st' jar kw = .ok st' := by
  unfold messageWithIdTokenVerify at h ⊢
  simp only [bind_ok] at h
  obtain ⟨_, h1, h2⟩ := h
  by_cases hp : dhas st "id_token" = true
  · unfold verifyIfPresent at h2
    rw [if_pos hp] at h2
    have h2' := h2
    unfold verifyIdToken at h2
    simp only [bind_ok, getR_ok] at h2
    obtain ⟨v, hv, m, hm, _, hfmt, h2⟩ := h2
    cases h2
    have hk : ∀ k, k ≠ verifiedClaimName "id_token" →
        dget (dset st (verifiedClaimName "id_token") (.msg oidc_IdToken.cls m.st)) k = dget st k :=
      fun k h => dget_dset_ne _ _ (Ne.symm h)
    rw [besideIdToken_congr (st := st) (fun a ha => hk a (fun e => hf a ha (e ▸ idTokenSlot))) (hk _ (by decide)), h1]
    have hv' := (hk "id_token" (by decide)).trans hv
    simp only [bind, Except.bind, verifyIfPresent]
    rw [if_pos (by simp [dhas, hv'])]
    have hcore : verifyIdTokenCore C now (dset st (verifiedClaimName "id_token") (.msg oidc_IdToken.cls m.st)) v false jar kw
        = verifyIdTokenCore C now st v false jar kw := by
      simp only [verifyIdTokenCore, hashStep, Bool.and_false, Bool.false_eq_true, if_false]
    simp only [verifyIdToken, getR, hv', bind, Except.bind, hcore, hm, hfmt, dset_dset_same]
  · unfold verifyIfPresent at h2
    rw [if_neg hp] at h2
    cases h2
    rw [h1]
    simp only [bind, Except.bind, verifyIfPresent, if_neg hp]

/-- **C121**, end-session requests, whatever the result -/
theorem C121_end_session {C : Crypto} {now : Int} {st : Dict} {jar : JarArg C} {kw st' : Dict} {b : Bool}
    (h : endSessionVerify C now st jar kw = .ok (b, st')) : endSessionVerify C now st' jar kw = .ok (b, st') := by
  have hs : SameBut st st' := by
    rcases endSession_ok h with ⟨_, h⟩ | ⟨_, rfl, _⟩
    · unfold hintVerify at h
      simp only [bind_ok, getR_ok] at h
      obtain ⟨v, _, m, _, s, hs, h⟩ := h
      cases h
      obtain ⟨_, _, _, _, _, m', _, _, _, _, _, _, _, _, _, rfl⟩ := verifyIdToken_ok hs
      have : verifiedClaimName "id_token_hint" = "__verified_id_token_hint" := by decide
      rw [this]
      have h0 : ∀ (d : Dict) k (x y : Val), dset (dset d k x) k y = dset d k y := by
        intro d k x y
        induction d with
        | nil => simp [dset]
        | cons p r ih =>
          obtain ⟨k', w⟩ := p
          by_cases hk : k' = k
          · simp [dset, hk]
          · simp only [dset, hk, if_false, ih]
      rw [h0]
      exact sameBut_fill st _ (.inr (.inl rfl))
    · exact sameBut_clear st
  unfold endSessionVerify at h ⊢
  simp only [bind_ok] at h
  obtain ⟨_, h1, h2⟩ := h
  rw [verifyBase_same (by unfold SlotFree IsSlot; decide) hs, h1, hs.1]
  exact h2

/-- **C121**, back-channel logout requests -/
theorem C121_back_channel {C : Crypto} {now : Int} {st : Dict} {jar : JarArg C} {kw st' : Dict}
    (h : backChannelVerify C now st jar kw = .ok st') : backChannelVerify C now st' jar kw = .ok st' := by
  unfold backChannelVerify at h ⊢
  simp only [bind_ok, getR_ok] at h
  obtain ⟨_, h1, t, ht, m, hm, _, hl, _, hf, h⟩ := h
  cases h
  have hk : ∀ k, k ≠ "__verified_logout_token" →
      dget (dset st "__verified_logout_token" (.msg session_LogoutToken.cls m.st)) k = dget st k :=
    fun k h => dget_dset_ne _ _ (Ne.symm h)
  rw [verifyBase_congr (st := st) (fun a ha _ => hk a (by rintro rfl; revert ha; decide)), h1]
  simp only [bind, Except.bind, getR, (hk "logout_token" (by decide)).trans ht, hm, hl, hf, dset_dset_same]

/-! ### registration -/

theorem pairStep_done {st : Dict} {a e : String} (h : dget st a = none ↔ dget st e = none) : pairStep st a e = .ok st := by
  unfold pairStep dhas
  cases ha : dget st a <;> cases he : dget st e <;> simp_all

/-- **C121**, registration requests: the encryption methods filled in are accepted and kept. -/
theorem C121_registration {st st' : Dict} (h : registrationRequestVerify st = .ok st') :
    registrationRequestVerify st' = .ok st' := by
  obtain ⟨c1, _, c3, _, _⟩ := C33_registration st st' h
  have hk : ∀ k, (∀ p ∈ encPairs, k ≠ p.2) → dget st' k = dget st k :=
    fun k hk => c3 k (fun p hp e => absurd e (hk p hp))
  have hp : ∀ p ∈ encPairs, pairStep st' p.1 p.2 = .ok st' := fun p hp => pairStep_done (c1 p hp)
  unfold registrationRequestVerify at h ⊢
  simp only [bind_ok] at h
  obtain ⟨⟨⟩, hv, ⟨⟩, hlogin, s1, h1, s2, h2, s3, h3, ⟨⟩, hsig, h⟩ := h
  cases h
  have hv' : verifyBase oidc_RegistrationRequest st' = .ok () := by
    rw [C04_verify_iff] at hv ⊢
    intro a sp ha hs
    by_cases he : ∀ p ∈ encPairs, a ≠ p.2
    · rw [hk a he]; exact hv a sp ha hs
    · have : sp = singleOptionalString ∧ dget oidc_RegistrationRequest.allowed a = none := by
        simp only [Classical.not_forall, Classical.not_not] at he
        obtain ⟨p, hp, rfl⟩ := he
        simp only [encPairs, List.mem_cons, List.not_mem_nil, or_false] at hp
        rcases hp with rfl | rfl | rfl <;> simp [oidc_RegistrationRequest] at ha <;> exact ⟨ha, rfl⟩
      rw [this.1, this.2]
      simp [singleOptionalString]
  have hl : initiateLogin st' = .ok () := by
    unfold initiateLogin at hlogin ⊢
    rw [hk "initiate_login_uri" (by simp [encPairs])]; exact hlogin
  rw [hv', hl]
  simp only [bind, Except.bind]
  rw [hp ("request_object_encryption_alg", "request_object_encryption_enc") (by simp [encPairs])]
  simp only
  rw [hp ("id_token_encrypted_response_alg", "id_token_encrypted_response_enc") (by simp [encPairs])]
  simp only
  rw [hp ("userinfo_encrypted_response_alg", "userinfo_encrypted_response_enc") (by simp [encPairs])]
  simp only [hsig]

/-! ### authorization requests -/

theorem dset_idem {d : Dict} {k : String} {v : Val} (h : dget d k = some v) : dset d k v = d := by
  induction d with
  | nil => simp [dget] at h
  | cons p r ih =>
    obtain ⟨k', w⟩ := p
    by_cases hk : k' = k
    · simp only [dget, hk, if_true, Option.some.injEq] at h
      simp [dset, hk, h]
    · simp only [dget, hk, if_false] at h
      simp only [dset, hk, if_false, ih h]

theorem dupdate_known {d e : Dict} (h : ∀ p ∈ e, dget d p.1 = some p.2) : dupdate d e = d := by
  induction e with
  | nil => rfl
  | cons p t ih =>
    have : dupdate d (p :: t) = dupdate (dset d p.1 p.2) t := rfl
    rw [this, dset_idem (h p (List.mem_cons_self ..))]
    exact ih (fun q hq => h q (List.mem_cons_of_mem _ hq))

theorem dupdate_twice {d e : Dict} (he : DNodup e) : dupdate (dupdate d e) e = dupdate d e :=
  dupdate_known (fun p hp => by rw [dget_dupdate _ he, mem_dget he hp]; rfl)

/-- **C121**, OIDC authorization requests without a request object (`_partial`: see `C121_object` for the others) -/
theorem C121_authz_request_partial {C : Crypto} {st : Dict} {jar : JarArg C} {kw st' : Dict}
    (hr : ∀ t, dget st "request" ≠ some (.str t)) (h : authzRequestVerify C st jar kw = .ok st') :
    authzRequestVerify C st' jar kw = .ok st' := by
  obtain ⟨args, s₁, j₁, hb, ha, hs, hh, hc⟩ := authzRequest_ok h
  have hr' : ∀ t, dget (clearVerifiedClaims st) "request" ≠ some (.str t) := by
    rw [clear_dget _ _ (by decide) (by decide) (by decide)]; exact hr
  rcases requestStep_ok hs with ⟨_, rfl, rfl⟩ | ⟨t, _, ht, _⟩
  swap
  · exact absurd ht (hr' t)
  obtain ⟨c1, c2, c3⟩ := clear_slots st
  have key : clearVerifiedClaims st' = st' ∧ (∀ k, k ≠ "verified_id_token_hint" → dget st' k = dget (clearVerifiedClaims st) k)
      ∧ hintStep C st' j₁ args = .ok st' := by
    rcases hintStep_ok hh with ⟨_, rfl⟩ | ⟨t, m, e1, e2, rfl⟩
    · exact ⟨clear_clear st, fun _ _ => rfl, hh⟩
    · have hk : ∀ k, k ≠ "verified_id_token_hint" → dget (dset (clearVerifiedClaims st) "verified_id_token_hint"
          (.msg oidc_IdToken.cls m.st)) k = dget (clearVerifiedClaims st) k := fun k h => dget_dset_ne _ _ (Ne.symm h)
      refine ⟨?_, hk, ?_⟩
      · rw [clear_eq (dset _ _ _), ddel_absent ((hk _ (by decide)).trans c1), ddel_absent ((hk _ (by decide)).trans c2),
          ddel_absent ((hk _ (by decide)).trans c3)]
      · unfold hintStep
        rw [hk _ (by decide), e1]
        simp only [e2, dset_dset_same]
  obtain ⟨k1, k2, k3⟩ := key
  have hb' : verifyBase oidc_AuthorizationRequest st' = .ok () :=
    (C04_verify_iff _ _).2 (C98_plain_partial C st j₁ kw st' hr h)
  have ha' : authzArgs st' kw = .ok args := by
    rw [← ha]; unfold authzArgs getR; rw [k2 _ (by decide)]
  have hs' : requestStep C st' j₁ args = .ok (st', j₁) := by
    unfold requestStep
    rw [k2 _ (by decide)]
    split
    · next t ht => exact absurd ht (hr' t)
    · rfl
  unfold authzRequestVerify
  simp only [hb', k1, ha', hs', k3, hc, bind, Except.bind]

/-- C121 is false for every OIDC authorization request with a request object: the merge takes `request` away unless the
object has it too, and then a second verification drops the claims of the object from the message (or fails). -/
theorem C121_object {C : Crypto} {st : Dict} {jar jar' : JarArg C} {kw kw' st' st'' : Dict} {t : String}
    (ht : dget st "request" = some (.str t)) (h : authzRequestVerify C st jar kw = .ok st')
    (ho : ∀ t', dget st' "request" ≠ some (.str t')) (h2 : authzRequestVerify C st' jar' kw' = .ok st'') :
    (∃ m, dget st' "__verified_request" = some (.msg oidc_OpenIDRequest.cls m)) ∧
    dget st'' "__verified_request" = none ∧ st'' ≠ st' := by
  obtain ⟨args, s₁, j₁, _, _, hs, hh, _⟩ := authzRequest_ok h
  have hhint : ∀ {s s' : Dict} {j : JarArg C} {a : Dict}, hintStep C s j a = .ok s' →
      dget s' "__verified_request" = dget s "__verified_request" := by
    intro s s' j a hh
    rcases hintStep_ok hh with ⟨_, rfl⟩ | ⟨_, _, _, _, rfl⟩
    · rfl
    · exact dget_dset_ne _ _ (by decide)
  have h1 : ∃ m, dget st' "__verified_request" = some (.msg oidc_OpenIDRequest.cls m) := by
    rcases requestStep_ok hs with ⟨hn, _, _⟩ | ⟨_, m, _, _, _, hv⟩
    · rw [clear_dget _ _ (by decide) (by decide) (by decide)] at hn
      exact absurd ht (hn t)
    · exact ⟨m.st, (hhint hh).trans hv⟩
  have h3 : dget st'' "__verified_request" = none := by
    obtain ⟨_, _, _, _, _, hs, hh, _⟩ := authzRequest_ok h2
    rcases requestStep_ok hs with ⟨_, rfl, _⟩ | ⟨t, _, ht, _⟩
    · exact (hhint hh).trans (clear_slots st').2.2
    · rw [clear_dget _ _ (by decide) (by decide) (by decide)] at ht
      exact absurd ht (ho t)
  refine ⟨h1, h3, fun e => ?_⟩
  obtain ⟨m, h1⟩ := h1
  rw [← e, h3] at h1
  cases h1

/-- C121 is false for every JWT-secured request whose object does not have `request` or `request_uri` again: what was
accepted is refused the second time. -/
theorem C121_jwt_secured {C : Crypto} {st : Dict} {jar jar' : JarArg C} {kw kw' st' : Dict} {req : Val}
    (hr : dget st "request" = some req) (h : jwtSecuredVerify C st jar kw = .ok st')
    (ho : ∀ m, fromJwt C oauth2_AuthorizationRequest (strOf C req) jar (requestArgs kw) = .ok m →
      dget m.st "request" = none ∧ dget m.st "request_uri" = none) :
    jwtSecuredVerify C st' jar' kw' = .error .missingAttribute := by
  obtain ⟨m, hm, _, hk⟩ := (C77_request_partial C st jar kw st' req hr).1 h
  obtain ⟨o1, o2⟩ := ho m hm
  have h1 := (hk "request" (by decide)).trans o1
  have h2 := (hk "request_uri" (by decide)).trans o2
  simp [jwtSecuredVerify, h1, dhas, h2]

/-- **C121**, pushed requests whose object names neither `request` nor the slot: the merge is done again with the same
result. -/
theorem C121_pushed_partial {C : Crypto} {st : Dict} {jar : JarArg C} {kw st' : Dict}
    (ho : ∀ req m, dget st "request" = some req →
      fromJwt C oauth2_AuthorizationRequest (strOf C req) jar (requestArgs kw) = .ok m →
      dget m.st "request" = none ∧ dget m.st "__verified_request" = none)
    (h : pushedVerify C st jar kw = .ok st') : pushedVerify C st' jar kw = .ok st' := by
  unfold pushedVerify at h ⊢
  cases hr : dget st "request" with
  | none =>
    rw [hr] at h
    cases h
    rw [hr]
  | some req =>
    rw [hr] at h
    simp only [requestObject] at h
    split at h
    · cases h
    · next m hm =>
      obtain ⟨o1, o2⟩ := ho req m hr hm
      have hn := fromJwt_nodup hm (by decide)
      have hl : ∀ s : Dict, merge s m.st "lax" none = dupdate s m.st := fun s => by simp [merge, mergeBase]
      rw [hl] at h
      cases h
      have hq : dget (dset (dupdate (ddel st "__verified_request") m.st) "__verified_request"
          (.msg oauth2_AuthorizationRequest.cls m.st)) "request" = some req := by
        rw [dget_dset_ne _ _ (by decide), dget_dupdate _ hn, o1, dget_ddel_ne _ (by decide), hr]; rfl
      have hx : dget (dupdate (ddel st "__verified_request") m.st) "__verified_request" = none := by
        rw [dget_dupdate _ hn, o2, dget_ddel]; simp
      rw [hq]
      simp only [requestObject, hm, hl]
      have hd : ddel (dset (dupdate (ddel st "__verified_request") m.st) "__verified_request"
          (.msg oauth2_AuthorizationRequest.cls m.st)) "__verified_request" = dupdate (ddel st "__verified_request") m.st := by
        rw [dset_fresh hx, ddel_append, ddel_absent hx]
        simp [ddel]
      rw [hd, dupdate_twice hn]

/-! ### cases -/

/-- a token response, an authorization response and an end-session request are verified twice -/
example : (accessTokenResponseVerify toy 1500 [("access_token", .str "at"), ("token_type", .str "Bearer"),
      ("id_token", .str "T")] (some (some ())) [("iss", .str "https://op"), ("client_id", .str "client"), ("nonce", .str "n")]).isOk = true ∧
    (endSessionVerify toy 1500 [("id_token_hint", .str "T")] (some (some ())) []).isOk = true := by decide +kernel

example : (registrationRequestVerify [("redirect_uris", .list [.str "https://rp/cb"]),
    ("id_token_encrypted_response_alg", .str "RSA-OAEP")]).map (fun st => dget st "id_token_encrypted_response_enc") =
    .ok (some (.str "A128CBC-HS256")) := by decide +kernel

example : (authzRequestVerify reqCrypto (toyRequest []) (some (some ())) []).isOk = true := by decide +kernel

/-- the request of `C121_object`: accepted twice, and the slot is gone the second time -/
example : ((authzRequestVerify reqCrypto (toyRequest [("request", .str "R")]) (some (some ())) []).bind
      (fun st => authzRequestVerify reqCrypto st (some (some ())) [])).map (fun st => dhas st "__verified_request") = .ok false ∧
    (authzRequestVerify reqCrypto (toyRequest [("request", .str "R")]) (some (some ())) []).map
      (fun st => (dhas st "__verified_request", dhas st "request")) = .ok (true, false) := by decide +kernel

/-- the request of `C121_jwt_secured`: accepted, then refused -/
example : (jwtSecuredVerify reqCrypto [("request", .str "R"), ("client_id", .str "x")] (some (some ())) []).isOk = true ∧
    ((jwtSecuredVerify reqCrypto [("request", .str "R"), ("client_id", .str "x")] (some (some ())) []).bind
      (fun st => jwtSecuredVerify reqCrypto st (some (some ())) [])).isOk = false := by decide +kernel

/-- the request of `C121_pushed_partial`: accepted twice -/
example : ((pushedVerify reqCrypto [("request", .str "R"), ("client_id", .str "x")] (some (some ())) []).bind
      (fun st => pushedVerify reqCrypto st (some (some ())) [])).isOk = true := by decide +kernel

end Verif
