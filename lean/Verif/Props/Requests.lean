import Verif.Props.IdTokens
import Verif.Props.Mapping

/-!
# Requests and responses with tokens inside: C26–C34, C72, C73, C77, C78
-/

namespace Verif

/-! ## The verified slots -/

/-- No message class of the library declares a `__verified_*` parameter, so `self['__verified_..'] = x` is a
plain store. -/
theorem verified_slots_undeclared : ∀ sch ∈ allSchemas,
    ∀ k ∈ ["__verified_id_token", "__verified_id_token_hint", "__verified_request", "__verified_logout_token",
           "verified_id_token_hint"], dget sch.params k = none := by
  decide +kernel

theorem clear_slots (st : Dict) :
    dget (clearVerifiedClaims st) "__verified_id_token" = none ∧
    dget (clearVerifiedClaims st) "__verified_id_token_hint" = none ∧
    dget (clearVerifiedClaims st) "__verified_request" = none := by
  unfold clearVerifiedClaims
  refine ⟨?_, ?_, ?_⟩ <;> simp [dget_ddel]

/-- The value of a slot is the ID token that was decoded from `v` and verified. -/
def VerifiedToken (C : Crypto) (now : Int) (v : Val) (jar : JarArg C) (kw : Dict) (slot : Option Val) : Prop :=
  ∃ m : JwtMsg C, fromJwt C oidc_IdToken (strOf C v) jar (pick idTokenVerifyArgs kw) = .ok m ∧
    idTokenVerify now m.st kw = .ok () ∧ slot = some (.msg oidc_IdToken.cls m.st)

theorem verifyIfPresent_ok {C : Crypto} {now : Int} {st : Dict} {claim : String} {checkHash : Bool} {jar : JarArg C}
    {kw st' : Dict} (h : verifyIfPresent C now st claim checkHash jar kw = .ok st') :
    (dget st claim = none ∧ st' = st) ∨
    ∃ v m, dget st claim = some v ∧
      fromJwt C oidc_IdToken (strOf C v) jar (pick idTokenVerifyArgs kw) = .ok m ∧
      idTokenVerify now m.st kw = .ok () ∧
      st' = dset st (verifiedClaimName claim) (.msg oidc_IdToken.cls m.st) := by
  unfold verifyIfPresent at h
  split at h
  · obtain ⟨v, j, alg, signed, body, m, hv, _, _, _, _, _, hm, hver, _, rfl⟩ := verifyIdToken_ok h
    exact .inr ⟨v, m, hv, hm, hver, rfl⟩
  · next hn =>
    left
    cases h
    simp only [Bool.not_eq_true, dhas_eq_false_iff] at hn
    exact ⟨hn, rfl⟩

/-- C26 for the OIDC token response: whatever the sender put into the three slots, afterwards they are empty or
hold the ID token decoded and verified here. -/
theorem C26_token_response (C : Crypto) (now : Int) (st : Dict) (jar : JarArg C) (kw st' : Dict)
    (h : accessTokenResponseVerify C now st jar kw = .ok st') :
    dget st' "__verified_id_token_hint" = none ∧ dget st' "__verified_request" = none ∧
    (dget st "id_token" = none → dget st' "__verified_id_token" = none) ∧
    (∀ v, dget st "id_token" = some v → VerifiedToken C now v jar kw (dget st' "__verified_id_token")) := by
  unfold accessTokenResponseVerify at h
  simp only [bind_ok] at h
  obtain ⟨_, _, h⟩ := h
  have hid : dget (clearVerifiedClaims st) "id_token" = dget st "id_token" :=
    clear_dget _ _ (by decide) (by decide) (by decide)
  obtain ⟨c1, c2, c3⟩ := clear_slots st
  have hn : verifiedClaimName "id_token" = "__verified_id_token" := by decide
  rcases verifyIfPresent_ok h with ⟨h1, rfl⟩ | ⟨v, m, h1, h2, h3, rfl⟩
  · rw [hid] at h1
    exact ⟨c2, c3, fun _ => c1, fun v hv => by rw [h1] at hv; simp at hv⟩
  · rw [hid] at h1
    rw [hn]
    refine ⟨by rw [dget_dset_ne _ _ (by decide)]; exact c2, by rw [dget_dset_ne _ _ (by decide)]; exact c3,
      fun h => by rw [h1] at h; simp at h, fun v' hv => ?_⟩
    rw [h1] at hv; cases hv
    exact ⟨m, h2, h3, dget_dset_same _ _ _⟩

/-- C26 for the OIDC authorization response (result `True`). -/
theorem C26_authz_response (C : Crypto) (now : Int) (st : Dict) (jar : JarArg C) (kw st' : Dict)
    (h : authzResponseVerify C now st jar kw = .ok (true, st')) :
    dget st' "__verified_id_token_hint" = none ∧ dget st' "__verified_request" = none ∧
    (dget st "id_token" = none → dget st' "__verified_id_token" = none) ∧
    (∀ v, dget st "id_token" = some v → VerifiedToken C now v jar kw (dget st' "__verified_id_token")) := by
  unfold authzResponseVerify at h
  simp only [bind_ok] at h
  obtain ⟨_, _, mine, _, h⟩ := h
  unfold authzResponseRest at h
  cases mine with
  | false => simp at h
  | true =>
    simp only [if_true, map_ok, Prod.mk.injEq, true_and] at h
    obtain ⟨s, h, rfl⟩ := h
    have hid : dget (clearVerifiedClaims st) "id_token" = dget st "id_token" :=
      clear_dget _ _ (by decide) (by decide) (by decide)
    obtain ⟨c1, c2, c3⟩ := clear_slots st
    have hn : verifiedClaimName "id_token" = "__verified_id_token" := by decide
    rcases verifyIfPresent_ok h with ⟨h1, rfl⟩ | ⟨v, m, h1, h2, h3, rfl⟩
    · rw [hid] at h1
      exact ⟨c2, c3, fun _ => c1, fun v hv => by rw [h1] at hv; simp at hv⟩
    · rw [hid] at h1
      rw [hn]
      refine ⟨by rw [dget_dset_ne _ _ (by decide)]; exact c2, by rw [dget_dset_ne _ _ (by decide)]; exact c3,
        fun h => by rw [h1] at h; simp at h, fun v' hv => ?_⟩
      rw [h1] at hv; cases hv
      exact ⟨m, h2, h3, dget_dset_same _ _ _⟩

/-- C26 for the authorization response, result `False` (the response is for another client): all slots are
empty. -/
theorem C26_authz_response_false (C : Crypto) (now : Int) (st : Dict) (jar : JarArg C) (kw st' : Dict)
    (h : authzResponseVerify C now st jar kw = .ok (false, st')) :
    dget st' "__verified_id_token" = none ∧ dget st' "__verified_id_token_hint" = none ∧
    dget st' "__verified_request" = none := by
  unfold authzResponseVerify at h
  simp only [bind_ok] at h
  obtain ⟨_, _, mine, _, h⟩ := h
  unfold authzResponseRest at h
  cases mine with
  | false => simp at h; rw [← h]; exact clear_slots st
  | true => simp [map_ok] at h

/-! ## end session: C26, C32 -/

/-- What a token that is not encrypted decodes to does not depend on the key jar. -/
theorem fromJwt_plain_same {C : Crypto} {sch : Schema} {txt : String} {jar jar' : JarArg C} {args : Dict}
    {m m' : JwtMsg C} (hj : C.jwe txt (algArg (ddel args "verify")) = .ok none)
    (h : fromJwt C sch txt jar args = .ok m) (h' : fromJwt C sch txt jar' args = .ok m') :
    m.st = m'.st ∧ m.header = m'.header := by
  obtain ⟨j₀, t, jso, d, rfl, hd, hi, hf, hc⟩ := fromJwt_ok h
  obtain ⟨j₀', t', jso', d', rfl, hd', hi', hf', hc'⟩ := fromJwt_ok h'
  simp only [decryptStep, hj, ok_ok] at hd hd'
  subst hd; subst hd'
  rcases hc with ⟨a1, a2, a3, _⟩ | ⟨j, a1, a2, a3, _⟩ <;> rcases hc' with ⟨b1, b2, b3, _⟩ | ⟨j', b1, b2, b3, _⟩
  · rw [a2] at b2; cases b2; rw [hi] at hi'; cases hi'; rw [hf] at hf'; simp only [ok_ok] at hf'
    exact ⟨hf', a3.trans b3.symm⟩
  · rw [a1] at b1; cases b1
  · rw [a1] at b1; cases b1
  · rw [a1] at b1; cases b1
    rw [a2] at b2; cases b2; rw [hi] at hi'; cases hi'; rw [hf] at hf'; simp only [ok_ok] at hf'
    exact ⟨hf', a3.trans b3.symm⟩

/-- The hint was decoded (the message stored), decoded again and verified. -/
def VerifiedHint (C : Crypto) (now : Int) (v : Val) (jar : JarArg C) (kw : Dict) (slot : Option Val) : Prop :=
  ∃ m m' : JwtMsg C, fromJwt C oidc_IdToken (strOf C v) jar (pick idTokenVerifyArgs kw) = .ok m ∧
    fromJwt C oidc_IdToken (strOf C v) (some m.jar) (pick idTokenVerifyArgs kw) = .ok m' ∧
    idTokenVerify now m'.st kw = .ok () ∧ slot = some (.msg oidc_IdToken.cls m.st)

theorem hintVerify_ok {C : Crypto} {now : Int} {st : Dict} {jar : JarArg C} {kw st' : Dict}
    (h : hintVerify C now st jar kw = .ok st') :
    ∃ v, dget st "id_token_hint" = some v ∧
      VerifiedHint C now v jar kw (dget st' "__verified_id_token_hint") ∧
      ∀ k, k ≠ "__verified_id_token_hint" → dget st' k = dget st k := by
  unfold hintVerify at h
  simp only [bind_ok, getR_ok] at h
  obtain ⟨v, hv, m, hm, s, hs, h⟩ := h
  cases h
  obtain ⟨v', j, alg, signed, body, m', hv', _, _, _, _, _, hm', hver, _, rfl⟩ := verifyIdToken_ok hs
  rw [hv] at hv'; cases hv'
  refine ⟨v, hv, ⟨m, m', hm, hm', hver, dget_dset_same _ _ _⟩, ?_⟩
  intro k hk
  rw [dget_dset_ne _ _ (Ne.symm hk), dget_dset_ne]
  exact fun e => hk (e.symm.trans (by decide))

theorem endSession_ok {C : Crypto} {now : Int} {st : Dict} {jar : JarArg C} {kw st' : Dict} {b : Bool}
    (h : endSessionVerify C now st jar kw = .ok (b, st')) :
    (b = true ∧ hintVerify C now (clearVerifiedClaims st) jar kw = .ok st') ∨
    (dget st "id_token_hint" = none ∧ st' = clearVerifiedClaims st ∧
      (b = false ↔ dhas st "post_logout_redirect_uri" = true)) := by
  have hk : ∀ k, k ≠ "__verified_id_token" → k ≠ "__verified_id_token_hint" → k ≠ "__verified_request" →
      dhas (clearVerifiedClaims st) k = dhas st k := by
    intro k a b c; unfold dhas; rw [clear_dget st k a b c]
  unfold endSessionVerify at h
  simp only [bind_ok] at h
  obtain ⟨_, _, h⟩ := h
  unfold endSessionRest at h
  rw [hk "id_token_hint" (by decide) (by decide) (by decide),
    hk "post_logout_redirect_uri" (by decide) (by decide) (by decide)] at h
  split at h
  · simp only [map_ok, Prod.mk.injEq] at h
    obtain ⟨s, h, rfl, rfl⟩ := h
    exact .inl ⟨rfl, h⟩
  · next hn =>
    simp only [Bool.not_eq_true, dhas_eq_false_iff] at hn
    split at h
    · next hp => cases h; exact .inr ⟨hn, rfl, by simp [hp]⟩
    · next hp => cases h; exact .inr ⟨hn, rfl, by simp [hp]⟩

/-- C26 for the end-session request: afterwards the slots are empty or hold the hint decoded here. -/
theorem C26_end_session (C : Crypto) (now : Int) (st : Dict) (jar : JarArg C) (kw st' : Dict) (b : Bool)
    (h : endSessionVerify C now st jar kw = .ok (b, st')) :
    dget st' "__verified_id_token" = none ∧ dget st' "__verified_request" = none ∧
    (dget st "id_token_hint" = none → dget st' "__verified_id_token_hint" = none) ∧
    (∀ v, dget st "id_token_hint" = some v → VerifiedHint C now v jar kw (dget st' "__verified_id_token_hint")) := by
  obtain ⟨c1, c2, c3⟩ := clear_slots st
  have hid : dget (clearVerifiedClaims st) "id_token_hint" = dget st "id_token_hint" :=
    clear_dget _ _ (by decide) (by decide) (by decide)
  rcases endSession_ok h with ⟨_, h⟩ | ⟨h1, rfl, _⟩
  · obtain ⟨v, hv, hver, hfr⟩ := hintVerify_ok h
    rw [hid] at hv
    refine ⟨by rw [hfr _ (by decide)]; exact c1, by rw [hfr _ (by decide)]; exact c3, fun h => ?_, fun v' hv' => ?_⟩
    · rw [hv] at h; simp at h
    · rw [hv] at hv'; cases hv'; exact hver
  · exact ⟨c1, c3, fun _ => c2, fun v hv => by rw [h1] at hv; simp at hv⟩

/-- C32: with a `post_logout_redirect_uri` the result is only `True` when an ID token hint is present and was
verified; without a hint the result is `False`. -/
theorem C32_redirect (C : Crypto) (now : Int) (st : Dict) (jar : JarArg C) (kw st' : Dict) (b : Bool)
    (hp : dhas st "post_logout_redirect_uri" = true) (h : endSessionVerify C now st jar kw = .ok (b, st')) :
    (b = true → ∃ v, dget st "id_token_hint" = some v ∧
      VerifiedHint C now v jar kw (dget st' "__verified_id_token_hint")) ∧
    (dget st "id_token_hint" = none → b = false) := by
  rcases endSession_ok h with ⟨_, h'⟩ | ⟨h1, rfl, h2⟩
  · obtain ⟨v, hv, hver, _⟩ := hintVerify_ok h'
    rw [clear_dget _ _ (by decide) (by decide) (by decide)] at hv
    exact ⟨fun _ => ⟨v, hv, hver⟩, fun hn => by rw [hv] at hn; simp at hn⟩
  · have := h2.2 hp
    subst this
    exact ⟨by simp, fun _ => rfl⟩

/-- For a hint that is not encrypted the stored token is the very one whose claims were verified. -/
theorem C32_same_token (C : Crypto) (now : Int) (v : Val) (jar : JarArg C) (kw : Dict) (slot : Option Val)
    (hj : C.jwe (strOf C v) (algArg (ddel (pick idTokenVerifyArgs kw) "verify")) = .ok none)
    (h : VerifiedHint C now v jar kw slot) : VerifiedToken C now v jar kw slot := by
  obtain ⟨m, m', h1, h2, h3, h4⟩ := h
  refine ⟨m, h1, ?_, h4⟩
  rw [(fromJwt_plain_same hj h1 h2).1]; exact h3

example : (endSessionVerify toy 1500 [("id_token_hint", .str "T"), ("post_logout_redirect_uri", .str "https://rp/")]
    (some (some ())) []).map (·.1) = .ok true := by decide +kernel
example : (endSessionVerify toy 1500 [("post_logout_redirect_uri", .str "https://rp/"),
    ("__verified_id_token_hint", .str "forged")] (some (some ())) []) =
    .ok (false, [("post_logout_redirect_uri", .str "https://rp/")]) := by decide +kernel

/-! ## the authorization request: C26, C27, C28 -/

theorem addItem_nodup {sch : Schema} {st st' : Dict} {k : String} {v : Val} (h : addItem sch st k v = .ok st')
    (hn : DNodup st) : DNodup st' := by
  rcases addItem_frame h with rfl | ⟨w, rfl⟩
  · exact hn
  · exact dset_nodup hn _ _

theorem fromDictR_nodup {sch : Schema} {st st' : Dict} {d : List (String × Val)} (h : fromDictR sch st d = .ok st')
    (hn : DNodup st) : DNodup st' := by
  have key : ∀ (d : List (String × Val)) (st st' : Dict), fromDict sch st d = (st', none) → DNodup st → DNodup st' := by
    intro d
    induction d with
    | nil => intro st st' h hn; cases h; exact hn
    | cons p d ih =>
      intro st st' h hn
      obtain ⟨k, v⟩ := p
      simp only [fromDict] at h
      split at h
      · cases h
      · next st1 e => exact ih _ _ h (addItem_nodup e hn)
  unfold fromDictR at h
  split at h
  · next st1 e => cases h; exact key _ _ _ e hn
  · cases h

theorem fromJwt_nodup {C : Crypto} {sch : Schema} {txt : String} {jar : JarArg C} {args : Dict} {m : JwtMsg C}
    (h : fromJwt C sch txt jar args = .ok m) (hd : DNodup sch.default) : DNodup m.st := by
  obtain ⟨_, _, _, _, _, _, _, hf, _⟩ := fromJwt_ok h
  exact fromDictR_nodup hf hd

/-- What a successful verification of an OIDC authorization request did. -/
theorem authzRequest_ok {C : Crypto} {st : Dict} {jar : JarArg C} {kw st' : Dict}
    (h : authzRequestVerify C st jar kw = .ok st') :
    ∃ args st₁ jar₁, verifyBase oidc_AuthorizationRequest st = .ok () ∧
      authzArgs (clearVerifiedClaims st) kw = .ok args ∧
      requestStep C (clearVerifiedClaims st) jar args = .ok (st₁, jar₁) ∧
      hintStep C st₁ jar₁ args = .ok st' ∧ authzRequestConds st' kw = .ok () := by
  unfold authzRequestVerify at h
  simp only [bind_ok] at h
  obtain ⟨⟨⟩, h1, args, h2, ⟨st₁, jar₁⟩, h3, st₂, h4, ⟨⟩, h5, h6⟩ := h
  cases h6
  exact ⟨args, st₁, jar₁, h1, h2, h3, h4, h5⟩

/-- the request object replaced the parameters -/
theorem requestStep_ok {C : Crypto} {st : Dict} {jar : JarArg C} {args st₁ : Dict} {jar₁ : JarArg C}
    (h : requestStep C st jar args = .ok (st₁, jar₁)) :
    ((∀ t, dget st "request" ≠ some (.str t)) ∧ st₁ = st ∧ jar₁ = jar) ∨
    ∃ t m, dget st "request" = some (.str t) ∧ fromJwt C oidc_OpenIDRequest t jar args = .ok m ∧
      (∀ k, k ≠ "__verified_request" → dget st₁ k = dget m.st k) ∧
      dget st₁ "__verified_request" = some (.msg oidc_OpenIDRequest.cls m.st) := by
  unfold requestStep at h
  split at h
  · next t ht =>
    split at h
    · cases h
    · next m hm =>
      split at h
      · cases h
      · cases h
        have hn : DNodup m.st := fromJwt_nodup hm (by decide)
        refine .inr ⟨t, m, ht, hm, ?_, dget_dset_same _ _ _⟩
        intro k hk
        rw [dget_dset_ne _ _ (Ne.symm hk), dget_dupdate _ hn, dget_dropKeys]
        cases hg : dget m.st k with
        | some w => simp
        | none => simp [dhas, hg]
  · next hne =>
    cases h
    exact .inl ⟨fun t ht => hne t ht, rfl, rfl⟩

theorem hintStep_ok {C : Crypto} {st : Dict} {jar : JarArg C} {args st' : Dict}
    (h : hintStep C st jar args = .ok st') :
    ((∀ t, dget st "id_token_hint" ≠ some (.str t)) ∧ st' = st) ∨
    ∃ t m, dget st "id_token_hint" = some (.str t) ∧ fromJwt C oidc_IdToken t jar args = .ok m ∧
      st' = dset st "verified_id_token_hint" (.msg oidc_IdToken.cls m.st) := by
  unfold hintStep at h
  split at h
  · next t ht =>
    split at h
    · next m hm => cases h; exact .inr ⟨t, m, ht, hm, rfl⟩
    · cases h
  · next hne => cases h; exact .inl ⟨fun t ht => hne t ht, rfl⟩

theorem hintStep_frame {C : Crypto} {st : Dict} {jar : JarArg C} {args st' : Dict}
    (h : hintStep C st jar args = .ok st') (k : String) (hk : k ≠ "verified_id_token_hint") :
    dget st' k = dget st k := by
  rcases hintStep_ok h with ⟨_, rfl⟩ | ⟨t, m, _, _, rfl⟩
  · rfl
  · exact dget_dset_ne _ _ (Ne.symm hk)

/-- C28: after successful verification of a request with a request object by value, every parameter except the
two additions has exactly the value the request object gives it (in particular: parameters it does not mention
are gone). -/
theorem C28_request_object (C : Crypto) (st : Dict) (jar : JarArg C) (kw st' : Dict) (t : String)
    (ht : dget st "request" = some (.str t)) (h : authzRequestVerify C st jar kw = .ok st') :
    ∃ args m, fromJwt C oidc_OpenIDRequest t jar args = .ok m ∧
      (∀ k, k ≠ "__verified_request" → k ≠ "verified_id_token_hint" → dget st' k = dget m.st k) ∧
      dget st' "__verified_request" = some (.msg oidc_OpenIDRequest.cls m.st) := by
  obtain ⟨args, st₁, jar₁, _, _, h3, h4, _⟩ := authzRequest_ok h
  have hr : dget (clearVerifiedClaims st) "request" = some (.str t) := by
    rw [clear_dget _ _ (by decide) (by decide) (by decide), ht]
  rcases requestStep_ok h3 with ⟨hne, _⟩ | ⟨t', m, ht', hm, hfr, hver⟩
  · exact absurd hr (hne t)
  · rw [hr] at ht'; cases ht'
    refine ⟨args, m, hm, ?_, ?_⟩
    · intro k h1 h2; rw [hintStep_frame h4 k h2, hfr k h1]
    · rw [hintStep_frame h4 _ (by decide), hver]

/-- C26 for the authorization request without a request object (no `request` string): all three slots are
empty. -/
theorem C26_authz_request_plain_partial (C : Crypto) (st : Dict) (jar : JarArg C) (kw st' : Dict)
    (hr : ∀ t, dget st "request" ≠ some (.str t)) (h : authzRequestVerify C st jar kw = .ok st') :
    dget st' "__verified_id_token" = none ∧ dget st' "__verified_id_token_hint" = none ∧
    dget st' "__verified_request" = none := by
  obtain ⟨args, st₁, jar₁, _, _, h3, h4, _⟩ := authzRequest_ok h
  obtain ⟨c1, c2, c3⟩ := clear_slots st
  rcases requestStep_ok h3 with ⟨_, rfl, _⟩ | ⟨t, m, ht, _⟩
  · rw [hintStep_frame h4 _ (by decide), hintStep_frame h4 _ (by decide), hintStep_frame h4 _ (by decide)]
    exact ⟨c1, c2, c3⟩
  · rw [clear_dget _ _ (by decide) (by decide) (by decide)] at ht
    exact absurd ht (hr t)

/-- C26 for the authorization request with a request object: the `request` slot is the decoded object; the two
ID token slots hold whatever the request object has under these names. -/
theorem C26_authz_request_object_partial (C : Crypto) (st : Dict) (jar : JarArg C) (kw st' : Dict) (t : String)
    (ht : dget st "request" = some (.str t)) (h : authzRequestVerify C st jar kw = .ok st') :
    ∃ args m, fromJwt C oidc_OpenIDRequest t jar args = .ok m ∧
      dget st' "__verified_request" = some (.msg oidc_OpenIDRequest.cls m.st) ∧
      dget st' "__verified_id_token" = dget m.st "__verified_id_token" ∧
      dget st' "__verified_id_token_hint" = dget m.st "__verified_id_token_hint" := by
  obtain ⟨args, m, hm, hfr, hver⟩ := C28_request_object C st jar kw st' t ht h
  exact ⟨args, m, hm, hver, hfr _ (by decide) (by decide), hfr _ (by decide) (by decide)⟩

/-- an authorization request of the form the examples use -/
def toyRequest (extra : Dict) : Dict :=
  [("response_type", .list [.str "code"]), ("client_id", .str "c"), ("redirect_uri", .str "https://rp/cb"),
   ("scope", .list [.str "openid"])] ++ extra

def reqCrypto : Crypto := toyCrypto
  [("R", ⟨[("alg", .str "RS256")],
    .ok (.dict (toyRequest [("__verified_id_token_hint", .dict [("sub", .str "admin")])]))⟩)] ["c"] ["R"]

/-- C26 is false for the authorization request: the client puts `__verified_id_token_hint` into the request
object it signs itself; after successful verification the message has the forged slot, although there is no
`id_token_hint` at all. -/
theorem C26_counterexample_request_object :
    (authzRequestVerify reqCrypto (toyRequest [("request", .str "R")]) (some (some ())) []).map
      (fun st => (dget st "__verified_id_token_hint", dget st "id_token_hint"))
    = .ok (some (.dict [("sub", .str "admin")]), none) := by decide +kernel

/-- The same class stores its verified hint under `verified_id_token_hint`, a name that is never cleared: the
sender's own value survives verification when there is no `id_token_hint`. -/
theorem C26_counterexample_hint_name :
    (authzRequestVerify toy (toyRequest [("verified_id_token_hint", .dict [("sub", .str "admin")])]) (some none) []).map
      (fun st => dget st "verified_id_token_hint") = .ok (some (.dict [("sub", .str "admin")])) := by decide +kernel

/-- C27: the acceptance conditions, on the message as it is after verification. -/
theorem C27_conditions (C : Crypto) (st : Dict) (jar : JarArg C) (kw st' : Dict)
    (h : authzRequestVerify C st jar kw = .ok st') :
    ∃ rt, dget st' "response_type" = some rt ∧
      ((Val.str "id_token").contains rt = .ok true →
        ∃ n, dget st' "nonce" = some n ∧ ∀ n', dget kw "nonce" = some n' → n.eq n' = true) ∧
      (∃ sc, dget st' "scope" = some sc ∧ (Val.str "openid").contains sc = .ok true ∧
        ((Val.str "offline_access").contains sc = .ok true →
          ∃ p, dget st' "prompt" = some p ∧ (Val.str "consent").contains p = .ok true)) ∧
      (∀ p, dget st' "prompt" = some p → (Val.str "none").contains p = .ok true → ∃ n, p.len = .ok n ∧ n ≤ 1) := by
  obtain ⟨args, st₁, jar₁, _, _, _, _, h5⟩ := authzRequest_ok h
  unfold authzRequestConds at h5
  simp only [bind_ok, getReq_ok] at h5
  obtain ⟨rt, hrt, ⟨⟩, hn, ⟨⟩, hs, hp⟩ := h5
  refine ⟨rt, hrt, ?_, ?_, ?_⟩
  · intro hid
    unfold nonceStep at hn
    rw [hid] at hn
    cases hg : dget st' "nonce" with
    | none => simp [hg] at hn
    | some n =>
      simp only [hg] at hn
      exact ⟨n, rfl, fun n' hn' => (matchArg_iff _ _ _ _).1 hn n n' hg hn'⟩
  · unfold scopeStep at hs
    simp only [bind_ok, need_ok] at hs
    obtain ⟨o, ho, ⟨⟩, rfl, off, hoff, con, hcon, rfl⟩ := hs
    unfold scopeOf at ho hoff
    cases hg : dget st' "scope" with
    | none => simp [hg, Val.contains, Val.memList] at ho
    | some sc =>
      simp only [hg] at ho hoff
      refine ⟨sc, rfl, ho, ?_⟩
      intro ho'
      rw [ho'] at hoff
      cases hoff
      simp only [consentStep, if_true, promptHas] at hcon
      cases hp' : dget st' "prompt" with
      | none => simp [hp'] at hcon
      | some p => simp only [hp'] at hcon; exact ⟨p, rfl, hcon⟩
  · intro p hg hno
    unfold promptStep at hp
    simp only [hg, bind_ok, need_ok, decide_eq_true_eq] at hp
    obtain ⟨n, hn', len, hl, hle⟩ := hp
    rw [hno] at hn'; cases hn'
    simp only [promptLen, if_true] at hl
    exact ⟨len, hl, hle⟩

theorem contains_list_iff (s : String) (l : List Val) :
    (Val.str s).contains (.list l) = .ok true ↔ .str s ∈ l := by
  simp only [Val.contains, ok_ok, Val.memList, List.any_eq_true, str_eq_iff, exists_eq_right]

/-- C27 for the usual shape (lists of strings): the conditions as membership. -/
theorem C27_lists (C : Crypto) (st : Dict) (jar : JarArg C) (kw st' : Dict) (rts scopes prompts : List Val)
    (h : authzRequestVerify C st jar kw = .ok st')
    (hrt : dget st' "response_type" = some (.list rts)) (hsc : dget st' "scope" = some (.list scopes))
    (hpr : dget st' "prompt" = some (.list prompts) ∨ dget st' "prompt" = none ∧ prompts = []) :
    (.str "id_token" ∈ rts → ∃ n, dget st' "nonce" = some n) ∧ .str "openid" ∈ scopes ∧
    (.str "offline_access" ∈ scopes → .str "consent" ∈ prompts) ∧
    (.str "none" ∈ prompts → prompts = [.str "none"]) := by
  obtain ⟨rt, h1, h2, ⟨sc, h3, h4, h5⟩, h6⟩ := C27_conditions C st jar kw st' h
  rw [hrt] at h1; cases h1
  rw [hsc] at h3; cases h3
  rw [contains_list_iff] at h2 h4 h5
  refine ⟨fun hm => ?_, h4, fun hm => ?_, fun hm => ?_⟩
  · obtain ⟨n, hn, _⟩ := h2 hm; exact ⟨n, hn⟩
  · obtain ⟨p, hp, hc⟩ := h5 hm
    rcases hpr with hpr | ⟨hpr, rfl⟩
    · rw [hpr] at hp; cases hp; rwa [contains_list_iff] at hc
    · rw [hpr] at hp; cases hp
  · rcases hpr with hpr | ⟨hpr, rfl⟩
    · obtain ⟨n, hl, hle⟩ := h6 _ hpr ((contains_list_iff _ _).2 hm)
      simp only [Val.len, ok_ok] at hl
      subst hl
      match prompts, hm, hle with
      | [x], hm, _ => simp at hm; rw [hm]
      | x :: y :: r, _, hle => simp at hle
    · simp at hm

example : (authzRequestVerify toy (toyRequest []) (some none) []).isOk = true := by decide +kernel
example : (authzRequestVerify toy (toyRequest [("prompt", .list [.str "none", .str "login"])]) (some none) [])
    = .error .invalidRequest := by decide +kernel
example : (authzRequestVerify reqCrypto (toyRequest [("request", .str "R"), ("state", .str "x")]) (some (some ())) []).map
    (fun st => dget st "state") = .ok none := by decide +kernel

end Verif
