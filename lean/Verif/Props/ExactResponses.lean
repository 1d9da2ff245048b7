import Verif.Props.ReasonsEmbedded

/-!
# Exactly which responses are accepted, and what they hold afterwards: C172
-/

namespace Verif

/-- the issuer of a signed token is one that the key jar, if there is one, has keys of -/
def IssuerFine (C : Crypto) (body : Val) : JarArg C → Prop
  | none => True
  | some none => False
  | some (some kj) => ∃ d iss, body = .dict d ∧ dget d "iss" = some iss ∧ C.hasIssuer kj iss = .ok true

/-- the token `k` of the response, if it is there, is the one whose hash is in the ID token -/
def HashFine (C : Crypto) (st : Dict) (m : JwtMsg C) (k hk : String) : Prop :=
  ∃ hdr alg, m.header = some hdr ∧ dget hdr "alg" = some (.str alg) ∧
    ∀ v, dget st k = some v → ∃ h x, dget m.st hk = some h ∧ C.leftHash v (hashAlg alg) = .ok x ∧ h.eq x = true

/-- The token `v` in the response `st` is fine, and `m` is what it says: it is a JWT of an allowed algorithm, when it is signed
its issuer is known; it can be opened; what it says is right for the caller; where hashes are looked at they are right when it is
signed; and what it says can be logged. -/
structure TokenFine (C : Crypto) (now : Int) (st kw : Dict) (jar : JarArg C) (hashes : Bool) (v : Val) (m : JwtMsg C) : Prop where
  parsed : ∃ j alg body, C.jws v none = .ok (some j) ∧ dget j.headers "alg" = some alg ∧ ¬ AlgorithmBad alg kw ∧
    j.payload = .ok body ∧ (alg.eq (.str "none") = false → IssuerFine C body jar ∧
      (hashes = true → HashFine C st m "access_token" "at_hash" ∧ HashFine C st m "code" "c_hash"))
  opened : fromJwt C oidc_IdToken (strOf C v) jar (pick idTokenVerifyArgs kw) = .ok m
  verified : idTokenVerify now m.st kw = .ok ()
  logged : ∃ t, toDict libEnv oidc_IdToken.cls m.st = .ok t

theorem algCheck_exact (alg : Val) (kw : Dict) (b : Bool) :
    algCheck alg kw = .ok b ↔ ¬ AlgorithmBad alg kw ∧ b = !alg.eq (.str "none") := by
  have h1 : sigalgNone kw = false ↔ ∀ v, dget kw "sigalg" = some v → v.eq (.str "none") = false := by
    unfold sigalgNone
    cases dget kw "sigalg" <;> simp
  have h2 : noneForbidden kw = true ↔ ∀ v, dget kw "allow_sign_alg_none" = some v → v = .bool false := by
    unfold noneForbidden
    split
    · rename_i e; simp [e]
    · rename_i e; simp [e]
    · rename_i w hne e
      simp only [e, Option.some.injEq, forall_eq', Bool.false_eq_true, false_iff]
      intro h; exact hne h
  unfold algCheck AlgorithmBad
  rw [← h1, ← h2]
  cases alg.eq (.str "none")
  · cases e : dget kw "allowed_sign_alg" with
    | none => cases b <;> simp
    | some a => cases ha : alg.eq a <;> cases b <;> simp [ha]
  · cases sigalgNone kw <;> cases noneForbidden kw <;> cases b <;> simp

theorem issuerStep_exact (C : Crypto) (signed : Bool) (body : Val) (jar : JarArg C) :
    issuerStep C signed body jar = .ok () ↔ (signed = true → IssuerFine C body jar) := by
  unfold issuerStep
  cases signed
  · simp
  · simp only [if_true, true_imp_iff]
    unfold issuerKnown
    cases jar with
    | none => simp [IssuerFine]
    | some jar =>
      simp only [bind_ok]
      cases jar with
      | none => simp [IssuerFine]
      | some kj =>
        simp only [IssuerFine]
        constructor
        · rintro ⟨iss, h1, h2⟩
          unfold bodyIss at h1
          split at h1
          · rename_i d
            unfold getReq at h1
            split at h1
            · rename_i e
              cases h1
              refine ⟨d, iss, rfl, e, ?_⟩
              split at h2
              · rename_i b hb; rw [hb]; unfold need at h2; cases b <;> simp at h2 ⊢
              · cases h2
            · cases h1
          · cases h1
        · rintro ⟨d, iss, rfl, h1, h2⟩
          exact ⟨iss, by simp [bodyIss, getReq, h1], by simp [h2, need]⟩

theorem hashCheck_exact (C : Crypto) (f : String) (st idt : Dict) (k hk : String) (e : Exc) :
    hashCheck C f st idt k hk e = .ok () ↔
      ∀ v, dget st k = some v → ∃ h x, dget idt hk = some h ∧ C.leftHash v f = .ok x ∧ h.eq x = true := by
  unfold hashCheck
  cases dget st k with
  | none => simp
  | some v =>
    simp only [bind_ok, need_ok, Option.some.injEq, forall_eq']
    unfold getReq
    cases dget idt hk <;> simp

theorem hashStep_exact (C : Crypto) (b : Bool) (st : Dict) (m : JwtMsg C) :
    hashStep C b st m = .ok () ↔ (b = true → HashFine C st m "access_token" "at_hash" ∧ HashFine C st m "code" "c_hash") := by
  unfold hashStep
  cases b
  · simp
  · simp only [if_true, true_imp_iff]
    unfold hashChecks HashFine
    simp only [bind_ok]
    constructor
    · rintro ⟨f, hf, ⟨⟩, h1, h2⟩
      rw [hashCheck_exact] at h1 h2
      unfold headerHash at hf
      split at hf
      · cases hf
      · rename_i hdr hh
        split at hf
        · cases hf
        · rename_i a ha; cases hf; exact ⟨⟨hdr, a, hh, ha, h1⟩, ⟨hdr, a, hh, ha, h2⟩⟩
        · cases hf
    · rintro ⟨⟨hdr, a, hh, ha, h1⟩, ⟨hdr', a', hh', ha', h2⟩⟩
      rw [hh] at hh'; cases hh'
      rw [ha] at ha'; cases ha'
      exact ⟨hashAlg a, by simp [headerHash, hh, ha], (), (hashCheck_exact ..).2 h1, (hashCheck_exact ..).2 h2⟩

theorem formatOk_exact (c : Cls) (d : Dict) : formatOk (.msg c d) = .ok () ↔ ∃ t, toDict libEnv c d = .ok t := by
  unfold formatOk
  cases h : toDict libEnv c d <;> simp [h]

theorem ifPresent_exact (C : Crypto) (now : Int) (st kw : Dict) (claim : String) (b : Bool) (jar : JarArg C) (st' : Dict) :
    verifyIfPresent C now st claim b jar kw = .ok st' ↔
      (dget st claim = none ∧ st' = st) ∨
      ∃ v m, dget st claim = some v ∧ TokenFine C now st kw jar b v m ∧
        st' = dset st (verifiedClaimName claim) (.msg oidc_IdToken.cls m.st) := by
  unfold verifyIfPresent dhas
  cases hv : dget st claim with
  | none => simp [eq_comm]
  | some v =>
    simp only [Option.isSome_some, if_true, verifyIdToken, verifyIdTokenCore, bind_ok, getR, hv, Except.ok.injEq, algCheck_exact, exists_eq_left', reduceCtorEq, false_and, Option.some.injEq, false_or]
    have hparse : ∀ j, parseClaim C v = .ok j ↔ C.jws v none = .ok (some j) := by
      intro j
      unfold parseClaim
      split <;> simp_all
    constructor
    · rintro ⟨m, ⟨j, hj, alg, ha, signed, ⟨hb, rfl⟩, body, hp, ⟨⟩, hi, m', hm, ⟨⟩, hver, ⟨⟩, hh, rfl⟩, ⟨⟩, hf, rfl⟩
      rw [issuerStep_exact] at hi; rw [hashStep_exact] at hh; rw [formatOk_exact] at hf
      refine ⟨v, m', rfl, ⟨⟨j, alg, body, (hparse j).1 hj, ?_, hb, hp, fun hn => ⟨hi (by simp [hn]), fun hb => hh (by simp [hn, hb])⟩⟩,
        hm, hver, hf⟩, rfl⟩
      split at ha
      · rename_i e; cases ha; exact e
      · cases ha
    · rintro ⟨_, m, rfl, ⟨⟨j, alg, body, hj, ha, hb, hp, hi⟩, hm, hver, hf⟩, rfl⟩
      refine ⟨m, ⟨j, (hparse j).2 hj, alg, by rw [ha], _, ⟨hb, rfl⟩, body, hp, (), ?_, m, hm, (), hver, (), ?_, rfl⟩, (), (formatOk_exact _ _).2 hf, rfl⟩
      · rw [issuerStep_exact]; intro hs; exact (hi (by simpa using hs)).1
      · rw [hashStep_exact]; intro hs
        simp only [Bool.and_eq_true, Bool.not_eq_eq_eq_not, Bool.not_true] at hs
        exact (hi hs.1).2 hs.2

/-- the response afterwards -/
def Afterwards (C : Crypto) (now : Int) (st st₀ kw : Dict) (jar : JarArg C) (hashes : Bool) (st' : Dict) : Prop :=
  (dget st "id_token" = none ∧ st' = st₀) ∨
  ∃ v m, dget st "id_token" = some v ∧ TokenFine C now st kw jar hashes v m ∧
    st' = dset st₀ "__verified_id_token" (.msg oidc_IdToken.cls m.st)

theorem tokenFine_clear {C : Crypto} {now : Int} {st kw : Dict} {jar : JarArg C} {b : Bool} {v : Val} {m : JwtMsg C} :
    TokenFine C now (clearVerifiedClaims st) kw jar b v m ↔ TokenFine C now st kw jar b v m := by
  have ha : dget (clearVerifiedClaims st) "access_token" = dget st "access_token" := (sameBut_clear st).2 _ (by simp [IsSlot])
  have hc : dget (clearVerifiedClaims st) "code" = dget st "code" := (sameBut_clear st).2 _ (by simp [IsSlot])
  constructor <;> rintro ⟨h1, h2, h3, h4⟩ <;> refine ⟨?_, h2, h3, h4⟩ <;> simpa only [HashFine, ha, hc] using h1

theorem ifPresent_clear (C : Crypto) (now : Int) (st kw : Dict) (b : Bool) (jar : JarArg C) (st' : Dict) :
    verifyIfPresent C now (clearVerifiedClaims st) "id_token" b jar kw = .ok st' ↔
      Afterwards C now st (clearVerifiedClaims st) kw jar b st' := by
  rw [ifPresent_exact, (sameBut_clear st).2 "id_token" (by simp [IsSlot])]
  simp only [tokenFine_clear]
  rfl

/-- **C172, token responses.**  Accepted exactly when what the class declares is kept, the error description is fine, and the ID
token, if there is one, is fine.  Afterwards the message holds what it held, without what earlier verifications left in it, and
the ID token. -/
theorem C172_token_response (C : Crypto) (now : Int) (st kw : Dict) (jar : JarArg C) (st' : Dict) :
    accessTokenResponseVerify C now st jar kw = .ok st' ↔
      Acceptable oidc_AccessTokenResponse st ∧ DescriptionOk st ∧ Afterwards C now st (clearVerifiedClaims st) kw jar false st' := by
  unfold accessTokenResponseVerify
  simp only [bind_ok, ifPresent_clear]
  constructor
  · rintro ⟨⟨⟩, h1, h2⟩
    exact ⟨((C36_iff _ _).1 h1).1, ((C36_iff _ _).1 h1).2, h2⟩
  · rintro ⟨h1, h2, h3⟩
    exact ⟨(), (C36_iff _ _).2 ⟨h1, h2⟩, h3⟩

/-- **C172, authorization responses.**  Accepted with `True` exactly when moreover client and issuer are the expected ones, the
response is for the client, and the hashes in a signed ID token are those of the code and the access token. -/
theorem C172_authz_response (C : Crypto) (now : Int) (st kw : Dict) (jar : JarArg C) (st' : Dict) :
    (authzResponseVerify C now st jar kw = .ok (true, st') ↔
      Acceptable oidc_AuthorizationResponse st ∧ DescriptionOk st ∧ SameIfBoth st kw "client_id" ∧ SameIfBoth st kw "iss" ∧
      (∀ aud c, dget st "aud" = some aud → dget kw "client_id" = some c → c.contains aud = .ok true) ∧
      Afterwards C now st (clearVerifiedClaims st) kw jar true st') ∧
    (authzResponseVerify C now st jar kw = .ok (false, st') ↔
      Acceptable oidc_AuthorizationResponse st ∧ DescriptionOk st ∧ SameIfBoth st kw "client_id" ∧ SameIfBoth st kw "iss" ∧
      (∃ aud c, dget st "aud" = some aud ∧ dget kw "client_id" = some c ∧ c.contains aud = .ok false) ∧
      st' = clearVerifiedClaims st) := by
  have hm : ∀ b, forMe (clearVerifiedClaims st) kw = .ok b ↔
      if b = true then (∀ aud c, dget st "aud" = some aud → dget kw "client_id" = some c → c.contains aud = .ok true)
      else ∃ aud c, dget st "aud" = some aud ∧ dget kw "client_id" = some c ∧ c.contains aud = .ok false := by
    intro b
    unfold forMe
    rw [(sameBut_clear st).2 "aud" (by simp [IsSlot])]
    cases dget st "aud" <;> cases dget kw "client_id" <;> cases b <;> simp
  have hr : ∀ mine b, authzResponseRest C now (clearVerifiedClaims st) jar kw mine = .ok (b, st') ↔
      mine = b ∧ if b = true then Afterwards C now st (clearVerifiedClaims st) kw jar true st' else st' = clearVerifiedClaims st := by
    intro mine b
    unfold authzResponseRest
    rw [← ifPresent_clear]
    cases verifyIfPresent C now (clearVerifiedClaims st) "id_token" true jar kw <;> cases mine <;> cases b <;>
      simp [Except.map, eq_comm]
  unfold authzResponseVerify
  simp only [bind_ok, hr, hm]
  constructor
  · constructor
    · rintro ⟨⟨⟩, h1, mine, h2, rfl, h3⟩
      obtain ⟨a, b, c, d⟩ := (C67_iff _ _ _).1 h1
      exact ⟨a, b, c, d, by simpa using h2, by simpa using h3⟩
    · rintro ⟨a, b, c, d, h2, h3⟩
      exact ⟨(), (C67_iff _ _ _).2 ⟨a, b, c, d⟩, true, by simpa using h2, rfl, by simpa using h3⟩
  · constructor
    · rintro ⟨⟨⟩, h1, mine, h2, rfl, h3⟩
      obtain ⟨a, b, c, d⟩ := (C67_iff _ _ _).1 h1
      exact ⟨a, b, c, d, by simpa using h2, by simpa using h3⟩
    · rintro ⟨a, b, c, d, h2, h3⟩
      exact ⟨(), (C67_iff _ _ _).2 ⟨a, b, c, d⟩, false, by simpa using h2, rfl, by simpa using h3⟩

/-- **C172, other messages with an ID token.**  What earlier verifications left in them stays. -/
theorem C172_message_with_id_token (C : Crypto) (now : Int) (sch : Schema) (st kw : Dict) (jar : JarArg C) (st' : Dict) :
    messageWithIdTokenVerify C now sch st jar kw = .ok st' ↔
      Acceptable sch st ∧ (sch.cls = ⟨"session", "RefreshSessionResponse"⟩ → DescriptionOk st) ∧
      Afterwards C now st st kw jar false st' := by
  unfold messageWithIdTokenVerify besideIdTokenVerify
  simp only [bind_ok]
  have hp : verifyIfPresent C now st "id_token" false jar kw = .ok st' ↔ Afterwards C now st st kw jar false st' := by
    rw [ifPresent_exact]; rfl
  rw [show (∃ a, (if sch.cls = ⟨"session", "RefreshSessionResponse"⟩ then responseVerify sch st else verifyBase sch st) = .ok a ∧
      verifyIfPresent C now st "id_token" false jar kw = .ok st') ↔
      ((if sch.cls = ⟨"session", "RefreshSessionResponse"⟩ then responseVerify sch st else verifyBase sch st) = .ok () ∧
      Afterwards C now st st kw jar false st') from by rw [hp]; constructor <;> rintro ⟨h, h'⟩; exacts [h', ⟨_, h, h'⟩]]
  split
  · rename_i h; simp [C36_iff, h, and_assoc]
  · rename_i h; simp [C04_verify_iff, h]

/-- an ID token that is fine -/
example : Afterwards toy 1500 [("access_token", .str "at"), ("id_token", .str "T")] [("access_token", .str "at"), ("id_token", .str "T")]
    [("client_id", .str "client")] (some (some ())) true
    [("access_token", .str "at"), ("id_token", .str "T"), ("__verified_id_token", .msg oidc_IdToken.cls toyClaims)] :=
  (ifPresent_exact toy 1500 _ [("client_id", .str "client")] "id_token" true (some (some ())) _).1 (by decide +kernel)

/-- **C172, logout requests at the provider.**  Without a hint everything the class allows is accepted, but the answer is `False` when
there is an address to return to.  With a hint: exactly when the hint can be opened, is a fine ID token with the key jar as
it is after opening it; what is kept is the hint as it was opened. -/
theorem C172_end_session (C : Crypto) (now : Int) (st kw : Dict) (jar : JarArg C) (b : Bool) (st' : Dict) :
    endSessionVerify C now st jar kw = .ok (b, st') ↔
      Acceptable session_EndSessionRequest st ∧
      ((dget st "id_token_hint" = none ∧ (b = true ↔ dget st "post_logout_redirect_uri" = none) ∧ st' = clearVerifiedClaims st) ∨
       ∃ v m m', dget st "id_token_hint" = some v ∧ b = true ∧
        fromJwt C oidc_IdToken (strOf C v) jar (pick idTokenVerifyArgs kw) = .ok m ∧
        TokenFine C now st kw (some m.jar) false v m' ∧
        st' = dset (clearVerifiedClaims st) "__verified_id_token_hint" (.msg oidc_IdToken.cls m.st)) := by
  have hh : dget (clearVerifiedClaims st) "id_token_hint" = dget st "id_token_hint" := (sameBut_clear st).2 _ (by simp [IsSlot])
  have hp : dget (clearVerifiedClaims st) "post_logout_redirect_uri" = dget st "post_logout_redirect_uri" :=
    (sameBut_clear st).2 _ (by simp [IsSlot])
  have hr : endSessionRest C now (clearVerifiedClaims st) jar kw = .ok (b, st') ↔
      ((dget st "id_token_hint" = none ∧ (b = true ↔ dget st "post_logout_redirect_uri" = none) ∧ st' = clearVerifiedClaims st) ∨
       ∃ v m m', dget st "id_token_hint" = some v ∧ b = true ∧
        fromJwt C oidc_IdToken (strOf C v) jar (pick idTokenVerifyArgs kw) = .ok m ∧
        TokenFine C now st kw (some m.jar) false v m' ∧
        st' = dset (clearVerifiedClaims st) "__verified_id_token_hint" (.msg oidc_IdToken.cls m.st)) := by
    unfold endSessionRest
    cases hv : dget st "id_token_hint" with
    | none =>
      simp only [dhas, hh, hv, hp, Option.isSome_none, Bool.false_eq_true, if_false]
      cases hq : dget st "post_logout_redirect_uri" <;> cases b <;> simp [eq_comm]
    | some v =>
      have hx : ∀ (jar : JarArg C) (s : Dict), verifyIdToken C now (clearVerifiedClaims st) "id_token_hint" false jar kw = .ok s ↔
          ∃ m', TokenFine C now st kw jar false v m' ∧
            s = dset (clearVerifiedClaims st) "__verified_id_token_hint" (.msg oidc_IdToken.cls m'.st) := by
        intro jar s
        have := ifPresent_exact C now (clearVerifiedClaims st) kw "id_token_hint" false jar s
        unfold verifyIfPresent at this
        rw [if_pos (by unfold dhas; rw [hh, hv]; rfl), hh, hv] at this
        rw [this]
        constructor
        · rintro (⟨h, _⟩ | ⟨_, m, h, h1, h2⟩)
          · cases h
          · cases h; exact ⟨m, tokenFine_clear.1 h1, h2⟩
        · rintro ⟨m, h1, h2⟩
          exact .inr ⟨v, m, rfl, tokenFine_clear.2 h1, h2⟩
      have hint : hintVerify C now (clearVerifiedClaims st) jar kw = .ok st' ↔ ∃ m m',
          fromJwt C oidc_IdToken (strOf C v) jar (pick idTokenVerifyArgs kw) = .ok m ∧
          TokenFine C now st kw (some m.jar) false v m' ∧
          st' = dset (clearVerifiedClaims st) "__verified_id_token_hint" (.msg oidc_IdToken.cls m.st) := by
        unfold hintVerify
        simp only [bind_ok, getR, hh, hv, Except.ok.injEq, exists_eq_left', hx]
        constructor
        · rintro ⟨m, hm, _, ⟨m', h1, rfl⟩, rfl⟩
          exact ⟨m, m', hm, h1, dset_dset ..⟩
        · rintro ⟨m, m', hm, h1, rfl⟩
          exact ⟨m, hm, _, ⟨m', h1, rfl⟩, dset_dset ..⟩
      rw [if_pos (by unfold dhas; rw [hh, hv]; rfl)]
      constructor
      · intro h
        cases hy : hintVerify C now (clearVerifiedClaims st) jar kw with
        | error e => rw [hy] at h; cases h
        | ok s =>
          rw [hy] at h; cases h
          obtain ⟨m, m', h1, h2, h3⟩ := hint.1 hy
          exact .inr ⟨v, m, m', rfl, rfl, h1, h2, h3⟩
      · rintro (⟨h, _⟩ | ⟨_, m, m', h, rfl, h1, h2, h3⟩)
        · cases h
        · cases h
          rw [hint.2 ⟨m, m', h1, h2, h3⟩]; rfl
  unfold endSessionVerify
  simp only [bind_ok, hr]
  constructor
  · rintro ⟨⟨⟩, h1, h2⟩; exact ⟨(C04_verify_iff _ _).1 h1, h2⟩
  · rintro ⟨h1, h2⟩; exact ⟨(), (C04_verify_iff _ _).2 h1, h2⟩

/-- **C172, logout requests at the client.** -/
theorem C172_back_channel (C : Crypto) (now : Int) (st kw : Dict) (jar : JarArg C) (st' : Dict) :
    backChannelVerify C now st jar kw = .ok st' ↔
      Acceptable session_BackChannelLogoutRequest st ∧
      ∃ v m, dget st "logout_token" = some v ∧
        fromJwt C session_LogoutToken (strOf C v) jar (pick idTokenVerifyArgs kw) = .ok m ∧
        logoutTokenVerify now m.st m.header kw = .ok () ∧ (∃ t, toDict libEnv session_LogoutToken.cls m.st = .ok t) ∧
        st' = dset st "__verified_logout_token" (.msg session_LogoutToken.cls m.st) := by
  unfold backChannelVerify
  simp only [bind_ok]
  constructor
  · rintro ⟨⟨⟩, h1, v, hv, m, hm, ⟨⟩, h2, ⟨⟩, h3, h4⟩
    cases h4
    refine ⟨(C04_verify_iff _ _).1 h1, v, m, ?_, hm, h2, (formatOk_exact _ _).1 h3, rfl⟩
    unfold getR at hv
    split at hv
    · rename_i e; cases hv; exact e
    · cases hv
  · rintro ⟨h1, v, m, hv, hm, h2, h3, rfl⟩
    exact ⟨(), (C04_verify_iff _ _).2 h1, v, by simp [getR, hv], m, hm, (), h2, (), (formatOk_exact _ _).2 h3, rfl⟩

/-- **C172, request objects.**  A JWT secured request is accepted exactly when its request object can be opened, or there is only a
reference to one; a pushed one also when there is none. -/
theorem C172_request_objects (C : Crypto) (st kw : Dict) (jar : JarArg C) :
    ((∃ st', jwtSecuredVerify C st jar kw = .ok st') ↔
      (∃ v m, dget st "request" = some v ∧ fromJwt C oauth2_AuthorizationRequest (strOf C v) jar (requestArgs kw) = .ok m) ∨
      (dget st "request" = none ∧ dget st "request_uri" ≠ none)) ∧
    ((∃ st', pushedVerify C st jar kw = .ok st') ↔
      (∃ v m, dget st "request" = some v ∧ fromJwt C oauth2_AuthorizationRequest (strOf C v) jar (requestArgs kw) = .ok m) ∨
      dget st "request" = none) := by
  unfold jwtSecuredVerify pushedVerify requestObject dhas
  cases dget st "request" with
  | none => cases dget st "request_uri" <;> simp
  | some v =>
    cases hm : fromJwt C oauth2_AuthorizationRequest (strOf C v) jar (requestArgs kw) <;> simp [hm]

/-- a logout with a hint, and one without -/
example :
    endSessionVerify toy 1500 [("id_token_hint", .str "T")] (some (some ())) [] =
      .ok (true, [("id_token_hint", .str "T"), ("__verified_id_token_hint", .msg oidc_IdToken.cls toyClaims)]) ∧
    endSessionVerify toy 1500 [("post_logout_redirect_uri", .str "https://rp")] (some (some ())) [] =
      .ok (false, [("post_logout_redirect_uri", .str "https://rp")]) := by
  decide +kernel

end Verif
