import Verif.Props.ExactResponses
import Verif.Props.ExactAcceptance

/-!
# Exactly which OpenID requests are accepted, request object and ID token hint included: C172
-/

namespace Verif

/-- what the caller says about the sender; when the caller says nothing, the sender is the client of the request -/
def SenderOf (st kw args : Dict) : Prop :=
  (dget kw "opponent_id" ≠ none ∧ args = requestArgs kw) ∨
  (dget kw "opponent_id" = none ∧ ∃ c, dget st "client_id" = some c ∧ args = dset (requestArgs kw) "opponent_id" c)

/-- a message among the values can be written down as a dictionary -/
def CanBeLogged (v : Val) : Prop := ∀ c d, v = .msg c d → ∃ t, toDict libEnv c d = .ok t

/-- The parameters that count: those of the request object when there is one in the request, and otherwise those of the request. -/
def CountingParams (C : Crypto) (st : Dict) (jar : JarArg C) (args src : Dict) (jar' : JarArg C) : Prop :=
  ((∀ t, dget st "request" ≠ some (.str t)) ∧ src = st ∧ jar' = jar) ∨
  ∃ t m, dget st "request" = some (.str t) ∧ fromJwt C oidc_OpenIDRequest t jar args = .ok m ∧
    (∀ k v w, (k, v) ∈ m.st → dget (clearVerifiedClaims st) k = some w → w.eq v = false → CanBeLogged w ∧ CanBeLogged v) ∧
    src = m.st ∧ jar' = some m.jar

/-- the hint, when it is a text, can be opened -/
def HintOpens (C : Crypto) (src : Dict) (jar : JarArg C) (args : Dict) : Prop :=
  ∀ t, dget src "id_token_hint" = some (.str t) → ∃ m, fromJwt C oidc_IdToken t jar args = .ok m

/-- what OpenID Connect asks of the parameters of an authentication request -/
structure OpenIdRules (src kw : Dict) : Prop where
  nonce : ∃ rt, dget src "response_type" = some rt ∧
    ((Val.str "id_token").contains rt = .ok false ∨
      (Val.str "id_token").contains rt = .ok true ∧
        ∃ n, dget src "nonce" = some n ∧ ∀ n', dget kw "nonce" = some n' → n.eq n' = true)
  scope : ∃ sc, dget src "scope" = some sc ∧ (Val.str "openid").contains sc = .ok true ∧
    ((Val.str "offline_access").contains sc = .ok false ∨
      (Val.str "offline_access").contains sc = .ok true ∧
        ∃ p, dget src "prompt" = some p ∧ (Val.str "consent").contains p = .ok true)
  prompt : ∀ p, dget src "prompt" = some p → (Val.str "none").contains p = .ok false ∨
    (Val.str "none").contains p = .ok true ∧ ∃ n, p.len = .ok n ∧ n ≤ 1

theorem formatOk_loggable (v : Val) : formatOk v = .ok () ↔ CanBeLogged v := by
  cases v with
  | msg c d =>
    rw [formatOk_exact]
    exact ⟨fun h c' d' e => by cases e; exact h, fun h => h _ _ rfl⟩
  | _ => exact ⟨fun _ c d e => (by cases e), fun _ => rfl⟩

theorem logDifferences_exact (st : Dict) (d : List (String × Val)) :
    logDifferences st d = .ok () ↔
      ∀ k v w, (k, v) ∈ d → dget st k = some w → w.eq v = false → CanBeLogged w ∧ CanBeLogged v := by
  induction d with
  | nil => simp [logDifferences]
  | cons p d ih =>
    obtain ⟨k, v⟩ := p
    have split : (∀ k' v' w, (k', v') ∈ (k, v) :: d → dget st k' = some w → w.eq v' = false → CanBeLogged w ∧ CanBeLogged v') ↔
        (∀ w, dget st k = some w → w.eq v = false → CanBeLogged w ∧ CanBeLogged v) ∧ logDifferences st d = .ok () := by
      rw [ih]
      constructor
      · intro h
        exact ⟨fun w => h k v w (List.mem_cons_self ..), fun k' v' w hm => h k' v' w (List.mem_cons_of_mem _ hm)⟩
      · rintro ⟨h1, h2⟩ k' v' w hm
        rcases List.mem_cons.1 hm with e | hm
        · cases e; exact h1 w
        · exact h2 k' v' w hm
    rw [split]
    simp only [logDifferences]
    cases hg : dget st k with
    | none => simp
    | some w =>
      simp only [Option.some.injEq, forall_eq']
      cases he : w.eq v with
      | true => simp
      | false =>
        simp only [Bool.false_eq_true, if_false, forall_const]
        rw [← formatOk_loggable, ← formatOk_loggable]
        cases h1 : formatOk w with
        | error e => simp
        | ok u =>
          cases h2 : formatOk v with
          | error e => simp
          | ok u' => simp

theorem conds_exact (st kw : Dict) : authzRequestConds st kw = .ok () ↔ OpenIdRules st kw := by
  have hnonce : ∀ rt, nonceStep st kw rt = .ok () ↔ ((Val.str "id_token").contains rt = .ok false ∨
      (Val.str "id_token").contains rt = .ok true ∧
        ∃ n, dget st "nonce" = some n ∧ ∀ n', dget kw "nonce" = some n' → n.eq n' = true) := by
    intro rt
    unfold nonceStep
    cases (Val.str "id_token").contains rt with
    | error e => simp
    | ok b =>
      cases b with
      | false => simp
      | true =>
        cases hn : dget st "nonce" with
        | none => simp
        | some n =>
          simp only [matchArg_iff, SameIfBoth, hn]
          constructor
          · exact fun h => .inr ⟨trivial, n, rfl, fun n' => h n n' rfl⟩
          · rintro (h | ⟨-, n₁, e, h⟩)
            · cases h
            · intro a b e' hb
              cases e; cases e'
              exact h b hb
  have hscope : scopeStep st = .ok () ↔ ∃ sc, dget st "scope" = some sc ∧ (Val.str "openid").contains sc = .ok true ∧
    ((Val.str "offline_access").contains sc = .ok false ∨
      (Val.str "offline_access").contains sc = .ok true ∧
        ∃ p, dget st "prompt" = some p ∧ (Val.str "consent").contains p = .ok true) := by
    unfold scopeStep scopeOf
    simp only [bind_ok, need_ok]
    cases hs : dget st "scope" with
    | none => simp [Val.contains, Val.memList]
    | some sc =>
      simp only [Option.some.injEq, exists_eq_left']
      constructor
      · rintro ⟨o, ho, ⟨⟩, rfl, off, hoff, con, hcon, rfl⟩
        refine ⟨ho, ?_⟩
        cases off with
        | false => exact .inl hoff
        | true =>
          refine .inr ⟨hoff, ?_⟩
          simp only [consentStep, if_true, promptHas] at hcon
          cases hp : dget st "prompt" with
          | none => simp [hp] at hcon
          | some p => simp only [hp] at hcon; exact ⟨p, rfl, hcon⟩
      · rintro ⟨ho, hoff | ⟨hoff, p, hp, hc⟩⟩
        · exact ⟨true, ho, (), rfl, false, hoff, true, rfl, rfl⟩
        · exact ⟨true, ho, (), rfl, true, hoff, true, by simp [consentStep, promptHas, hp, hc], rfl⟩
  have hprompt : promptStep st = .ok () ↔ ∀ p, dget st "prompt" = some p → (Val.str "none").contains p = .ok false ∨
      (Val.str "none").contains p = .ok true ∧ ∃ n, p.len = .ok n ∧ n ≤ 1 := by
    unfold promptStep
    cases hp : dget st "prompt" with
    | none => simp
    | some p =>
      simp only [Option.some.injEq, forall_eq', bind_ok, need_ok, decide_eq_true_eq]
      constructor
      · rintro ⟨b, hb, n, hn, hle⟩
        cases b with
        | false => exact .inl hb
        | true => exact .inr ⟨hb, n, hn, hle⟩
      · rintro (hb | ⟨hb, n, hn, hle⟩)
        · exact ⟨false, hb, 0, rfl, Nat.zero_le _⟩
        · exact ⟨true, hb, n, hn, hle⟩
  unfold authzRequestConds
  simp only [bind_ok, getReq_ok]
  constructor
  · rintro ⟨rt, h1, ⟨⟩, h2, ⟨⟩, h3, h4⟩
    exact ⟨⟨rt, h1, (hnonce rt).1 h2⟩, hscope.1 h3, hprompt.1 h4⟩
  · rintro ⟨⟨rt, h1, h2⟩, h3, h4⟩
    exact ⟨rt, h1, (), (hnonce rt).2 h2, (), hscope.2 h3, hprompt.2 h4⟩

/-- the rules look at four parameters only -/
theorem OpenIdRules.same {a b kw : Dict} (h : OpenIdRules a kw) (e : ∀ k ∈ ["response_type", "nonce", "scope", "prompt"],
    dget b k = dget a k) : OpenIdRules b kw := by
  obtain ⟨h1, h2, h3⟩ := h
  refine ⟨?_, ?_, ?_⟩
  · rw [e "response_type" (by decide), e "nonce" (by decide)]; exact h1
  · rw [e "scope" (by decide), e "prompt" (by decide)]; exact h2
  · rw [e "prompt" (by decide)]; exact h3

theorem authzArgs_exact (st kw args : Dict) : authzArgs (clearVerifiedClaims st) kw = .ok args ↔ SenderOf st kw args := by
  unfold authzArgs SenderOf dhas getR
  rw [clear_dget st "client_id" (by decide) (by decide) (by decide)]
  cases dget kw "opponent_id" with
  | some v => simp [eq_comm]
  | none => cases dget st "client_id" <;> simp [eq_comm]

/-- **C172, authentication requests.**  An OpenID authorization request is accepted if and only if the rules of its parameters hold,
its request object, if it has one, can be opened with the keys of the sender and the values it changes can be written to the log,
and the parameters that count — those of the request object, or of the request if it has none — are such that the ID token hint, if there is one, can be opened, there is a nonce,
the expected one, whenever an ID token is asked for, the scope has `openid`, offline access comes with consent, and the
prompt `none` stands alone. -/
theorem C172_authz_request (C : Crypto) (st kw : Dict) (jar : JarArg C) :
    (∃ st', authzRequestVerify C st jar kw = .ok st') ↔
      Acceptable oidc_AuthorizationRequest st ∧
      ∃ args src jar', SenderOf st kw args ∧ CountingParams C st jar args src jar' ∧
        HintOpens C src jar' args ∧ OpenIdRules src kw := by
  have g : ∀ k, k ≠ "__verified_id_token" → k ≠ "__verified_id_token_hint" → k ≠ "__verified_request" →
      dget (clearVerifiedClaims st) k = dget st k := fun k => clear_dget st k
  have names : ∀ k ∈ ["response_type", "nonce", "scope", "prompt"], k ≠ "__verified_id_token" ∧
      k ≠ "__verified_id_token_hint" ∧ k ≠ "__verified_request" ∧ k ≠ "verified_id_token_hint" := by decide
  constructor
  · rintro ⟨st', h⟩
    obtain ⟨args, st₁, jar₁, h1, h2, h3, h4, h5⟩ := authzRequest_ok h
    have h5' := (conds_exact _ _).1 h5
    have h2' := (authzArgs_exact _ _ _).1 h2
    have hint : HintOpens C st₁ jar₁ args := by
      intro t ht
      rcases hintStep_ok h4 with ⟨hn, -⟩ | ⟨t', m, ht', hm, -⟩
      · exact absurd ht (hn t)
      · rw [ht] at ht'; cases ht'; exact ⟨m, hm⟩
    refine ⟨(C04_verify_iff _ _).1 h1, args, ?_⟩
    have h3' := h3
    unfold requestStep at h3'
    rw [g _ (by decide) (by decide) (by decide)] at h3'
    split at h3'
    · next t ht =>
      rcases requestStep_ok h3 with ⟨hn, -⟩ | ⟨t', m, ht', hm, hfr, -⟩
      · exact absurd ((g _ (by decide) (by decide) (by decide)).trans ht) (hn t)
      rw [g _ (by decide) (by decide) (by decide), ht] at ht'; cases ht'
      rw [hm] at h3'
      simp only at h3'
      split at h3'
      · cases h3'
      · next hl =>
        cases h3'
        refine ⟨m.st, some m.jar, h2', .inr ⟨t, m, ht, hm, (logDifferences_exact _ _).1 hl, rfl, rfl⟩, ?_, h5'.same ?_⟩
        · intro t' ht'
          exact hint t' ((hfr "id_token_hint" (by decide)).trans ht')
        · intro k hk
          obtain ⟨-, -, n3, n4⟩ := names k hk
          rw [hintStep_frame h4 k n4, hfr k n3]
    · next hn =>
      cases h3'
      refine ⟨st, jar, h2', .inl ⟨fun t => hn t, rfl, rfl⟩, ?_, h5'.same ?_⟩
      · intro t ht
        exact hint t ((g _ (by decide) (by decide) (by decide)).trans ht)
      · intro k hk
        obtain ⟨n1, n2, n3, n4⟩ := names k hk
        rw [hintStep_frame h4 k n4, g k n1 n2 n3]
  · rintro ⟨h1, args, src, jar', h2, h3, h4, h5⟩
    have key : ∃ st₁, requestStep C (clearVerifiedClaims st) jar args = .ok (st₁, jar') ∧
        ∀ k, k ≠ "__verified_id_token" → k ≠ "__verified_id_token_hint" → k ≠ "__verified_request" → dget st₁ k = dget src k := by
      rcases h3 with ⟨hn, rfl, rfl⟩ | ⟨t, m, ht, hm, hl, rfl, rfl⟩
      · refine ⟨clearVerifiedClaims src, ?_, g⟩
        unfold requestStep
        rw [g _ (by decide) (by decide) (by decide)]
        split
        · next t ht => exact absurd ht (hn t)
        · rfl
      · have hstep : requestStep C (clearVerifiedClaims st) jar args =
            .ok (dset (dupdate (dropKeys (fun k => dhas m.st k) (clearVerifiedClaims st)) m.st) "__verified_request"
              (.msg oidc_OpenIDRequest.cls m.st), some m.jar) := by
          unfold requestStep
          rw [g _ (by decide) (by decide) (by decide), ht]
          simp only [hm, (logDifferences_exact _ _).2 hl]
        refine ⟨_, hstep, fun k _ _ hk => ?_⟩
        rcases requestStep_ok hstep with ⟨hn, -⟩ | ⟨t', m', ht', hm', hfr, -⟩
        · exact absurd ((g _ (by decide) (by decide) (by decide)).trans ht) (hn t)
        · rw [g _ (by decide) (by decide) (by decide), ht] at ht'; cases ht'
          rw [hm] at hm'; cases hm'
          exact hfr k hk
    obtain ⟨st₁, hs, hfr⟩ := key
    have hhint : ∃ st₂, hintStep C st₁ jar' args = .ok st₂ := by
      unfold hintStep
      rw [hfr _ (by decide) (by decide) (by decide)]
      split
      · next t ht =>
        obtain ⟨m, hm⟩ := h4 t ht
        rw [hm]; exact ⟨_, rfl⟩
      · exact ⟨_, rfl⟩
    obtain ⟨st₂, hh⟩ := hhint
    refine ⟨st₂, ?_⟩
    unfold authzRequestVerify
    simp only [bind_ok]
    refine ⟨(), (C04_verify_iff _ _).2 h1, args, (authzArgs_exact _ _ _).2 h2, (st₁, jar'), hs, st₂, hh, (),
      (conds_exact _ _).2 (h5.same fun k hk => ?_), rfl⟩
    obtain ⟨n1, n2, n3, n4⟩ := names k hk
    rw [hintStep_frame hh k n4, hfr k n1 n2 n3]

/-- a request whose request object carries the parameters, one where the object does not ask for `openid`, and one whose hint cannot
be opened -/
example :
    (authzRequestVerify reqCrypto (toyRequest [("request", .str "R")]) (some (some ())) []).toBool = true ∧
    authzRequestVerify (toyCrypto [("R", ⟨[("alg", .str "RS256")],
        .ok (.dict (dset (toyRequest []) "scope" (.str "profile")))⟩)] ["c"] ["R"])
      (toyRequest [("request", .str "R")]) (some (some ())) [] = .error .missingRequiredValue ∧
    (authzRequestVerify reqCrypto (toyRequest [("id_token_hint", .str "?")]) (some (some ())) []).toBool = false := by
  decide +kernel

end Verif
