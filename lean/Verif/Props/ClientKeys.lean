import Verif.Props.Arguments

/-!
# C142: the request object is opened in the name of the client
-/

namespace Verif

/-- the key jar looks its arguments up by name (a keyword call has no order) -/
def KeysByName (C : Crypto) : Prop := ∀ kj j d d', (∀ m, dget d m = dget d' m) → C.keys kj j d = C.keys kj j d'

/-- `from_jwt` looks its arguments up by name -/
theorem fromJwt_byName {C : Crypto} (hC : KeysByName C) {a a' : Dict} (h : ∀ m, dget a' m = dget a m) (sch : Schema) (txt : String)
    (jar : JarArg C) : fromJwt C sch txt jar a' = fromJwt C sch txt jar a := by
  refine fromJwt_args (h _) (h _) (h _) ?_ (fun kj j => hC kj j _ _ fun m => ?_) sch txt jar
  · unfold verifyArg; rw [h]
  · rw [dget_ddel, dget_ddel, h]

theorem steps_byName {C : Crypto} (hC : KeysByName C) {a a' : Dict} (h : ∀ m, dget a' m = dget a m) :
    (∀ st jar, requestStep C st jar a' = requestStep C st jar a) ∧ (∀ st jar, hintStep C st jar a' = hintStep C st jar a) := by
  refine ⟨fun st jar => ?_, fun st jar => ?_⟩
  · unfold requestStep
    simp only [fromJwt_byName hC h]
  · unfold hintStep
    simp only [fromJwt_byName hC h]

/-- **C142**, `oidc.AuthorizationRequest.verify`: without an `opponent_id` it does exactly what it does with the `client_id` of the
request as `opponent_id`, for the request object and for the ID token hint. -/
theorem C142_oidc_request_partial {C : Crypto} (hC : KeysByName C) {st kw : Dict} {c : Val} (hk : dget kw "opponent_id" = none)
    (hc : dget st "client_id" = some c) (jar : JarArg C) :
    authzRequestVerify C st jar kw = authzRequestVerify C st jar (dset kw "opponent_id" c) := by
  have hcl : dget (clearVerifiedClaims st) "client_id" = some c := by
    unfold clearVerifiedClaims
    rw [dget_ddel_ne _ (by decide), dget_ddel_ne _ (by decide), dget_ddel_ne _ (by decide), hc]
  have h1 : authzArgs (clearVerifiedClaims st) kw = .ok (dset (requestArgs kw) "opponent_id" c) := by
    unfold authzArgs dhas getR
    rw [hk, hcl]
    rfl
  have h2 : authzArgs (clearVerifiedClaims st) (dset kw "opponent_id" c) = .ok (requestArgs (dset kw "opponent_id" c)) := by
    unfold authzArgs dhas
    rw [dget_dset_same]
    rfl
  have h3 : ∀ m, dget (dset (requestArgs kw) "opponent_id" c) m = dget (requestArgs (dset kw "opponent_id" c)) m := by
    intro m
    unfold requestArgs
    rw [dget_dset, dget_pick, dget_pick, dget_dset]
    by_cases hm : "opponent_id" = m
    · subst hm; simp
    · simp [hm]
  obtain ⟨h4, h5⟩ := steps_byName hC h3
  have h6 : ∀ st, authzRequestConds st (dset kw "opponent_id" c) = authzRequestConds st kw := by
    intro st
    unfold authzRequestConds nonceStep
    simp only [same_match (dget_dset_ne kw c (show "opponent_id" ≠ "nonce" by decide))]
  unfold authzRequestVerify
  simp only [h1, h2, bind, Except.bind, h4, h5, h6]

/-- **C142**, the key jar is never asked without a name: a request that is let through named its client. -/
theorem C142_named {C : Crypto} {st kw st' : Dict} {jar : JarArg C} (h : authzRequestVerify C st jar kw = .ok st') :
    ∃ c, dget st "client_id" = some c := by
  unfold authzRequestVerify at h
  cases hv : verifyBase oidc_AuthorizationRequest st with
  | error e => rw [hv] at h; cases h
  | ok _ =>
    obtain ⟨v, hv, _⟩ := ((C04_verify_iff oidc_AuthorizationRequest st).1 hv "client_id" singleRequiredString (dget_mem rfl)
      (by decide)).1 rfl
    exact ⟨v, hv⟩

/-- a key jar that knows the keys of one client -/
abbrev clientJar (c : String) : Crypto :=
  probeWith toyClaims (fun kw => ((dget kw "opponent_id").getD .none).eq (.str c))

/-- **C142**, where it fails: a JWT secured or pushed OAuth2 request that names the client is not opened with the keys of the client,
though it is when the name is passed once more. -/
theorem C142_counterexamples :
    let st : Dict := [("client_id", .str "c"), ("request", .str "T")]
    jwtSecuredVerify (clientJar "c") st (some (some ())) [] = .error .missingSigningKey ∧
    (jwtSecuredVerify (clientJar "c") st (some (some ())) [("opponent_id", .str "c")]).isOk = true ∧
    pushedVerify (clientJar "c") st (some (some ())) [] = .error .missingSigningKey ∧
    (pushedVerify (clientJar "c") st (some (some ())) [("opponent_id", .str "c")]).isOk = true := by
  decide +kernel

/-! The hypotheses can be met, and the OpenID Connect request is opened with the keys of the client. -/

theorem clientJar_byName (c : String) : KeysByName (clientJar c) := by
  intro kj j d d' h
  show Except.ok (if _ then _ else _, ()) = Except.ok (if _ then _ else _, ())
  simp only [h]

/-- an authorization request -/
def namedRequest : Dict :=
  [("response_type", .list [.str "code"]), ("client_id", .str "c"), ("scope", .list [.str "openid"]), ("redirect_uri", .str "https://rp/")]

example : let jar (c : String) : Crypto := probeWith namedRequest (fun kw => ((dget kw "opponent_id").getD .none).eq (.str c))
    (authzRequestVerify (jar "c") (namedRequest ++ [("request", .str "T")]) (some (some ())) []).isOk = true ∧
    authzRequestVerify (jar "d") (namedRequest ++ [("request", .str "T")]) (some (some ())) [] = .error .missingSigningKey := by
  decide +kernel

end Verif
