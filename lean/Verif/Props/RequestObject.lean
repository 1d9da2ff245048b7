import Verif.Props.Requests
import Verif.Props.JwtRoundTrip

/-!
# Request objects: C97, C98, C99
-/

namespace Verif

/-! ## C97: the values in the request and in the request object -/

theorem authzArgs_same {st₁ st₂ kw a₁ a₂ : Dict} (hc : dget st₁ "client_id" = dget st₂ "client_id")
    (h1 : authzArgs st₁ kw = .ok a₁) (h2 : authzArgs st₂ kw = .ok a₂) : a₁ = a₂ := by
  unfold authzArgs getR at h1 h2
  rw [hc] at h1
  rw [h1] at h2
  cases h2
  rfl

/-- what `requestStep` does with a request object, including the key jar -/
theorem requestStep_object {C : Crypto} {st : Dict} {jar : JarArg C} {args st₁ : Dict} {jar₁ : JarArg C} {t : String}
    (ht : dget st "request" = some (.str t)) (h : requestStep C st jar args = .ok (st₁, jar₁)) :
    ∃ m, fromJwt C oidc_OpenIDRequest t jar args = .ok m ∧ jar₁ = some m.jar ∧
      (∀ k, k ≠ "__verified_request" → dget st₁ k = dget m.st k) ∧
      dget st₁ "__verified_request" = some (.msg oidc_OpenIDRequest.cls m.st) := by
  rcases requestStep_ok h with ⟨hne, _⟩ | ⟨t', m, ht', hm, h1, h2⟩
  · exact absurd ht (hne t)
  · rw [ht] at ht'
    cases ht'
    refine ⟨m, hm, ?_, h1, h2⟩
    unfold requestStep at h
    rw [ht] at h
    simp only [hm] at h
    split at h
    · cases h
    · cases h; rfl

theorem hintStep_same {C : Crypto} {s₁ s₂ : Dict} {jar : JarArg C} {args r₁ r₂ : Dict} (hs : ∀ k, dget s₁ k = dget s₂ k)
    (h1 : hintStep C s₁ jar args = .ok r₁) (h2 : hintStep C s₂ jar args = .ok r₂) (k : String) : dget r₁ k = dget r₂ k := by
  rcases hintStep_ok h1 with ⟨n1, rfl⟩ | ⟨t, m, e1, e2, rfl⟩
  · rcases hintStep_ok h2 with ⟨_, rfl⟩ | ⟨t, m, e1, _, rfl⟩
    · exact hs k
    · rw [← hs] at e1; exact absurd e1 (n1 t)
  · rcases hintStep_ok h2 with ⟨n2, rfl⟩ | ⟨t', m', e1', e2', rfl⟩
    · rw [hs] at e1; exact absurd e1 (n2 t)
    · rw [hs, e1'] at e1
      cases e1
      rw [e2] at e2'
      cases e2'
      rw [dget_dset, dget_dset, hs]

/-- C97, what the code does instead: the plain parameters are not compared with those of the request object but ignored.
Two requests with the same request object and the same client, both accepted, give the same result, whatever else they
say. -/
theorem C97_ignored (C : Crypto) (st₁ st₂ : Dict) (jar : JarArg C) (kw r₁ r₂ : Dict) (t : String)
    (ht₁ : dget st₁ "request" = some (.str t)) (ht₂ : dget st₂ "request" = some (.str t))
    (hc : dget st₁ "client_id" = dget st₂ "client_id") (h1 : authzRequestVerify C st₁ jar kw = .ok r₁)
    (h2 : authzRequestVerify C st₂ jar kw = .ok r₂) (k : String) : dget r₁ k = dget r₂ k := by
  obtain ⟨a₁, s₁, j₁, _, ha₁, hr₁, hh₁, _⟩ := authzRequest_ok h1
  obtain ⟨a₂, s₂, j₂, _, ha₂, hr₂, hh₂, _⟩ := authzRequest_ok h2
  have hcl : ∀ (st : Dict) k, k = "request" ∨ k = "client_id" → dget (clearVerifiedClaims st) k = dget st k := by
    intro st k hk
    rcases hk with rfl | rfl <;> exact clear_dget _ _ (by decide) (by decide) (by decide)
  have he : a₁ = a₂ := authzArgs_same (by rw [hcl _ _ (.inr rfl), hcl _ _ (.inr rfl), hc]) ha₁ ha₂
  subst he
  obtain ⟨m₁, e1, rfl, e2, e3⟩ := requestStep_object (by rw [hcl _ _ (.inl rfl), ht₁]) hr₁
  obtain ⟨m₂, f1, rfl, f2, f3⟩ := requestStep_object (by rw [hcl _ _ (.inl rfl), ht₂]) hr₂
  rw [e1] at f1
  cases f1
  refine hintStep_same (fun k => ?_) hh₁ hh₂ k
  by_cases hk : k = "__verified_request"
  · rw [hk, e3, f3]
  · rw [e2 k hk, f2 k hk]

/-- C97, the part of the rule that holds: the plain request itself names the response type, the client, the scope and the
redirect URI. -/
theorem C97_required_partial (C : Crypto) (st : Dict) (jar : JarArg C) (kw st' : Dict)
    (h : authzRequestVerify C st jar kw = .ok st') (k : String)
    (hk : k ∈ ["response_type", "client_id", "scope", "redirect_uri"]) : ∃ v, dget st k = some v ∧ v.truthy = true := by
  obtain ⟨_, _, _, hb, _⟩ := authzRequest_ok h
  have ha := (C04_verify_iff _ _).1 hb
  simp only [List.mem_cons, List.not_mem_nil, or_false] at hk
  have key : ∀ k sp, dget oidc_AuthorizationRequest.params k = some sp → k ≠ "*" → sp.required = true →
      sp.vtyp.isBool = false → ∃ v, dget st k = some v ∧ v.truthy = true := by
    intro k sp hsp hs hr hnb
    obtain ⟨v, hv, hg⟩ := (ha _ _ (dget_mem hsp) hs).1 hr
    refine ⟨v, hv, ?_⟩
    rcases hg with hg | hg
    · exact hg
    · rw [hg] at hnb; exact absurd hnb (by decide)
  rcases hk with rfl | rfl | rfl | rfl
  · exact key _ requiredListOfSpSepStrings rfl (by decide) rfl rfl
  · exact key _ singleRequiredString rfl (by decide) rfl rfl
  · exact key _ requiredListOfSpSepStrings rfl (by decide) rfl rfl
  · exact key _ singleRequiredString rfl (by decide) rfl rfl

/-- C97 is false: the request says client `c`, and its keys verify the request object, which says client `other` and
another redirect URI; the request is accepted, as one of `other`. -/
def confusedCrypto : Crypto := toyCrypto
  [("R", ⟨[("alg", .str "RS256")],
    .ok (.dict [("response_type", .str "code"), ("client_id", .str "other"), ("redirect_uri", .str "https://evil/cb"),
      ("scope", .str "openid")])⟩)] ["c"] ["R"]

theorem C97_counterexample :
    (authzRequestVerify confusedCrypto (toyRequest [("request", .str "R")]) (some (some ())) []).map
      (fun st => (dget st "client_id", dget st "redirect_uri"))
    = .ok (some (.str "other"), some (.str "https://evil/cb")) ∧
    dget (toyRequest [("request", .str "R")]) "client_id" = some (.str "c") := by decide +kernel

/-- two different requests with the same object, as in `C97_ignored` -/
example : (authzRequestVerify confusedCrypto (toyRequest [("request", .str "R")]) (some (some ())) []).isOk = true ∧
    (authzRequestVerify confusedCrypto (toyRequest [("request", .str "R"), ("nonce", .str "n"), ("state", .str "s")])
      (some (some ())) []).isOk = true := by decide +kernel

/-! ## C98: a verified request has what its class requires -/

/-- C98 for requests without a request object. -/
theorem C98_plain_partial (C : Crypto) (st : Dict) (jar : JarArg C) (kw st' : Dict)
    (hr : ∀ t, dget st "request" ≠ some (.str t)) (h : authzRequestVerify C st jar kw = .ok st') :
    Acceptable oidc_AuthorizationRequest st' := by
  obtain ⟨_, s₁, _, hb, _, hs, hh, _⟩ := authzRequest_ok h
  rw [← C04_verify_iff, ← hb]
  refine C05_verify_declared_only _ _ _ (fun k hk => ?_)
  have hne : k ≠ "__verified_id_token" ∧ k ≠ "__verified_id_token_hint" ∧ k ≠ "__verified_request" ∧
      k ≠ "verified_id_token_hint" := by
    revert k
    decide +kernel
  have hcl := clear_dget st k hne.1 hne.2.1 hne.2.2.1
  rcases requestStep_ok hs with ⟨_, rfl, _⟩ | ⟨t, m, ht, _⟩
  · rw [hintStep_frame hh k hne.2.2.2, hcl]
  · rw [clear_dget _ _ (by decide) (by decide) (by decide)] at ht
    exact absurd ht (hr t)

/-- C98 for requests with a request object: exactly when the object has what the class requires. -/
theorem C98_object_partial (C : Crypto) (st : Dict) (jar : JarArg C) (kw st' : Dict) (t : String)
    (ht : dget st "request" = some (.str t)) (h : authzRequestVerify C st jar kw = .ok st') :
    ∃ args m, fromJwt C oidc_OpenIDRequest t jar args = .ok m ∧
      (Acceptable oidc_AuthorizationRequest st' ↔ Acceptable oidc_AuthorizationRequest m.st) := by
  obtain ⟨args, m, hm, hfr, _⟩ := C28_request_object C st jar kw st' t ht h
  refine ⟨args, m, hm, ?_⟩
  rw [← C04_verify_iff, ← C04_verify_iff, C05_verify_declared_only oidc_AuthorizationRequest st' m.st]
  intro k hk
  have hne : k ≠ "__verified_request" ∧ k ≠ "verified_id_token_hint" := by
    revert k
    decide +kernel
  exact hfr k hne.1 hne.2

/-- a request object that says almost nothing, and that only with values that are not allowed -/
def scantCrypto : Crypto := toyCrypto
  [("R", ⟨[("alg", .str "RS256")],
    .ok (.dict [("response_type", .str "code"), ("scope", .str "openid"), ("display", .str "hologram")])⟩)] ["c"] ["R"]

/-- C98 is false with a request object: the accepted request has neither client nor redirect URI, and a value that is not
allowed. -/
theorem C98_counterexample_object :
    (authzRequestVerify scantCrypto (toyRequest [("request", .str "R")]) (some (some ())) []).map
      (fun st => (dget st "client_id", dget st "redirect_uri", dget st "display"))
    = .ok (none, none, some (.str "hologram")) := by decide +kernel

/-- C98 is false for the two other classes: they check none of the parameters, for any content without `request`. -/
theorem C98_counterexample_pushed (C : Crypto) (st : Dict) (jar : JarArg C) (kw : Dict) (h : dget st "request" = none) :
    pushedVerify C st jar kw = .ok st := by
  unfold pushedVerify
  rw [h]

theorem C98_counterexample_secured (C : Crypto) (st : Dict) (jar : JarArg C) (kw : Dict) (h : dget st "request" = none)
    (hu : dhas st "request_uri" = true) : jwtSecuredVerify C st jar kw = .ok st := by
  unfold jwtSecuredVerify
  simp only [h, hu, if_true]

example : ¬ Acceptable oauth2_AuthorizationRequest [] := by
  rw [← C04_verify_iff]
  decide +kernel

example : (authzRequestVerify toy (toyRequest [("state", .str "s")]) (some none) []).isOk = true ∧
    ∀ t, dget (toyRequest [("state", .str "s")]) "request" ≠ some (.str t) :=
  ⟨by decide +kernel, fun t h => by cases h⟩

/-! ## C99: honest request objects are accepted -/

/-- What `JWT.pack` adds to the payload; all of it JSON data -/
structure Added (extras : Dict) : Prop where
  names : ∀ k ∈ dkeys extras, k ∈ ["iss", "iat", "exp", "aud", "jti", "kid"]
  json : ∀ k v, (k, v) ∈ extras → v.isJson = true ∧ v ≠ .str "" ∧ v ≠ .list [.str ""]
  nodup : DNodup extras

/-- The token that `make_openid_request` gave is a signed token whose payload is the request with some claims added, and
the receiver finds keys that verify it. -/
structure HonestPack (C : Crypto) (kj : C.KeyJar) (args : Dict) (t alg : String) (d extras : Dict) : Prop where
  jar : C.truthy kj = true
  notJwe : C.jwe t (algArg args) = .ok none
  jws : ∃ j ks kj', C.jws (.str t) (sigAlg args) = .ok (some j) ∧ dget j.headers "alg" = some (.str alg) ∧
    j.payload = .ok (.dict (dupdate d extras)) ∧ ks ≠ [] ∧ C.keys kj j args = .ok (ks, kj') ∧
    C.verifyCompact j t ks = .ok ()

theorem extras_undeclared {extras : Dict} (ha : Added extras) {k : String} {v : Val} (h : (k, v) ∈ extras) :
    JsonFaithful oidc_AuthorizationRequest k v := by
  have hk := ha.names k (List.mem_map_of_mem (f := Prod.fst) h)
  obtain ⟨h1, h2, h3⟩ := ha.json k v h
  refine .undeclared ?_ h1 h2 h3
  simp only [List.mem_cons, List.not_mem_nil, or_false] at hk
  rcases hk with rfl | rfl | rfl | rfl | rfl | rfl <;> rfl

theorem logDifferences_ok {st : Dict} (hs : ∀ k v, dget st k = some v → formatOk v = .ok ()) :
    ∀ {l : List (String × Val)}, (∀ k v, (k, v) ∈ l → formatOk v = .ok ()) → logDifferences st l = .ok ()
  | [], _ => rfl
  | (k, v) :: rest, hl => by
    have ih := logDifferences_ok hs (l := rest) (fun k v h => hl k v (List.mem_cons_of_mem _ h))
    unfold logDifferences
    cases hw : dget st k with
    | none => exact ih
    | some w =>
      simp only
      split
      · exact ih
      · simp only [hs k w hw, hl k v (List.mem_cons_self ..)]
        exact ih

theorem faithful_format {sch : Schema} {k : String} {v : Val} (h : JsonFaithful sch k v) : formatOk v = .ok () := by
  cases h with
  | undeclared _ hj => cases v <;> first | rfl | simp [Val.isJson] at hj
  | _ => rfl

theorem conds_same {a b : Dict} (kw : Dict) (h : ∀ k ∈ ["response_type", "nonce", "scope", "prompt"], dget a k = dget b k) :
    authzRequestConds a kw = authzRequestConds b kw := by
  have h1 := h "response_type" (by simp)
  have h2 := h "nonce" (by simp)
  have h3 := h "scope" (by simp)
  have h4 := h "prompt" (by simp)
  simp only [authzRequestConds, getReq, nonceStep, scopeStep, promptStep, matchArg, scopeOf, consentStep, promptHas, h1, h2,
    h3, h4]

theorem mem_dset_of {α} {d : Assoc α} {k k' : String} {v v' : α} (h : (k', v') ∈ dset d k v) :
    (k' = k ∧ v' = v) ∨ (k', v') ∈ d := by
  induction d with
  | nil => simp only [dset, List.mem_singleton, Prod.mk.injEq] at h; exact .inl h
  | cons p r ih =>
    obtain ⟨a, b⟩ := p
    simp only [dset] at h
    split at h
    · rename_i e
      rcases List.mem_cons.1 h with h | h
      · simp only [Prod.mk.injEq] at h
        exact .inl ⟨by rw [h.1]; exact e, h.2⟩
      · exact .inr (List.mem_cons_of_mem _ h)
    · rcases List.mem_cons.1 h with h | h
      · exact .inr (h ▸ List.mem_cons_self ..)
      · rcases ih h with h | h
        · exact .inl h
        · exact .inr (List.mem_cons_of_mem _ h)

theorem mem_dupdate_of {α} : ∀ {e d : Assoc α} {k : String} {v : α}, (k, v) ∈ dupdate d e → (k, v) ∈ e ∨ (k, v) ∈ d
  | [], d, k, v, h => by rw [dupdate_nil] at h; exact .inr h
  | (a, b) :: r, d, k, v, h => by
    rw [dupdate_cons] at h
    rcases mem_dupdate_of h with h | h
    · exact .inl (List.mem_cons_of_mem _ h)
    · rcases mem_dset_of h with ⟨rfl, rfl⟩ | h
      · exact .inl (List.mem_cons_self ..)
      · exact .inr h

theorem toDict_dset {env : SerEnv} {c : Cls} {k : String} {v v' : Val} (hv : serDict env (env c k) v = .ok v') :
    ∀ {st d : Dict}, toDict env c st = .ok d → toDict env c (dset st k v) = .ok (dset d k v')
  | [], d, h => by
    cases h
    simp [dset, toDict, hv, bind, Except.bind]
  | (a, b) :: r, d, h => by
    rw [toDict] at h
    simp only [bind_ok] at h
    obtain ⟨b', h1, r', h2, h3⟩ := h
    cases h3
    simp only [dset]
    by_cases e : a = k
    · subst e
      rw [if_pos rfl, if_pos rfl]
      simp [toDict, hv, h2, bind, Except.bind]
    · rw [if_neg e, if_neg e]
      have := toDict_dset hv h2
      simp [toDict, h1, this, bind, Except.bind]

theorem toDict_dupdate {env : SerEnv} {c : Cls} : ∀ {extras st d : Dict},
    (∀ k v, (k, v) ∈ extras → serDict env (env c k) v = .ok v) → toDict env c st = .ok d →
    toDict env c (dupdate st extras) = .ok (dupdate d extras)
  | [], _, _, _, h => h
  | (k, v) :: r, st, d, he, h => by
    rw [dupdate_cons, dupdate_cons]
    exact toDict_dupdate (fun k v hm => he k v (List.mem_cons_of_mem _ hm))
      (toDict_dset (he k v (List.mem_cons_self ..)) h)

theorem libEnv_request (k : String) : libEnv oidc_AuthorizationRequest.cls k = serFor oidc_AuthorizationRequest.params k := rfl

theorem request_params : oidc_AuthorizationRequest.params = oidc_OpenIDRequest.params := rfl

theorem fromDict_params {s₁ s₂ : Schema} (hp : s₁.params = s₂.params) : ∀ (d st : Dict), fromDict s₁ st d = fromDict s₂ st d
  | [], _ => rfl
  | (k, v) :: r, st => by
    have : addItem s₁ st k v = addItem s₂ st k v := by unfold addItem; rw [hp]
    simp only [fromDict, this]
    split
    · rfl
    · exact fromDict_params hp r _

/-- reading the payload: the request with the added claims -/
theorem packed_reads {arq d extras : Dict} (hn : DNodup arq)
    (hf : ∀ k v, (k, v) ∈ arq → JsonFaithful oidc_AuthorizationRequest k v)
    (ha : Added extras) (hd : toDict libEnv oidc_AuthorizationRequest.cls arq = .ok d) :
    fromDictR oidc_OpenIDRequest [] (dupdate d extras) = .ok (dupdate arq extras) := by
  have hx : ∀ k v, (k, v) ∈ extras → JsonFaithful oidc_AuthorizationRequest k v := fun k v h => extras_undeclared ha h
  have h1 : toDict libEnv oidc_AuthorizationRequest.cls (dupdate arq extras) = .ok (dupdate d extras) := by
    refine toDict_dupdate (fun k v h => ?_) hd
    rw [libEnv_request]
    have hk := ha.names k (List.mem_map_of_mem (f := Prod.fst) h)
    have : serFor oidc_AuthorizationRequest.params k = none := by
      simp only [List.mem_cons, List.not_mem_nil, or_false] at hk
      rcases hk with rfl | rfl | rfl | rfl | rfl | rfl <;> rfl
    rw [this]
    exact serDict_none_json _ _ (ha.json k v h).1
  obtain ⟨d', e1, _, _, e4⟩ := toDict_roundtrip libEnv oidc_AuthorizationRequest libEnv_request (dupdate arq extras)
    (fun k v h => (mem_dupdate_of h).elim (hx k v) (hf k v))
  rw [h1] at e1
  cases e1
  have := e4 []
  rw [dupdate_nil_left (dupdate_nodup hn _)] at this
  unfold fromDictR at this ⊢
  rw [← fromDict_params request_params]
  exact this

/-- C99: a request object made by `make_openid_request` from an authorization request and sent in a request is accepted
when the original request meets the conditions of C27, and the verified request has exactly the parameters of the
original, with those that `JWT.pack` adds on top. -/
theorem C99_accepted {C : Crypto} {P : Packer C} {arq outer kw args d extras : Dict} {keys kj : C.KeyJar}
    {issuer alg recv t : String} {withJti : Bool} {lifetime : Val}
    (hn : DNodup arq) (hf : ∀ k v, (k, v) ∈ arq → JsonFaithful oidc_AuthorizationRequest k v)
    (hmake : makeOpenidRequest P oidc_AuthorizationRequest.cls arq keys issuer alg recv withJti lifetime = .ok t)
    (hd : toDict libEnv oidc_AuthorizationRequest.cls arq = .ok d)
    (hadd : Added extras) (hargs : authzArgs outer kw = .ok args)
    (hhonest : P keys d issuer alg recv withJti lifetime = .ok t → HonestPack C kj (ddel args "verify") t alg d extras)
    (hreq : dget outer "request" = some (.str t)) (hbase : Acceptable oidc_AuthorizationRequest outer)
    (hplain : ∀ k v, (k, v) ∈ outer → v.isMsg = false)
    (hhint : dget arq "id_token_hint" = none) (hconds : authzRequestConds arq kw = .ok ()) :
    ∃ r, authzRequestVerify C outer (some (some kj)) kw = .ok r ∧
      (∀ k, k ≠ "__verified_request" → dget r k = (dget extras k).or (dget arq k)) ∧
      dget r "__verified_request" = some (.msg ⟨"oidc", "OpenIDRequest"⟩ (dupdate arq extras)) := by
  have hpack : P keys d issuer alg recv withJti lifetime = .ok t := by
    unfold makeOpenidRequest at hmake
    rw [hd] at hmake
    exact hmake
  have hh := hhonest hpack
  obtain ⟨j, ks, kj', hj, hja, hjp, hks, hkeys, hver⟩ := hh.jws
  obtain ⟨jar', hs⟩ := sigStep_honest (v := verifyArg args) hh.jar hja hks hkeys hver
  have hread := packed_reads hn hf hadd hd
  have hm : fromJwt C oidc_OpenIDRequest t (some (some kj)) args = .ok ⟨dupdate arq extras, some j.headers, jar'⟩ := by
    unfold fromJwt decryptStep
    simp only [hh.notJwe]
    unfold openStep
    have hread' : fromDictR oidc_OpenIDRequest oidc_OpenIDRequest.default (dupdate d extras) = .ok (dupdate arq extras) := hread
    simp only [hj, hjp, hs, Val.itemsOf, hread']
  have hcl : ∀ k, k ≠ "__verified_id_token" → k ≠ "__verified_id_token_hint" → k ≠ "__verified_request" →
      dget (clearVerifiedClaims outer) k = dget outer k := fun k a b c => clear_dget _ _ a b c
  have hargs' : authzArgs (clearVerifiedClaims outer) kw = .ok args := by
    unfold authzArgs getR at hargs ⊢
    rw [hcl _ (by decide) (by decide) (by decide)]
    exact hargs
  have hfm : ∀ k v, dget (clearVerifiedClaims outer) k = some v → formatOk v = .ok () := by
    intro k v hv
    have hm := dget_mem hv
    have : (k, v) ∈ outer := by
      simp only [clearVerifiedClaims, ddel, List.mem_filter] at hm
      exact hm.1.1.1
    have := hplain k v this
    cases v <;> first | rfl | simp [Val.isMsg] at this
  have hlog : logDifferences (clearVerifiedClaims outer) (dupdate arq extras) = .ok () :=
    logDifferences_ok hfm (fun k v h => (mem_dupdate_of h).elim (fun h => faithful_format (extras_undeclared hadd h))
      (fun h => faithful_format (hf k v h)))
  have hget : ∀ k, dget (dupdate arq extras) k = (dget extras k).or (dget arq k) := fun k => dget_dupdate _ hadd.nodup k
  have hnd : DNodup (dupdate arq extras) := dupdate_nodup hn _
  have hstep : requestStep C (clearVerifiedClaims outer) (some (some kj)) args =
      .ok (dset (dupdate (dropKeys (fun k => dhas (dupdate arq extras) k) (clearVerifiedClaims outer)) (dupdate arq extras))
        "__verified_request" (.msg oidc_OpenIDRequest.cls (dupdate arq extras)), some jar') := by
    unfold requestStep
    rw [hcl _ (by decide) (by decide) (by decide), hreq]
    simp only [hm, hlog]
  obtain ⟨m, hm', _, hfr, hslot⟩ := requestStep_object (by rw [hcl _ (by decide) (by decide) (by decide), hreq]) hstep
  rw [hm] at hm'
  cases hm'
  revert hstep hfr hslot
  generalize dset (dupdate (dropKeys (fun k => dhas (dupdate arq extras) k) (clearVerifiedClaims outer)) (dupdate arq extras))
        "__verified_request" (.msg oidc_OpenIDRequest.cls (dupdate arq extras)) = r
  intro hstep hfr hslot
  have hex : ∀ k, k ∉ ["iss", "iat", "exp", "aud", "jti", "kid"] → dget extras k = none := by
    intro k hk
    rw [dget_eq_none_iff]
    exact fun h => hk (hadd.names k h)
  refine ⟨r, ?_, fun k hk => by rw [hfr k hk]; exact hget k, hslot⟩
  unfold authzRequestVerify
  simp only [bind_ok]
  refine ⟨(), (C04_verify_iff _ _).2 hbase, args, hargs', (r, some jar'), hstep, r, ?_, (), ?_, rfl⟩
  · unfold hintStep
    rw [hfr _ (by decide)]
    show (match dget (dupdate arq extras) "id_token_hint" with | some (.str t) => _ | _ => _) = _
    rw [hget, hex _ (by decide), hhint]
    rfl
  · rw [conds_same kw (b := arq), hconds]
    intro k hk
    have hk' : k ≠ "__verified_request" ∧ k ∉ ["iss", "iat", "exp", "aud", "jti", "kid"] := by
      simp only [List.mem_cons, List.not_mem_nil, or_false] at hk
      rcases hk with rfl | rfl | rfl | rfl <;> decide
    rw [hfr k hk'.1]
    show dget (dupdate arq extras) k = _
    rw [hget, hex k hk'.2]
    rfl

/-- a library that packs by writing the payload with issuer and audience -/
def plainPacker : Packer plainCrypto := fun _ d iss _ recv _ _ =>
  dumps (.dict (dupdate d [("iss", .str iss), ("aud", .list [.str recv])]))

def plainRequest : Dict :=
  [("response_type", .list [.str "code", .str "id_token"]), ("client_id", .str "c"), ("redirect_uri", .str "https://rp/cb"),
   ("scope", .list [.str "openid"]), ("nonce", .str "n")]

def plainObject : String :=
  "{\"response_type\": \"code id_token\", \"client_id\": \"c\", \"redirect_uri\": \"https://rp/cb\", " ++
  "\"scope\": \"openid\", \"nonce\": \"n\", \"iss\": \"c\", \"aud\": [\"https://op\"]}"

theorem plainRequest_faithful : ∀ k v, (k, v) ∈ plainRequest → JsonFaithful oidc_AuthorizationRequest k v := by
  intro k v h
  simp only [plainRequest, List.mem_cons, Prod.mk.injEq, List.not_mem_nil, or_false] at h
  rcases h with ⟨rfl, rfl⟩ | ⟨rfl, rfl⟩ | ⟨rfl, rfl⟩ | ⟨rfl, rfl⟩ | ⟨rfl, rfl⟩
  · exact .spSep (ss := ["code", "id_token"]) (sp := requiredListOfSpSepStrings) (by rfl) rfl rfl rfl (by decide) (by decide)
      (by decide)
  · exact .str (sp := singleRequiredString) (by rfl) rfl rfl (by decide)
  · exact .str (sp := singleRequiredString) (by rfl) rfl rfl (by decide)
  · exact .spSep (ss := ["openid"]) (sp := requiredListOfSpSepStrings) (by rfl) rfl rfl rfl (by decide) (by decide)
      (by decide)
  · exact .str (sp := singleOptionalString) (by rfl) rfl rfl (by decide)

/-- the hypotheses of C99 can be met -/
example : ∃ r, authzRequestVerify plainCrypto (plainRequest ++ [("request", .str plainObject)]) (some (some ()))
    [("nonce", .str "n")] = .ok r ∧
    (∀ k, k ≠ "__verified_request" → dget r k =
      (dget [("iss", .str "c"), ("aud", .list [.str "https://op"])] k).or (dget plainRequest k)) ∧
    dget r "__verified_request" = some (.msg ⟨"oidc", "OpenIDRequest"⟩
      (dupdate plainRequest [("iss", .str "c"), ("aud", .list [.str "https://op"])])) :=
  C99_accepted (C := plainCrypto) (P := plainPacker) (keys := ()) (issuer := "c") (alg := "HS256") (recv := "https://op")
    (withJti := false) (lifetime := .int 0) (args := [("opponent_id", .str "c")])
    (d := [("response_type", .str "code id_token"), ("client_id", .str "c"), ("redirect_uri", .str "https://rp/cb"),
      ("scope", .str "openid"), ("nonce", .str "n")])
    (by decide) plainRequest_faithful (by decide +kernel) (by decide +kernel)
    ⟨by decide, fun k v h => by
      simp only [List.mem_cons, Prod.mk.injEq, List.not_mem_nil, or_false] at h
      rcases h with ⟨rfl, rfl⟩ | ⟨rfl, rfl⟩
      · exact ⟨by decide, by decide, by decide⟩
      · exact ⟨by decide, by decide, by decide⟩, by decide⟩
    (by decide +kernel)
    (fun _ => ⟨rfl, rfl, ⟨[("alg", .str "HS256")], loads plainObject⟩, [()], (), rfl, rfl, by decide +kernel, by simp, rfl, rfl⟩)
    (by decide +kernel) ((C04_verify_iff _ _).1 (by decide +kernel))
    (fun k v h => by
      simp only [plainRequest, List.cons_append, List.nil_append, List.mem_cons, Prod.mk.injEq, List.not_mem_nil, or_false] at h
      rcases h with ⟨rfl, rfl⟩ | ⟨rfl, rfl⟩ | ⟨rfl, rfl⟩ | ⟨rfl, rfl⟩ | ⟨rfl, rfl⟩ | ⟨rfl, rfl⟩ <;> rfl)
    (by decide +kernel) (by decide +kernel)

end Verif
