import Verif.Model.JwtOut
import Verif.Props.RoundTrip
import Verif.Props.IdTokens
import Verif.Props.Registration

/-!
# Tokens that the library writes are read back: C86, C87

Soundness (what an accepted token guarantees) is C19–C25.  Here is the other direction: with an honest crypto library
nothing that was written properly is lost or refused.
-/

namespace Verif

/-- The crypto library does what it is for, for these keys: what was signed with `keys` is a signed token with the given
algorithm and payload, not an encrypted one, and the receiver's jar has keys that verify it. -/
structure Honest (C : Crypto) (W : Writer C) (alg : String) (keys : List C.Key) (kj : C.KeyJar) (args : Dict) : Prop where
  jar : C.truthy kj = true
  reads : ∀ p t, W.sign p alg keys = .ok t → C.jwe t (algArg args) = .ok none ∧
    ∃ j, C.jws (.str t) none = .ok (some j) ∧ C.jws (.str t) (sigAlg args) = .ok (some j) ∧
      dget j.headers "alg" = some (.str alg) ∧ j.payload = loads p ∧
      ∃ ks kj', ks ≠ [] ∧ C.keys kj j args = .ok (ks, kj') ∧ C.verifyCompact j t ks = .ok ()

theorem sigStep_honest {C : Crypto} {j : Jws} {t alg : String} {kj kj' : C.KeyJar} {ks : List C.Key} {v : Bool} {kw : Dict}
    (ht : C.truthy kj = true) (ha : dget j.headers "alg" = some (.str alg)) (hk : ks ≠ [])
    (hs : C.keys kj j kw = .ok (ks, kj')) (hv : C.verifyCompact j t ks = .ok ()) :
    ∃ jar', sigStep C j t (some kj) v kw = .ok jar' := by
  unfold sigStep
  rw [ha]
  dsimp only
  split
  · exact ⟨_, rfl⟩
  · cases v with
    | false => exact ⟨_, rfl⟩
    | true =>
      rw [if_pos rfl]
      unfold checkSig jarKeys
      simp only [ht, if_true, hs]
      cases ks with
      | nil => exact absurd rfl hk
      | cons k ks => simp only [hv]; exact ⟨_, rfl⟩

theorem fromJson_ok {sch : Schema} {st r : Dict} {txt : String} (h : fromJson sch st txt = .ok r) :
    ∃ v d, loads txt = .ok v ∧ v.itemsOf = .ok d ∧ fromDictR sch st d = .ok r := by
  unfold fromJson at h
  simp only [bind_ok] at h
  obtain ⟨v, hv, d, hd, h⟩ := h
  exact ⟨v, d, hv, hd, h⟩

/-- C86: a message whose values survive JSON, signed with `to_jwt` and read with `from_jwt`, comes back: every parameter
has its value, and parameters of the class with a default that were not sent have their default. -/
theorem C86_roundtrip {C : Crypto} {W : Writer C} {env : SerEnv} {sch : Schema}
    (henv : ∀ k, env sch.cls k = serFor sch.params k) {st : Dict} (hn : DNodup st)
    (hf : ∀ k v, (k, v) ∈ st → JsonFaithful sch k v) {alg t : String} {keys : List C.Key} {kj : C.KeyJar} {args : Dict}
    (hh : Honest C W alg keys kj (ddel args "verify")) (ht : toJwt W env sch.cls st alg keys = .ok t) :
    ∃ m hdr, fromJwt C sch t (some (some kj)) args = .ok m ∧ m.header = some hdr ∧ dget hdr "alg" = some (.str alg) ∧
      (∀ k, dget m.st k = (dget st k).or (dget sch.default k)) ∧ (sch.default = [] → m.st = st) := by
  obtain ⟨txt, h1, h2, h3⟩ := C07_json_roundtrip env sch henv st hn hf
  rw [toJwt, h1] at ht
  dsimp only at ht
  obtain ⟨hjwe, j, _, hj, ha, hp, ks, kj', hk, hks, hv⟩ := hh.reads _ _ ht
  obtain ⟨r, hr, hr'⟩ := h3 sch.default
  obtain ⟨v, d, hl, hi, hfd⟩ := fromJson_ok hr
  obtain ⟨jar', hs⟩ := sigStep_honest (v := verifyArg args) hh.jar ha hk hks hv
  have hm : fromJwt C sch t (some (some kj)) args = .ok ⟨r, some j.headers, jar'⟩ := by
    unfold fromJwt decryptStep
    simp only [hjwe]
    unfold openStep
    simp only [hj, hp, hl, hs, hi, hfd]
  refine ⟨_, _, hm, rfl, ha, hr', fun hd => ?_⟩
  rw [hd] at hr
  rw [hr] at h2
  cases h2
  rfl

/-- C86 for encrypted messages: `from_jwe` reads what `to_jwe` wrote, when decryption undoes encryption. -/
theorem C86_jwe {C : Crypto} {W : Writer C} {env : SerEnv} {sch : Schema}
    (henv : ∀ k, env sch.cls k = serFor sch.params k) {st : Dict} (hn : DNodup st)
    (hf : ∀ k v, (k, v) ∈ st → JsonFaithful sch k v) {alg enc t : String} {keys keys' : List C.Key}
    (hh : ∀ p t, W.encrypt p alg enc keys = .ok t → W.decryptPlain t keys' = .ok p)
    (ht : toJwe W env sch.cls st keys enc alg = .ok t) :
    ∃ r, fromJwe W sch t keys' = .ok r ∧ (∀ k, dget r k = (dget st k).or (dget sch.default k)) ∧
      (sch.default = [] → r = st) := by
  obtain ⟨txt, h1, h2, h3⟩ := C07_json_roundtrip env sch henv st hn hf
  rw [toJwe, h1] at ht
  obtain ⟨r, hr, hr'⟩ := h3 sch.default
  refine ⟨r, by rw [fromJwe, hh _ _ ht]; exact hr, hr', fun hd => ?_⟩
  rw [hd] at hr
  rw [hr] at h2
  cases h2
  rfl

theorem libEnv_idToken (k : String) : libEnv oidc_IdToken.cls k = serFor oidc_IdToken.params k := rfl

/-- `to_dict` keeps a string parameter without serialiser -/
theorem toDict_dget {env : SerEnv} {c : Cls} {k s : String} (hk : env c k = none) :
    ∀ {st d : Dict}, toDict env c st = .ok d → dget st k = some (.str s) → dget d k = some (.str s)
  | [], _, _, h => by cases h
  | (k', v) :: rest, d, h, hs => by
    rw [toDict] at h
    simp only [bind_ok] at h
    obtain ⟨v', h1, r, h2, h3⟩ := h
    cases h3
    rw [dget_cons] at hs ⊢
    by_cases e : k' = k
    · subst e
      rw [if_pos rfl] at hs ⊢
      cases hs
      rw [hk] at h1
      cases h1
      rfl
    · rw [if_neg e] at hs ⊢
      exact toDict_dget hk h2 hs

/-- a hash check succeeds when the token has the hash of the very value -/
theorem hashCheck_honest {C : Crypto} {f attr h : String} {resp idt : Dict} {e : Exc}
    (hh : ∀ v, dget resp attr = some v → ∃ s, C.leftHash v f = .ok (.str s) ∧ dget idt h = some (.str s)) :
    hashCheck C f resp idt attr h e = .ok () := by
  unfold hashCheck
  cases hv : dget resp attr with
  | none => rfl
  | some v =>
    obtain ⟨s, h1, h2⟩ := hh v hv
    simp [getReq, h1, h2, bind, Except.bind, need, Val.eq]

/-- C87: an ID token that was packed and signed with `IdToken.to_jwt` is accepted by `verify_id_token` in the message
that carries it, and the token found there is the packed one — provided the library is honest, the algorithm is a
signature algorithm that the receiver allows, the receiver knows the issuer, the conditions of C24 hold, and the access
token and code of the response are those that were hashed. -/
theorem C87_accepted {C : Crypto} {W : Writer C} {now life now' : Int} {alg t claim : String} {keys : List C.Key}
    {kj : C.KeyJar} {kw st st' resp : Dict} {checkHash : Bool}
    (ht : idTokenToJwt W now st alg (.int life) keys = .ok (t, st'))
    (hn : DNodup st') (hf : ∀ k v, (k, v) ∈ st' → JsonFaithful oidc_IdToken k v)
    (hh : Honest C W alg keys kj (ddel (pick idTokenVerifyArgs kw) "verify"))
    (halg : alg ≠ "none") (hallow : ∀ a, dget kw "allowed_sign_alg" = some a → a = .str alg)
    (hiss : ∃ iss, dget st' "iss" = some (.str iss) ∧ C.hasIssuer kj (.str iss) = .ok true)
    (hacc : idTokenVerify now' st' kw = .ok ())
    (hresp : dget resp claim = some (.str t))
    (hstr : ∀ v, (dget st "access_token" = some v ∨ dget st "code" = some v) →
      ∃ s, C.leftHash v ("HS" ++ String.ofList (alg.toList.drop (alg.toList.length - 3))) = .ok (.str s))
    (hhash : checkHash = true → ∀ k ∈ ["access_token", "code"], ∀ v, dget resp k = some v → dget st k = some v) :
    verifyIdToken C now' resp claim checkHash (some (some kj)) kw =
      .ok (dset resp ("__verified_" ++ claim) (.msg ⟨"oidc", "IdToken"⟩ st')) := by
  unfold idTokenToJwt at ht
  cases hp : pack C now alg (.int life) st with
  | error e => rw [hp] at ht; cases ht
  | ok st₁ =>
  rw [hp] at ht
  dsimp only at ht
  cases hj : toJwt W libEnv oidc_IdToken.cls st₁ alg keys with
  | error e => rw [hj] at ht; cases ht
  | ok t₁ =>
  rw [hj] at ht
  cases ht
  obtain ⟨p1, p2, _⟩ := C73_pack C now life alg st st' hstr hp
  -- reading
  obtain ⟨m, hdr, hm, hhdr, hha, _, hst⟩ := C86_roundtrip libEnv_idToken hn hf hh hj
  have hst := hst rfl
  -- the first look at the token
  obtain ⟨txt, h1, h2, h3⟩ := C07_json_roundtrip libEnv oidc_IdToken libEnv_idToken st' hn hf
  have hsg : W.sign txt alg keys = .ok t := by rw [toJwt, h1] at hj; exact hj
  obtain ⟨_, j, hj0, hj1, hja, hjp, _⟩ := hh.reads _ _ hsg
  obtain ⟨v, d, hl, hi, hfd⟩ := fromJson_ok h2
  obtain ⟨iss, hiss, hknown⟩ := hiss
  have hbody : ∃ d, loads txt = .ok (.dict d) ∧ dget d "iss" = some (.str iss) := by
    obtain ⟨d, e1, e2, e3, _⟩ := toDict_roundtrip libEnv oidc_IdToken libEnv_idToken st' hf
    have hjs : (Val.dict d).isJson = true := by
      have : (dkeys d).Nodup := by rw [e3]; exact hn
      simp [Val.isJson, e2, this]
    obtain ⟨txt', e4, e5⟩ := loads_dumps _ hjs
    have : txt' = txt := by
      simp only [toJson, e1, bind, Except.bind, e4] at h1
      cases h1; rfl
    subst this
    exact ⟨d, e5, toDict_dget (by rfl) e1 hiss⟩
  obtain ⟨body, hb1, hb2⟩ := hbody
  have hfmt : formatOk (.msg oidc_IdToken.cls st') = .ok () := by
    obtain ⟨d, e1, _⟩ := toDict_roundtrip libEnv oidc_IdToken libEnv_idToken st' hf
    simp only [formatOk, e1]
  have halg1 : algCheck (.str alg) kw = .ok true := by
    unfold algCheck
    rw [if_neg (by rw [eq_str_iff]; intro e; cases e; exact halg rfl)]
    cases ha : dget kw "allowed_sign_alg" with
    | none => rfl
    | some a => rw [hallow a ha]; simp [Val.eq]
  have hstep : issuerStep C true (.dict body) (some (some kj)) = .ok () := by
    simp [issuerStep, issuerKnown, bodyIss, getReq, hb2, hknown, bind, Except.bind, need]
  have hhs : hashStep C (true && checkHash) resp m = .ok () := by
    unfold hashStep
    cases checkHash with
    | false => rfl
    | true =>
      simp only [Bool.and_self, if_true, hashChecks, headerHash, hhdr, hha, hst, bind_ok]
      refine ⟨_, rfl, (), hashCheck_honest (fun v hv => ?_), hashCheck_honest (fun v hv => ?_)⟩
      · obtain ⟨x, x1, x2, _⟩ := p1 v (hhash rfl _ (by simp) v hv)
        exact ⟨x, x1, x2⟩
      · obtain ⟨x, x1, x2, _⟩ := p2 v (hhash rfl _ (by simp) v hv)
        exact ⟨x, x1, x2⟩
  have hcore : verifyIdTokenCore C now' resp (.str t) checkHash (some (some kj)) kw = .ok m := by
    unfold verifyIdTokenCore
    simp only [bind_ok]
    refine ⟨j, by simp [parseClaim, hj0], .str alg, getR_ok.2 hja, true, halg1, .dict body, by rw [hjp, hb1], (), hstep,
      m, hm, (), by rw [hst]; exact hacc, (), hhs, rfl⟩
  unfold verifyIdToken
  simp only [bind_ok]
  exact ⟨.str t, getR_ok.2 hresp, m, hcore, (), by rw [hst]; exact hfmt, by rw [hst]; rfl⟩

/-! ## the hypotheses can be met -/

/-- a crypto library that signs by doing nothing -/
def plainCrypto : Crypto where
  KeyJar := Unit
  Key := Unit
  Jwe := Unit
  jwe := fun _ _ => .ok none
  decryptKeys := fun _ => .ok []
  decrypt := fun _ t _ => .ok t
  jws := fun v _ => match v with | .str t => .ok (some ⟨[("alg", .str "HS256")], loads t⟩) | _ => .error .valueError
  truthy := fun _ => true
  keys := fun _ _ _ => .ok ([()], ())
  update := fun _ => .ok ()
  verifyCompact := fun _ _ _ => .ok ()
  hasIssuer := fun _ _ => .ok true
  leftHash := fun _ _ => .ok (.str "hash")
  repr := fun _ => ""

def plainWriter : Writer plainCrypto := ⟨fun p _ _ => .ok p, fun p _ _ _ => .ok p, fun p _ => .ok p⟩

theorem plain_honest (args : Dict) : Honest plainCrypto plainWriter "HS256" [()] () args :=
  ⟨rfl, fun _ _ h => by cases h; exact ⟨rfl, _, rfl, rfl, rfl, rfl, [()], (), by simp, rfl, rfl⟩⟩

def plainToken : Dict :=
  [("iss", .str "https://op"), ("sub", .str "diana"), ("aud", .list [.str "client"]), ("nonce", .str "n"),
   ("access_token", .str "token")]

def plainPacked : Dict :=
  [("iss", .str "https://op"), ("sub", .str "diana"), ("aud", .list [.str "client"]), ("nonce", .str "n"),
   ("at_hash", .str "hash"), ("iat", .int 1000), ("exp", .int 1300)]

theorem plain_faithful : ∀ k v, (k, v) ∈ plainPacked → JsonFaithful oidc_IdToken k v := by
  intro k v h
  simp only [plainPacked, List.mem_cons, Prod.mk.injEq, List.not_mem_nil, or_false] at h
  rcases h with ⟨rfl, rfl⟩ | ⟨rfl, rfl⟩ | ⟨rfl, rfl⟩ | ⟨rfl, rfl⟩ | ⟨rfl, rfl⟩ | ⟨rfl, rfl⟩ | ⟨rfl, rfl⟩
  · exact .str (sp := singleRequiredString) (by rfl) rfl rfl (by decide)
  · exact .str (sp := singleRequiredString) (by rfl) rfl rfl (by decide)
  · exact .strList (ss := ["client"]) (sp := requiredListOfStrings) (by rfl) rfl rfl rfl (by decide) (by decide)
  · exact .str (sp := singleOptionalString) (by rfl) rfl rfl (by decide)
  · exact .str (sp := singleOptionalString) (by rfl) rfl rfl (by decide)
  · exact .int (sp := singleRequiredInt) (by rfl) rfl rfl
  · exact .int (sp := singleRequiredInt) (by rfl) rfl rfl

/-- C87 applied: a token for `client`, received two minutes later together with the access token -/
example (t : String) (ht : idTokenToJwt plainWriter 1000 plainToken "HS256" (.int 300) [()] = .ok (t, plainPacked)) :
    verifyIdToken plainCrypto 1120 [("access_token", .str "token"), ("id_token", .str t)] "id_token" true (some (some ()))
      [("iss", .str "https://op"), ("client_id", .str "client"), ("nonce", .str "n")] =
    .ok (dset [("access_token", .str "token"), ("id_token", .str t)] "__verified_id_token"
      (.msg ⟨"oidc", "IdToken"⟩ plainPacked)) :=
  C87_accepted (C := plainCrypto) (kj := ()) ht (by decide) plain_faithful (plain_honest _) (by decide) (fun _ h => by cases h)
    ⟨"https://op", rfl, rfl⟩ (by decide +kernel) rfl (fun _ _ => ⟨"hash", rfl⟩)
    (fun _ k hk v hv => by
      simp only [List.mem_cons, List.not_mem_nil, or_false] at hk
      rcases hk with rfl | rfl
      · rw [show plainToken = plainToken from rfl]; simpa [plainToken] using hv
      · exact absurd hv (by simp))

theorem plain_written : (idTokenToJwt plainWriter 1000 plainToken "HS256" (.int 300) [()]).map Prod.snd = .ok plainPacked := by
  rfl

example : ∃ t, idTokenToJwt plainWriter 1000 plainToken "HS256" (.int 300) [()] = .ok (t, plainPacked) := by
  have h := plain_written
  generalize idTokenToJwt plainWriter 1000 plainToken "HS256" (.int 300) [()] = r at h
  cases r with
  | error e => cases h
  | ok p => exact ⟨p.1, by cases p; cases h; rfl⟩

end Verif
