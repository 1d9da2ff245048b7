import Verif.Props.JwtRoundTrip
import Verif.Props.RequestObject
import Verif.Props.Encoding
import Verif.Props.Logout

/-! # C122: sign-in and logout between honest parties go through

Every step is done with the functions of the library: the message is built, written as a URL, a form or JSON, read on the
other side and verified there.  The sender's and the receiver's clocks, the keys and all names are arbitrary. -/

namespace Verif

/-- what the two parties agree on -/
structure SignIn where
  iss : String
  sub : String
  client : String
  redirect : String
  nonce : String
  state : String
  code : String
  token : String

structure SignIn.Named (s : SignIn) : Prop where
  iss : s.iss ≠ ""
  sub : s.sub ≠ ""
  client : s.client ≠ ""
  redirect : s.redirect ≠ ""
  nonce : s.nonce ≠ ""
  state : s.state ≠ ""
  code : s.code ≠ ""
  token : s.token ≠ ""

/-- The crypto library works for these keys: everything can be signed, the receiver can verify it, and knows the issuer;
hashes are texts. -/
structure Works (C : Crypto) (W : Writer C) (alg : String) (keys : List C.Key) (kj : C.KeyJar) (iss : String) : Prop where
  honest : ∀ args : Dict, (∀ p ∈ args, p.1 = "client_id" ∨ p.1 = "allowed_sign_alg") → Honest C W alg keys kj args
  alg_ne : alg ≠ "none"
  signs : ∀ p, p ≠ "" → ∃ t, t ≠ "" ∧ W.sign p alg keys = .ok t
  known : C.hasIssuer kj (.str iss) = .ok true
  hashes : ∀ s, ∃ h, h ≠ "" ∧
    C.leftHash (.str s) ("HS" ++ String.ofList (alg.toList.drop (alg.toList.length - 3))) = .ok (.str h)

/-! ### texts on the wire -/

/-- a text goes through a form unchanged when reading does not convert the parameter -/
theorem urlEntry_text (env : SerEnv) {sch : Schema} {k s : String} {b : Bool} {sp : Spec} {t : Ty}
    (h1 : lookupSpec sch.params k = some (b, sp)) (h2 : sp.vtyp = .single t) (h3 : sp.deser = none) (hs : s ≠ "") :
    UrlEntry env sch k (.str s) (some (.str s)) := by
  refine ⟨[s], by simp [urlPairs], .inr ⟨by simp [hs], _, rfl, fun st => ?_⟩⟩
  simp [hs, addUrl, h1, h2, h3]

/-- so does a space separated list of words -/
theorem urlEntry_words (env : SerEnv) {sch : Schema} {k : String} {ss : List String} {b : Bool} {sp : Spec}
    (h1 : lookupSpec sch.params k = some (b, sp)) (h2 : sp.vtyp = .list .str) (h3 : sp.ser = some .spSep)
    (h4 : sp.deser = some spSepDeser) (hne : ss ≠ []) (hne' : ss ≠ [""]) (hs : ∀ s ∈ ss, ' ' ∉ s.toList) :
    UrlEntry env sch k (.list (ss.map .str)) (some (.list (ss.map .str))) :=
  entry_url env sch k _ _ (.strList ⟨b, sp, h1, h2, .inr ⟨h3, h4⟩⟩ hne hne' hs)

/-- what a receiver finds behind the first `#` or `?` of the URL -/
def received (sep : Char) (url : String) : Option String := (splitFirst sep url.toList).2.map String.ofList

/-- the message in a URL is read back by the receiver -/
theorem url_received (env : SerEnv) (sch : Schema) (st : Dict) (loc : String) (frag : Bool) (hn : DNodup st) (hne : st ≠ [])
    (h : ∀ k v, (k, v) ∈ st → UrlEntry env sch k v (some v)) (hreq : ¬ RequiredMissing sch st)
    (hloc : (if frag then '#' else '?') ∉ loc.toList) :
    ∃ url q, request env sch st loc frag = .ok url ∧ received (if frag then '#' else '?') url = some q ∧
      fromUrlencoded sch [] q = .ok st := by
  obtain ⟨txt, h1, h2⟩ := url_same env sch st hn hne h hreq
  cases frag with
  | true =>
    refine ⟨loc ++ "#" ++ txt, txt, by simp [request, h1, bind, Except.bind], ?_, h2⟩
    have e : (loc ++ "#" ++ txt).toList = loc.toList ++ '#' :: txt.toList := by simp
    simp only [if_true] at hloc ⊢
    rw [received, e, splitFirst_append_sep hloc]
    simp
  | false =>
    simp only [Bool.false_eq_true, if_false] at hloc ⊢
    have hc : loc.toList.contains '?' = false := by
      rw [Bool.eq_false_iff]; intro hc; exact hloc (by simpa using hc)
    refine ⟨loc ++ "?" ++ txt, txt, by simp [request, h1, bind, Except.bind]; simpa using hloc, ?_, h2⟩
    have e : (loc ++ "?" ++ txt).toList = loc.toList ++ '?' :: txt.toList := by simp
    rw [received, e, splitFirst_append_sep hloc]
    simp

/-! ### the authorization request -/

/-- the relying party's request -/
def SignIn.request (s : SignIn) (types scope : List String) : Dict :=
  [("response_type", .list (types.map .str)), ("client_id", .str s.client), ("redirect_uri", .str s.redirect),
   ("scope", .list (scope.map .str)), ("state", .str s.state), ("nonce", .str s.nonce)]

theorem request_entries {s : SignIn} (hs : s.Named) {types scope : List String} (ht : types ≠ []) (ht' : types ≠ [""])
    (hw : ∀ x ∈ types, ' ' ∉ x.toList) (hsc : "openid" ∈ scope) (hw' : ∀ x ∈ scope, ' ' ∉ x.toList) :
    ∀ k v, (k, v) ∈ s.request types scope → UrlEntry libEnv oidc_AuthorizationRequest k v (some v) := by
  intro k v h
  simp only [SignIn.request, List.mem_cons, Prod.mk.injEq, List.not_mem_nil, or_false] at h
  rcases h with ⟨rfl, rfl⟩ | ⟨rfl, rfl⟩ | ⟨rfl, rfl⟩ | ⟨rfl, rfl⟩ | ⟨rfl, rfl⟩ | ⟨rfl, rfl⟩
  · exact urlEntry_words _ (b := false) (sp := requiredListOfSpSepStrings) (by rfl) rfl rfl rfl ht ht' hw
  · exact urlEntry_text _ (b := false) (sp := singleRequiredString) (by rfl) rfl rfl hs.client
  · exact urlEntry_text _ (b := false) (sp := singleRequiredString) (by rfl) rfl rfl hs.redirect
  · exact urlEntry_words _ (b := false) (sp := requiredListOfSpSepStrings) (by rfl) rfl rfl rfl
      (by rintro rfl; simp at hsc) (by rintro rfl; simp at hsc) hw'
  · exact urlEntry_text _ (b := false) (sp := singleOptionalString) (by rfl) rfl rfl hs.state
  · exact urlEntry_text _ (b := false) (sp := singleOptionalString) (by rfl) rfl rfl hs.nonce

theorem request_base {s : SignIn} (hs : s.Named) {types scope : List String} (ht : types ≠ []) (hsc : scope ≠ []) :
    verifyBase oidc_AuthorizationRequest (s.request types scope) = .ok () := by
  simp [verifyBase, oidc_AuthorizationRequest, verifyParams, verifyParam, SignIn.request, dget, requiredListOfSpSepStrings,
    singleRequiredString, singleOptionalString, optionalListOfSpSepStrings, singleOptionalInt, singleOptionalJson,
    VTyp.isBool, Val.truthy, hs.client, hs.redirect, hs.state, hs.nonce, ht, hsc]

/-- **C122**, the request: what the relying party asks for arrives and is accepted unchanged. -/
theorem C122_request {C : Crypto} (s : SignIn) (hs : s.Named) {types scope : List String} (ht : types ≠ []) (ht' : types ≠ [""])
    (hw : ∀ x ∈ types, ' ' ∉ x.toList) (hsc : "openid" ∈ scope) (hoff : "offline_access" ∉ scope)
    (hw' : ∀ x ∈ scope, ' ' ∉ x.toList) (loc : String) (hloc : '?' ∉ loc.toList) (jar : JarArg C) :
    ∃ url q r, request libEnv oidc_AuthorizationRequest (s.request types scope) loc false = .ok url ∧
      received '?' url = some q ∧ fromUrlencoded oidc_AuthorizationRequest [] q = .ok r ∧
      authzRequestVerify C r jar [] = .ok (s.request types scope) := by
  obtain ⟨url, q, h1, h2, h3⟩ := url_received libEnv oidc_AuthorizationRequest (s.request types scope) loc false
    (by simp [SignIn.request, DNodup, dkeys]) (by simp [SignIn.request]) (request_entries hs ht ht' hw hsc hw')
    (by
      rintro ⟨a, sp, hm, hr, ha⟩
      simp only [oidc_AuthorizationRequest, List.mem_cons, Prod.mk.injEq, List.not_mem_nil, or_false] at hm
      rcases hm with h | h | h | h | h | h | h | h | h | h | h | h | h | h | h | h | h | h | h <;> obtain ⟨rfl, rfl⟩ := h <;>
        first | exact absurd hr (by decide) | exact ha (by simp [SignIn.request, dkeys]))
    (by simpa using hloc)
  refine ⟨url, q, _, h1, h2, h3, ?_⟩
  have hc : clearVerifiedClaims (s.request types scope) = s.request types scope := by
    simp [clearVerifiedClaims, SignIn.request, ddel]
  have k1 : dget (s.request types scope) "request" = none := by simp [SignIn.request, dget]
  have k2 : dget (s.request types scope) "id_token_hint" = none := by simp [SignIn.request, dget]
  have k3 : dget (s.request types scope) "client_id" = some (.str s.client) := by simp [SignIn.request, dget]
  have k4 : dget (s.request types scope) "prompt" = none := by simp [SignIn.request, dget]
  have k5 : dget (s.request types scope) "scope" = some (.list (scope.map .str)) := by simp [SignIn.request, dget]
  have k6 : dget (s.request types scope) "nonce" = some (.str s.nonce) := by simp [SignIn.request, dget]
  have k7 : dget (s.request types scope) "response_type" = some (.list (types.map .str)) := by simp [SignIn.request, dget]
  have c1 : (Val.str "openid").contains (.list (scope.map .str)) = .ok true := (contains_str_list _ _).2 hsc
  have c2 : (Val.str "offline_access").contains (.list (scope.map .str)) = .ok false := by
    cases h : (Val.str "offline_access").contains (.list (scope.map .str)) with
    | error e => simp [Val.contains] at h
    | ok b => cases b with
      | false => rfl
      | true => exact absurd ((contains_str_list _ _).1 h) hoff
  have c3 : nonceStep (s.request types scope) [] (.list (types.map .str)) = .ok () := by
    unfold nonceStep
    cases h : (Val.str "id_token").contains (.list (types.map .str)) with
    | error e => simp [Val.contains] at h
    | ok b => cases b <;> simp [k6, matchArg, dget]
  unfold authzRequestVerify
  rw [request_base hs ht (by rintro rfl; simp at hsc), hc]
  simp [bind, Except.bind, authzArgs, dhas, dget, getR, k3, requestStep, k1, hintStep, k2, authzRequestConds, getReq, k7, c3,
    scopeStep, scopeOf, k5, c1, c2, need, consentStep, promptStep, k4]

/-! ### the ID token -/

/-- what the provider puts into the ID token, the code and the access token to be hashed included -/
def SignIn.claims (s : SignIn) : Dict :=
  [("iss", .str s.iss), ("sub", .str s.sub), ("aud", .list [.str s.client]), ("nonce", .str s.nonce),
   ("access_token", .str s.token), ("code", .str s.code)]

/-- what the signed token then says -/
def SignIn.signed (s : SignIn) (at_hash c_hash : String) (now life : Int) : Dict :=
  [("iss", .str s.iss), ("sub", .str s.sub), ("aud", .list [.str s.client]), ("nonce", .str s.nonce),
   ("at_hash", .str at_hash), ("c_hash", .str c_hash), ("iat", .int now), ("exp", .int (now + life))]

theorem signed_faithful {s : SignIn} (hs : s.Named) {a c : String} (ha : a ≠ "") (hc : c ≠ "") (now life : Int) :
    ∀ k v, (k, v) ∈ s.signed a c now life → JsonFaithful oidc_IdToken k v := by
  intro k v h
  simp only [SignIn.signed, List.mem_cons, Prod.mk.injEq, List.not_mem_nil, or_false] at h
  rcases h with ⟨rfl, rfl⟩ | ⟨rfl, rfl⟩ | ⟨rfl, rfl⟩ | ⟨rfl, rfl⟩ | ⟨rfl, rfl⟩ | ⟨rfl, rfl⟩ | ⟨rfl, rfl⟩ | ⟨rfl, rfl⟩
  · exact .str (sp := singleRequiredString) (by rfl) rfl rfl hs.iss
  · exact .str (sp := singleRequiredString) (by rfl) rfl rfl hs.sub
  · exact .strList (ss := [s.client]) (sp := requiredListOfStrings) (by rfl) rfl rfl rfl (by simp) (by simp [hs.client])
  · exact .str (sp := singleOptionalString) (by rfl) rfl rfl hs.nonce
  · exact .str (sp := singleOptionalString) (by rfl) rfl rfl ha
  · exact .str (sp := singleOptionalString) (by rfl) rfl rfl hc
  · exact .int (sp := singleRequiredInt) (by rfl) rfl rfl
  · exact .int (sp := singleRequiredInt) (by rfl) rfl rfl

theorem signed_nodup (s : SignIn) (a c : String) (now life : Int) : DNodup (s.signed a c now life) := by
  simp [SignIn.signed, DNodup, dkeys]

/-- packing gives exactly that -/
theorem pack_signed {C : Crypto} {alg : String} (s : SignIn) {a c : String} (now : Int) {life : Int} (hl : life ≠ 0)
    (h1 : C.leftHash (.str s.token) (hashAlg alg) = .ok (.str a)) (h2 : C.leftHash (.str s.code) (hashAlg alg) = .ok (.str c)) :
    pack C now alg (.int life) s.claims = .ok (s.signed a c now life) := by
  have e1 : hashOne C (hashAlg alg) s.claims "access_token" "at_hash" =
      .ok [("iss", .str s.iss), ("sub", .str s.sub), ("aud", .list [.str s.client]), ("nonce", .str s.nonce),
        ("code", .str s.code), ("at_hash", .str a)] := by
    unfold hashOne
    have : dget s.claims "access_token" = some (.str s.token) := by simp [SignIn.claims, dget]
    rw [this]
    simp only [h1]
    rw [setItem_str (by rfl)]
    simp [SignIn.claims, dset, ddel]
  have e2 : hashOne C (hashAlg alg) [("iss", .str s.iss), ("sub", .str s.sub), ("aud", .list [.str s.client]),
      ("nonce", .str s.nonce), ("code", .str s.code), ("at_hash", .str a)] "code" "c_hash" =
      .ok [("iss", .str s.iss), ("sub", .str s.sub), ("aud", .list [.str s.client]), ("nonce", .str s.nonce),
        ("at_hash", .str a), ("c_hash", .str c)] := by
    unfold hashOne
    have : dget ([("iss", .str s.iss), ("sub", .str s.sub), ("aud", .list [.str s.client]),
      ("nonce", .str s.nonce), ("code", .str s.code), ("at_hash", .str a)] : Dict) "code" = some (.str s.code) := by
      simp [dget]
    rw [this]
    simp only [h2]
    rw [setItem_str (by rfl)]
    simp [dset, ddel]
  unfold pack valHash
  simp only [e1, e2, bind, Except.bind]
  unfold packInit
  rw [setItem_int (by rfl)]
  have : (Val.int life).truthy = true := by simp [Val.truthy, hl]
  simp only [this, if_true, addInt]
  rw [setItem_int (by rfl)]
  simp [SignIn.signed, dset]

theorem signed_accepted {s : SignIn} (hs : s.Named) {a c : String} (now life now' : Int) (hexp : now' ≤ now + life)
    (hiat : now' ≤ now + 14400) (h0 : now ≠ 0) (he : now + life ≠ 0) {kw : Dict} (k1 : dget kw "iss" = some (.str s.iss))
    (k2 : dget kw "client_id" = some (.str s.client)) (k3 : dget kw "nonce" = some (.str s.nonce))
    (k4 : dget kw "skew" = none) (k5 : dget kw "nonce_storage_time" = none) :
    idTokenVerify now' (s.signed a c now life) kw = .ok () := by
  rw [C24_typed now' (now + life) now (s.signed a c now life) s.client s.iss s.iss [s.client] none kw k2 k1 k4 k5]
  · refine ⟨rfl, by simp, by simp, by simp, hexp, hiat, ?_⟩
    intro x y hx hy
    rw [k3] at hy
    cases hy
    have : dget (s.signed a c now life) "nonce" = some (.str s.nonce) := by simp [SignIn.signed, dget]
    rw [this] at hx
    cases hx
    exact (eq_str_iff _ _).2 rfl
  · rw [← C04_verify_iff]
    simp [verifyBase, oidc_IdToken, verifyParams, verifyParam, SignIn.signed, dget, singleRequiredString,
      singleOptionalString, singleOptionalInt, singleRequiredInt, requiredListOfStrings, singleOptionalBoolean,
      optionalListOfStrings, optionalMessage, VTyp.isBool, Val.truthy, hs.iss, hs.sub, h0, he]
  · intro v hv; simp [SignIn.signed, dget] at hv
  · intro v hv; simp [SignIn.signed, dget] at hv
  all_goals simp [SignIn.signed, dget]

/-- the token can be written -/
theorem loads_empty : (loads "").isOk = false := by decide +kernel

theorem token_written {C : Crypto} {W : Writer C} {alg : String} {keys : List C.Key} {kj : C.KeyJar} {s : SignIn}
    (hw : Works C W alg keys kj s.iss) (hs : s.Named) (now : Int) {life : Int} (hl : life ≠ 0) :
    ∃ t a c, t ≠ "" ∧ idTokenToJwt W now s.claims alg (.int life) keys = .ok (t, s.signed a c now life) ∧ a ≠ "" ∧ c ≠ "" := by
  obtain ⟨a, ha, ha'⟩ := hw.hashes s.token
  obtain ⟨c, hc, hc'⟩ := hw.hashes s.code
  obtain ⟨txt, h1, h2, _⟩ := C07_json_roundtrip libEnv oidc_IdToken libEnv_idToken (s.signed a c now life)
    (signed_nodup ..) (signed_faithful hs ha hc now life)
  have hne : txt ≠ "" := by
    rintro rfl
    obtain ⟨v, _, hv, _⟩ := fromJson_ok h2
    have := loads_empty
    rw [hv] at this
    cases this
  obtain ⟨t, ht, ht'⟩ := hw.signs txt hne
  refine ⟨t, a, c, ht, ?_, ha, hc⟩
  unfold idTokenToJwt
  simp only [pack_signed s now hl ha' hc', toJwt, h1, ht']

/-- the relying party's arguments -/
def SignIn.expect (s : SignIn) : Dict := [("iss", .str s.iss), ("client_id", .str s.client), ("nonce", .str s.nonce)]

theorem expect_args (s : SignIn) :
    ∀ p ∈ ddel (pick idTokenVerifyArgs s.expect) "verify", p.1 = "client_id" ∨ p.1 = "allowed_sign_alg" := by
  simp [pick, idTokenVerifyArgs, SignIn.expect, dget, ddel]

/-! ### the authorization response -/

def SignIn.response (s : SignIn) (t : String) : Dict :=
  [("state", .str s.state), ("code", .str s.code), ("access_token", .str s.token), ("token_type", .str "Bearer"),
   ("id_token", .str t)]

/-- **C122**, the response: whether in the fragment or in the query of the redirect URI, the relying party reads it,
accepts it, and finds the claims the provider signed. -/
theorem C122_response {C : Crypto} {W : Writer C} {alg : String} {keys : List C.Key} {kj : C.KeyJar} (s : SignIn)
    (hs : s.Named) (hw : Works C W alg keys kj s.iss) {now life now' : Int} (h0 : 0 < now) (hl : 0 < life)
    (hexp : now' ≤ now + life) (hiat : now' ≤ now + 14400) (loc : String) (frag : Bool)
    (hloc : (if frag then '#' else '?') ∉ loc.toList) :
    ∃ t a c url q r, idTokenToJwt W now s.claims alg (.int life) keys = .ok (t, s.signed a c now life) ∧
      request libEnv oidc_AuthorizationResponse (s.response t) loc frag = .ok url ∧
      received (if frag then '#' else '?') url = some q ∧
      fromUrlencoded oidc_AuthorizationResponse [] q = .ok r ∧
      authzResponseVerify C now' r (some (some kj)) s.expect =
        .ok (true, s.response t ++ [("__verified_id_token", .msg ⟨"oidc", "IdToken"⟩ (s.signed a c now life))]) := by
  obtain ⟨t, a, c, ht, hj, ha, hc⟩ := token_written hw hs now (life := life) (by omega)
  obtain ⟨url, q, h1, h2, h3⟩ := url_received libEnv oidc_AuthorizationResponse (s.response t) loc frag
    (by simp [SignIn.response, DNodup, dkeys]) (by simp [SignIn.response])
    (by
      intro k v h
      simp only [SignIn.response, List.mem_cons, Prod.mk.injEq, List.not_mem_nil, or_false] at h
      rcases h with ⟨rfl, rfl⟩ | ⟨rfl, rfl⟩ | ⟨rfl, rfl⟩ | ⟨rfl, rfl⟩ | ⟨rfl, rfl⟩
      · exact urlEntry_text _ (b := false) (sp := singleOptionalString) (by rfl) rfl rfl hs.state
      · exact urlEntry_text _ (b := false) (sp := singleOptionalString) (by rfl) rfl rfl hs.code
      · exact urlEntry_text _ (b := false) (sp := singleOptionalString) (by rfl) rfl rfl hs.token
      · exact urlEntry_text _ (b := false) (sp := singleOptionalString) (by rfl) rfl rfl (by decide)
      · exact urlEntry_text _ (b := false) (sp := ⟨.single messageTy, false, some .msg, none, false⟩) (by rfl) rfl rfl ht)
    (by
      rintro ⟨b, sp, hm, hr, hb⟩
      simp only [oidc_AuthorizationResponse, List.mem_cons, Prod.mk.injEq, List.not_mem_nil, or_false] at hm
      rcases hm with h | h | h | h | h | h | h | h | h | h | h | h | h | h <;> obtain ⟨rfl, rfl⟩ := h <;>
        exact absurd hr (by decide))
    hloc
  refine ⟨t, a, c, url, q, _, hj, h1, h2, h3, ?_⟩
  have hclear : clearVerifiedClaims (s.response t) = s.response t := by simp [clearVerifiedClaims, SignIn.response, ddel]
  have hacc := C87_accepted (C := C) (W := W) (now := now) (life := life) (now' := now') (alg := alg) (t := t)
    (claim := "id_token") (keys := keys) (kj := kj) (kw := s.expect) (st := s.claims) (st' := s.signed a c now life)
    (resp := s.response t) (checkHash := true) hj (signed_nodup ..) (signed_faithful hs ha hc now life) (hw.honest _ (expect_args s))
    hw.alg_ne (by intro a ha; simp [SignIn.expect, dget] at ha)
    ⟨s.iss, by simp [SignIn.signed, dget], hw.known⟩
    (signed_accepted hs now life now' hexp hiat (by omega) (by omega) (by simp [SignIn.expect, dget])
      (by simp [SignIn.expect, dget]) (by simp [SignIn.expect, dget]) (by simp [SignIn.expect, dget])
      (by simp [SignIn.expect, dget]))
    (by simp [SignIn.response, dget])
    (by
      rintro v (hv | hv) <;> simp [SignIn.claims, dget] at hv <;> subst hv
      · obtain ⟨h, _, hh⟩ := hw.hashes s.token; exact ⟨h, hh⟩
      · obtain ⟨h, _, hh⟩ := hw.hashes s.code; exact ⟨h, hh⟩)
    (by
      intro _ k hk v hv
      simp only [List.mem_cons, List.not_mem_nil, or_false] at hk
      rcases hk with rfl | rfl <;> simp [SignIn.response, dget] at hv <;> subst hv <;> simp [SignIn.claims, dget])
  have hbase : oauth2AuthzResponseVerify oidc_AuthorizationResponse (s.response t) s.expect = .ok () := by
    simp [oauth2AuthzResponseVerify, responseVerify, verifyBase, oidc_AuthorizationResponse, verifyParams, verifyParam,
      SignIn.response, dget, singleOptionalString, singleOptionalInt, optionalListOfSpSepStrings, bind, Except.bind,
      errorDescription, matchArg]
  have hme : forMe (s.response t) s.expect = .ok true := by simp [forMe, SignIn.response, dget]
  have hid : dhas (s.response t) "id_token" = true := by simp [dhas, SignIn.response, dget]
  unfold authzResponseVerify
  simp only [hbase, hclear, hme, bind, Except.bind, authzResponseRest, if_true, verifyIfPresent, hid, hacc, Except.map]
  simp [SignIn.response, dset]

/-! ### the token response -/

def SignIn.tokens (s : SignIn) (t : String) : Dict :=
  [("access_token", .str s.token), ("token_type", .str "Bearer"), ("state", .str s.state), ("id_token", .str t)]

theorem libEnv_tokens : ∀ k, libEnv oidc_AccessTokenResponse.cls k = serFor oidc_AccessTokenResponse.params k := fun _ => rfl

/-- **C122**, the token response: written as JSON it is read and accepted, with the claims the provider signed. -/
theorem C122_tokens {C : Crypto} {W : Writer C} {alg : String} {keys : List C.Key} {kj : C.KeyJar} (s : SignIn)
    (hs : s.Named) (hw : Works C W alg keys kj s.iss) {now life now' : Int} (h0 : 0 < now) (hl : 0 < life)
    (hexp : now' ≤ now + life) (hiat : now' ≤ now + 14400) :
    ∃ t a c txt r, idTokenToJwt W now s.claims alg (.int life) keys = .ok (t, s.signed a c now life) ∧
      toJson libEnv oidc_AccessTokenResponse.cls (s.tokens t) = .ok txt ∧
      fromJson oidc_AccessTokenResponse [] txt = .ok r ∧
      accessTokenResponseVerify C now' r (some (some kj)) s.expect =
        .ok (s.tokens t ++ [("__verified_id_token", .msg ⟨"oidc", "IdToken"⟩ (s.signed a c now life))]) := by
  obtain ⟨t, a, c, ht, hj, ha, hc⟩ := token_written hw hs now (life := life) (by omega)
  obtain ⟨txt, h1, h2, _⟩ := C07_json_roundtrip libEnv oidc_AccessTokenResponse libEnv_tokens (s.tokens t)
    (by simp [SignIn.tokens, DNodup, dkeys])
    (by
      intro k v h
      simp only [SignIn.tokens, List.mem_cons, Prod.mk.injEq, List.not_mem_nil, or_false] at h
      rcases h with ⟨rfl, rfl⟩ | ⟨rfl, rfl⟩ | ⟨rfl, rfl⟩ | ⟨rfl, rfl⟩
      · exact .str (sp := singleRequiredString) (by rfl) rfl rfl hs.token
      · exact .str (sp := singleRequiredString) (by rfl) rfl rfl (by decide)
      · exact .str (sp := singleOptionalString) (by rfl) rfl rfl hs.state
      · exact .str (sp := singleOptionalString) (by rfl) rfl rfl ht)
  refine ⟨t, a, c, txt, _, hj, h1, h2, ?_⟩
  have hclear : clearVerifiedClaims (s.tokens t) = s.tokens t := by simp [clearVerifiedClaims, SignIn.tokens, ddel]
  have hacc := C87_accepted (C := C) (W := W) (now := now) (life := life) (now' := now') (alg := alg) (t := t)
    (claim := "id_token") (keys := keys) (kj := kj) (kw := s.expect) (st := s.claims) (st' := s.signed a c now life)
    (resp := s.tokens t) (checkHash := false) hj (signed_nodup ..) (signed_faithful hs ha hc now life) (hw.honest _ (expect_args s))
    hw.alg_ne (by intro a ha; simp [SignIn.expect, dget] at ha)
    ⟨s.iss, by simp [SignIn.signed, dget], hw.known⟩
    (signed_accepted hs now life now' hexp hiat (by omega) (by omega) (by simp [SignIn.expect, dget])
      (by simp [SignIn.expect, dget]) (by simp [SignIn.expect, dget]) (by simp [SignIn.expect, dget])
      (by simp [SignIn.expect, dget]))
    (by simp [SignIn.tokens, dget])
    (by
      rintro v (hv | hv) <;> simp [SignIn.claims, dget] at hv <;> subst hv
      · obtain ⟨h, _, hh⟩ := hw.hashes s.token; exact ⟨h, hh⟩
      · obtain ⟨h, _, hh⟩ := hw.hashes s.code; exact ⟨h, hh⟩)
    (by simp)
  have hbase : responseVerify oidc_AccessTokenResponse (s.tokens t) = .ok () := by
    simp [responseVerify, verifyBase, oidc_AccessTokenResponse, verifyParams, verifyParam,
      SignIn.tokens, dget, singleOptionalString, singleRequiredString, singleOptionalInt, optionalListOfSpSepStrings, bind,
      Except.bind, errorDescription, Val.truthy, hs.token]
  have hid : dhas (s.tokens t) "id_token" = true := by simp [dhas, SignIn.tokens, dget]
  unfold accessTokenResponseVerify
  simp only [hbase, hclear, bind, Except.bind, verifyIfPresent, hid, if_true, hacc]
  simp [SignIn.tokens, dset]

/-! ### logout -/

/-- reading a token does not change a jar that has the keys -/
theorem honest_jar {C : Crypto} {W : Writer C} {alg p t : String} {keys : List C.Key} {kj : C.KeyJar} {sch : Schema}
    {args : Dict} {m : JwtMsg C} (hh : Honest C W alg keys kj (ddel args "verify"))
    (hst : ∀ j args ks kj', C.keys kj j args = .ok (ks, kj') → kj' = kj) (hs : W.sign p alg keys = .ok t)
    (h : fromJwt C sch t (some (some kj)) args = .ok m) : m.jar = some kj := by
  obtain ⟨hjwe, j, _, hj, ha, hp, ks, kj', hk, hks, hv⟩ := hh.reads _ _ hs
  obtain ⟨jar₀, txt', jso, d, e1, e2, _, _, e3⟩ := fromJwt_ok h
  cases e1
  have e2' : txt' = t := by
    unfold decryptStep at e2
    rw [hjwe] at e2
    cases e2
    rfl
  subst e2'
  rcases e3 with ⟨_, _, _, e⟩ | ⟨j', e4, _, _, e5⟩
  · exact e
  · rw [hj] at e4
    cases e4
    cases hst _ _ _ _ hks
    unfold sigStep at e5
    rw [ha] at e5
    dsimp only at e5
    split at e5
    · exact (Except.ok.inj e5).symm
    · split at e5
      · unfold checkSig jarKeys at e5
        simp only [hh.jar, if_true, hks] at e5
        cases ks with
        | nil => exact absurd rfl hk
        | cons k ks => simp only [hv] at e5; exact (Except.ok.inj e5).symm
      · exact (Except.ok.inj e5).symm

def SignIn.goodbye (s : SignIn) (t : String) : Dict :=
  [("id_token_hint", .str t), ("post_logout_redirect_uri", .str s.redirect), ("state", .str s.state)]

/-- **C122**, logout at the provider: the request with the ID token as a hint arrives and is accepted as long as the token is
valid. -/
theorem C122_end_session {C : Crypto} {W : Writer C} {alg : String} {keys : List C.Key} {kj : C.KeyJar} (s : SignIn)
    (hs : s.Named) (hw : Works C W alg keys kj s.iss)
    (hst : ∀ j args ks kj', C.keys kj j args = .ok (ks, kj') → kj' = kj)
    {now life now' : Int} (h0 : 0 < now) (hl : 0 < life)
    (hexp : now' ≤ now + life) (hiat : now' ≤ now + 14400) (loc : String) (hloc : '?' ∉ loc.toList) :
    ∃ t a c url q r, idTokenToJwt W now s.claims alg (.int life) keys = .ok (t, s.signed a c now life) ∧
      request libEnv session_EndSessionRequest (s.goodbye t) loc false = .ok url ∧ received '?' url = some q ∧
      fromUrlencoded session_EndSessionRequest [] q = .ok r ∧
      endSessionVerify C now' r (some (some kj)) s.expect =
        .ok (true, s.goodbye t ++ [("__verified_id_token_hint", .msg ⟨"oidc", "IdToken"⟩ (s.signed a c now life))]) := by
  obtain ⟨t, a, c, ht, hj, ha, hc⟩ := token_written hw hs now (life := life) (by omega)
  obtain ⟨url, q, h1, h2, h3⟩ := url_received libEnv session_EndSessionRequest (s.goodbye t) loc false
    (by simp [SignIn.goodbye, DNodup, dkeys]) (by simp [SignIn.goodbye])
    (by
      intro k v h
      simp only [SignIn.goodbye, List.mem_cons, Prod.mk.injEq, List.not_mem_nil, or_false] at h
      rcases h with ⟨rfl, rfl⟩ | ⟨rfl, rfl⟩ | ⟨rfl, rfl⟩
      · exact urlEntry_text _ (b := false) (sp := ⟨.single messageTy, false, some .msg, none, false⟩) (by rfl) rfl rfl ht
      · exact urlEntry_text _ (b := false) (sp := singleOptionalString) (by rfl) rfl rfl hs.redirect
      · exact urlEntry_text _ (b := false) (sp := singleOptionalString) (by rfl) rfl rfl hs.state)
    (by
      rintro ⟨b, sp, hm, hr, hb⟩
      simp only [session_EndSessionRequest, List.mem_cons, Prod.mk.injEq, List.not_mem_nil, or_false] at hm
      rcases hm with h | h | h <;> obtain ⟨rfl, rfl⟩ := h <;> exact absurd hr (by decide))
    (by simpa using hloc)
  refine ⟨t, a, c, url, q, _, hj, h1, h2, h3, ?_⟩
  have hclear : clearVerifiedClaims (s.goodbye t) = s.goodbye t := by simp [clearVerifiedClaims, SignIn.goodbye, ddel]
  have hacc := C87_accepted (C := C) (W := W) (now := now) (life := life) (now' := now') (alg := alg) (t := t)
    (claim := "id_token_hint") (keys := keys) (kj := kj) (kw := s.expect) (st := s.claims) (st' := s.signed a c now life)
    (resp := s.goodbye t) (checkHash := false) hj (signed_nodup ..) (signed_faithful hs ha hc now life) (hw.honest _ (expect_args s))
    hw.alg_ne (by intro a ha; simp [SignIn.expect, dget] at ha)
    ⟨s.iss, by simp [SignIn.signed, dget], hw.known⟩
    (signed_accepted hs now life now' hexp hiat (by omega) (by omega) (by simp [SignIn.expect, dget])
      (by simp [SignIn.expect, dget]) (by simp [SignIn.expect, dget]) (by simp [SignIn.expect, dget])
      (by simp [SignIn.expect, dget]))
    (by simp [SignIn.goodbye, dget])
    (by
      rintro v (hv | hv) <;> simp [SignIn.claims, dget] at hv <;> subst hv
      · obtain ⟨h, _, hh⟩ := hw.hashes s.token; exact ⟨h, hh⟩
      · obtain ⟨h, _, hh⟩ := hw.hashes s.code; exact ⟨h, hh⟩)
    (by simp)
  have hjwt : toJwt W libEnv oidc_IdToken.cls (s.signed a c now life) alg keys = .ok t := by
    unfold idTokenToJwt at hj
    split at hj
    · cases hj
    · split at hj
      · next h => cases hj; exact h
      · cases hj
  obtain ⟨m, _, hm, _, _, _, hmst⟩ := C86_roundtrip (args := pick idTokenVerifyArgs s.expect) libEnv_idToken
    (signed_nodup ..) (signed_faithful hs ha hc now life) (hw.honest _ (expect_args s)) hjwt
  have hmst := hmst rfl
  have hsign : ∃ p, W.sign p alg keys = .ok t := by
    unfold toJwt at hjwt
    split at hjwt
    · exact ⟨_, hjwt⟩
    · cases hjwt
  obtain ⟨p, hp⟩ := hsign
  have hjar := honest_jar (hw.honest _ (expect_args s)) hst hp hm
  have hbase : verifyBase session_EndSessionRequest (s.goodbye t) = .ok () := by
    simp [verifyBase, session_EndSessionRequest, verifyParams, verifyParam, SignIn.goodbye, dget, singleOptionalString]
  have hid : dhas (s.goodbye t) "id_token_hint" = true := by simp [dhas, SignIn.goodbye, dget]
  have hg : getR (s.goodbye t) "id_token_hint" = .ok (.str t) := by simp [getR, SignIn.goodbye, dget]
  unfold endSessionVerify
  simp only [hbase, hclear, bind, Except.bind, endSessionRest, hid, if_true, hintVerify, hg, strOf, hm, hjar, hacc, hmst,
    Except.map]
  simp [SignIn.goodbye, dset, oidc_IdToken]

/-- what a logout token says -/
def SignIn.logout (s : SignIn) (jti : String) (now : Int) : Dict :=
  [("iss", .str s.iss), ("sub", .str s.sub), ("aud", .list [.str s.client]), ("iat", .int now), ("jti", .str jti),
   ("events", .dict [("http://schemas.openid.net/event/backchannel-logout", .dict [])])]

theorem libEnv_logout : ∀ k, libEnv session_LogoutToken.cls k = serFor session_LogoutToken.params k := fun _ => rfl

theorem logout_faithful {s : SignIn} (hs : s.Named) {jti : String} (hjti : jti ≠ "") (now : Int) :
    ∀ k v, (k, v) ∈ s.logout jti now → JsonFaithful session_LogoutToken k v := by
  intro k v h
  simp only [SignIn.logout, List.mem_cons, Prod.mk.injEq, List.not_mem_nil, or_false] at h
  rcases h with ⟨rfl, rfl⟩ | ⟨rfl, rfl⟩ | ⟨rfl, rfl⟩ | ⟨rfl, rfl⟩ | ⟨rfl, rfl⟩ | ⟨rfl, rfl⟩
  · exact .str (sp := singleRequiredString) (by rfl) rfl rfl hs.iss
  · exact .str (sp := singleOptionalString) (by rfl) rfl rfl hs.sub
  · exact .strList (ss := [s.client]) (sp := requiredListOfStrings) (by rfl) rfl rfl rfl (by simp) (by simp [hs.client])
  · exact .int (sp := singleRequiredInt) (by rfl) rfl rfl
  · exact .str (sp := singleRequiredString) (by rfl) rfl rfl hjti
  · exact .json (sp := singleRequiredJson) (by rfl) rfl rfl rfl (by decide)

def SignIn.expectLogout (s : SignIn) (alg : String) : Dict :=
  [("iss", .str s.iss), ("aud", .str s.client), ("allowed_sign_alg", .str alg)]

theorem expectLogout_args (s : SignIn) (alg : String) :
    ∀ p ∈ ddel (pick idTokenVerifyArgs (s.expectLogout alg)) "verify", p.1 = "client_id" ∨ p.1 = "allowed_sign_alg" := by
  rw [show ddel (pick idTokenVerifyArgs (s.expectLogout alg)) "verify" = [("allowed_sign_alg", .str alg)] from rfl]
  intro p hp
  cases List.mem_singleton.1 hp
  exact .inr rfl

theorem logout_accepted {s : SignIn} (hs : s.Named) {jti alg : String} (hjti : jti ≠ "") {now now' : Int} (h0 : 0 < now)
    (hn : now ≤ now') {hdr : Dict} (halg : dget hdr "alg" = some (.str alg)) :
    logoutTokenVerify now' (s.logout jti now) (some hdr) (s.expectLogout alg) = .ok () := by
  rw [C30_iff]
  refine ⟨?_, by simp [SignIn.logout, dget], .inl (by simp [SignIn.logout, dget]), .inl (by simp [SignIn.logout, dget]),
    ?_, ?_, ?_, ?_⟩
  · rw [← C04_verify_iff]
    have : now ≠ 0 := by omega
    simp [verifyBase, session_LogoutToken, verifyParams, verifyParam, SignIn.logout, dget, singleRequiredString,
      singleOptionalString, singleRequiredInt, requiredListOfStrings, singleRequiredJson, VTyp.isBool, Val.truthy, hs.iss,
      this, hjti]
  · intro aud a h1 h2
    simp only [SignIn.logout, SignIn.expectLogout, dget] at h1 h2
    simp at h1 h2
    subst h1 h2
    exact (contains_str_list _ [_]).2 (by simp)
  · intro x y h1 h2
    simp only [SignIn.logout, SignIn.expectLogout, dget] at h1 h2
    simp at h1 h2
    subst h1 h2
    exact (eq_str_iff _ _).2 rfl
  · intro v hv
    simp only [SignIn.logout, dget] at hv
    simp at hv
    subst hv
    refine ⟨0, now, .inl ⟨by simp [SignIn.expectLogout, dget], rfl⟩, rfl, ?_⟩
    rw [Rat.add_zero]
    exact Rat.intCast_le_intCast.2 hn
  · intro x hx _
    have hx' : dget (s.expectLogout alg) "allowed_sign_alg" = some (.str alg) := by simp [SignIn.expectLogout, dget]
    cases hx'.symm.trans hx
    exact ⟨hdr, _, rfl, halg, (eq_str_iff _ _).2 rfl⟩

/-- **C122**, back-channel logout: a logout token, sent as a form, is accepted once the receiver's clock has reached the time
of issue. -/
theorem C122_back_channel {C : Crypto} {W : Writer C} {alg : String} {keys : List C.Key} {kj : C.KeyJar} (s : SignIn)
    (hs : s.Named) (hw : Works C W alg keys kj s.iss) {jti : String} (hjti : jti ≠ "") {now now' : Int} (h0 : 0 < now)
    (hn : now ≤ now') :
    ∃ t txt r, toJwt W libEnv session_LogoutToken.cls (s.logout jti now) alg keys = .ok t ∧
      toUrlencoded libEnv session_BackChannelLogoutRequest [("logout_token", .str t)] = .ok txt ∧
      fromUrlencoded session_BackChannelLogoutRequest [] txt = .ok r ∧
      backChannelVerify C now' r (some (some kj)) (s.expectLogout alg) =
        .ok [("logout_token", .str t), ("__verified_logout_token", .msg ⟨"session", "LogoutToken"⟩ (s.logout jti now))] := by
  have hf := logout_faithful hs hjti now
  have hnd : DNodup (s.logout jti now) := by simp [SignIn.logout, DNodup, dkeys]
  obtain ⟨txt, h1, h2, _⟩ := C07_json_roundtrip libEnv session_LogoutToken libEnv_logout (s.logout jti now) hnd hf
  have hne : txt ≠ "" := by
    rintro rfl
    obtain ⟨v, _, hv, _⟩ := fromJson_ok h2
    have := loads_empty
    rw [hv] at this
    cases this
  obtain ⟨t, ht, ht'⟩ := hw.signs txt hne
  have hjwt : toJwt W libEnv session_LogoutToken.cls (s.logout jti now) alg keys = .ok t := by
    simp only [toJwt, h1, ht']
  obtain ⟨q, q1, q2⟩ := url_same libEnv session_BackChannelLogoutRequest [("logout_token", .str t)]
    (by simp [DNodup, dkeys]) (by simp)
    (by
      intro k v h
      simp only [List.mem_cons, Prod.mk.injEq, List.not_mem_nil, or_false] at h
      obtain ⟨rfl, rfl⟩ := h
      exact urlEntry_text _ (b := false) (sp := singleRequiredString) (by rfl) rfl rfl ht)
    (by
      rintro ⟨b, sp, hm, hr, hb⟩
      simp only [session_BackChannelLogoutRequest, List.mem_cons, Prod.mk.injEq, List.not_mem_nil, or_false] at hm
      obtain ⟨rfl, rfl⟩ := hm
      exact hb (by simp [dkeys]))
  refine ⟨t, q, _, hjwt, q1, q2, ?_⟩
  obtain ⟨m, hdr, hm, hhdr, halg, _, hmst⟩ := C86_roundtrip (args := pick idTokenVerifyArgs (s.expectLogout alg)) libEnv_logout hnd hf
    (hw.honest _ (expectLogout_args s alg)) hjwt
  have hmst := hmst rfl
  have hv := logout_accepted hs hjti h0 hn halg
  have hfmt : formatOk (.msg session_LogoutToken.cls (s.logout jti now)) = .ok () := by
    obtain ⟨d, e1, _⟩ := toDict_roundtrip libEnv session_LogoutToken libEnv_logout (s.logout jti now) hf
    simp only [formatOk, e1]
  have hbase : verifyBase session_BackChannelLogoutRequest [("logout_token", .str t)] = .ok () := by
    simp [verifyBase, session_BackChannelLogoutRequest, verifyParams, verifyParam, dget, singleRequiredString, Val.truthy, ht]
  have hg : getR [("logout_token", .str t)] "logout_token" = .ok (.str t) := rfl
  unfold backChannelVerify
  simp only [hbase, bind, Except.bind, hg, strOf, hm, hmst, hhdr, hv, hfmt]
  simp [dset, session_LogoutToken]

/-! ### the hypotheses can be met -/

theorem plain_works : Works plainCrypto plainWriter "HS256" [()] () "https://op" :=
  ⟨fun args _ => plain_honest args, by decide, fun p hp => ⟨p, hp, rfl⟩, rfl, fun _ => ⟨"hash", by decide, rfl⟩⟩

def plainSignIn : SignIn :=
  { iss := "https://op", sub := "diana", client := "client", redirect := "https://rp/cb?x=1", nonce := "n", state := "s",
    code := "c", token := "t" }

theorem plain_named : plainSignIn.Named := by constructor <;> decide

example := C122_request (C := plainCrypto) plainSignIn plain_named (types := ["code", "id_token", "token"])
  (scope := ["openid", "email"]) (by decide) (by decide) (by decide) (by decide) (by decide) (by decide) "https://op/auth"
  (by decide) none

example (frag : Bool) := C122_response plainSignIn plain_named plain_works (now := 1000) (life := 300) (now' := 1120) (by decide)
  (by decide) (by decide) (by decide) "https://rp/cb" frag (by cases frag <;> decide)

example : ∃ t a c txt r, idTokenToJwt plainWriter 1000 plainSignIn.claims "HS256" (.int 300) [()] =
      .ok (t, plainSignIn.signed a c 1000 300) ∧
      toJson libEnv oidc_AccessTokenResponse.cls (plainSignIn.tokens t) = .ok txt ∧
      fromJson oidc_AccessTokenResponse [] txt = .ok r ∧
      accessTokenResponseVerify plainCrypto 1120 r (some (some ())) plainSignIn.expect =
        .ok (plainSignIn.tokens t ++ [("__verified_id_token", .msg ⟨"oidc", "IdToken"⟩ (plainSignIn.signed a c 1000 300))]) :=
  C122_tokens plainSignIn plain_named plain_works (by decide) (by decide) (by decide) (by decide)

example := C122_end_session plainSignIn plain_named plain_works (fun _ _ _ _ h => by cases h; rfl) (now := 1000) (life := 300)
  (now' := 1120) (by decide) (by decide) (by decide) (by decide) "https://op/end" (by decide)

example := C122_back_channel plainSignIn plain_named plain_works (jti := "j") (by decide) (now := 1000) (now' := 1001)
  (by decide) (by decide)

end Verif
