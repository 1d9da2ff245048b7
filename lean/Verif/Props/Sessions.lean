import Verif.Props.Authentic

/-!
# C148: every sign-in goes back to a token signed for it

Runs of any number of issuers and of sessions at relying parties, with a network that delivers whatever it likes.  A session
stands for one authentication request: it knows the issuer, the client and the nonce of this request.
-/

namespace Verif

/-- a session at a relying party, and the keyword arguments with which it verifies what it receives -/
structure Session where
  iss : String
  client : String
  nonce : String
  args : Dict

/-- The arguments name issuer, client and nonce of the session and leave verification on. -/
structure Session.Proper (s : Session) : Prop where
  strict : Strict s.args
  iss : dget s.args "iss" = some (.str s.iss)
  client : dget s.args "client_id" = some (.str s.client)
  nonce : dget s.args "nonce" = some (.str s.nonce)

/-- what happens in a run -/
inductive Happens where
  /-- the payload is signed with a key of the issuer -/
  | signs (iss : String) (p : Val)
  /-- the session accepts a message; what is in the slot of the verified ID token then -/
  | accepts (s : Session) (slot : Option Val)

/-- the payload has been signed -/
def SignedIn (l : List Happens) (iss : String) (p : Val) : Prop := .signs iss p ∈ l

/-- The runs, latest event first.  Messages are arbitrary; the signature library a session uses at some time accepts only what
has been signed by then. -/
inductive Run : List Happens → Prop
  | start : Run []
  | signs {l : List Happens} (iss : String) (p : Val) : Run l → Run (.signs iss p :: l)
  | response {l : List Happens} {C : Crypto} {now : Int} {s : Session} {st st' : Dict} {jar : JarArg C} : Run l →
      Trustworthy C (SignedIn l) → s.Proper → dget st "id_token" ≠ none →
      authzResponseVerify C now st jar s.args = .ok (true, st') → Run (.accepts s (dget st' "__verified_id_token") :: l)
  | tokens {l : List Happens} {C : Crypto} {now : Int} {s : Session} {st st' : Dict} {jar : JarArg C} : Run l →
      Trustworthy C (SignedIn l) → s.Proper → dget st "id_token" ≠ none →
      accessTokenResponseVerify C now st jar s.args = .ok st' → Run (.accepts s (dget st' "__verified_id_token") :: l)

/-- The claims in the slot are those of a payload signed for this session: by its issuer, for its client, and with no other
nonce. -/
structure SignedFor (l : List Happens) (s : Session) (slot : Option Val) (p : Val) : Prop where
  signed : .signs s.iss p ∈ l
  read : ∃ d claims, p.itemsOf = .ok d ∧ fromDictR oidc_IdToken [] d = .ok claims ∧
    slot = some (.msg oidc_IdToken.cls claims) ∧ (∃ aud, dget d "aud" = some aud ∧ NamesAudience aud s.client) ∧
    ∀ n, dget claims "nonce" = some (.str n) → n = s.nonce

theorem run_suffix {l l' : List Happens} (h : Run (l ++ l')) : Run l' := by
  induction l with
  | nil => exact h
  | cons e l ih =>
    apply ih
    cases h with
    | signs _ _ h => exact h
    | response h _ _ _ _ => exact h
    | tokens h _ _ _ _ => exact h

theorem signedFor_of {l : List Happens} {now : Int} {s : Session} (hp : s.Proper) {slot : Option Val}
    (h : AuthenticSlot (SignedIn l) now s.iss s.client s.args slot) : ∃ p, SignedFor l s slot p := by
  obtain ⟨p, d, claims, h1, h2, h3, h4, _, _, h7, _, h9⟩ := h.claims
  refine ⟨p, h1, d, claims, h2, h3, h4, h7, ?_⟩
  intro n hn
  have := h9 _ _ hn hp.nonce
  rw [eq_str_iff, Val.str.injEq] at this
  exact this

/-- **C148, agreement.**  Whenever a session accepts, its issuer had signed before a payload with the claims it finds, for its
client, and with no other nonce than its own. -/
theorem C148_agreement {l l' : List Happens} {s : Session} {slot : Option Val} (h : Run (l ++ .accepts s slot :: l')) :
    ∃ p, SignedFor l' s slot p := by
  have h' := run_suffix h
  cases h' with
  | response _ hC hp hid hv => exact signedFor_of hp (C116_authz_response hC hp.strict hp.iss hp.client hid hv)
  | tokens _ hC hp hid hv => exact signedFor_of hp (C116_token_response hC hp.strict hp.iss hp.client hid hv)

/-- The payload is an object that carries this nonce. -/
def HasNonce (p : Val) (n : String) : Prop := ∃ d, p = .dict d ∧ DNodup d ∧ dget d "nonce" = some (.str n) ∧ n ≠ ""

theorem nonce_read {d claims : Dict} {n : String} (hd : DNodup d) (hn : dget d "nonce" = some (.str n)) (hne : n ≠ "")
    (h : fromDictR oidc_IdToken [] d = .ok claims) : dget claims "nonce" = some (.str n) := by
  have h' : fromDict oidc_IdToken [] d = (claims, none) := by
    unfold fromDictR at h
    split at h <;> simp_all
  obtain ⟨st1, st2, h1, h2, h3⟩ := fromDict_get_mem hd h' hn
  rw [h3]
  unfold addItem at h2
  rw [if_neg (by simp [isBlank, hne])] at h2
  rw [show lookupSpec oidc_IdToken.params "nonce" = some (false, singleOptionalString) from rfl] at h2
  simp only [Bool.false_and, Bool.false_eq_true, if_false] at h2
  unfold addValue at h2
  rw [if_neg (by simp [ignoredList])] at h2
  simp [singleOptionalString, singleValue, Ty.isInst] at h2
  rw [← h2, dget_dset_same]

/-- **C148, one session for a nonce.**  If the issuers put a nonce into everything they sign, a session accepts only claims
that were signed with its own nonce. -/
theorem C148_own_nonce {l l' : List Happens} {s : Session} {slot : Option Val} (h : Run (l ++ .accepts s slot :: l'))
    (hn : ∀ iss p, .signs iss p ∈ l' → ∃ n, HasNonce p n) :
    ∃ p, SignedFor l' s slot p ∧ HasNonce p s.nonce := by
  obtain ⟨p, hp⟩ := C148_agreement h
  obtain ⟨n, d, rfl, h1, h2, h3⟩ := hn _ _ hp.signed
  obtain ⟨d', claims, e1, e2, _, _, e5⟩ := hp.read
  cases e1
  have := e5 n (nonce_read h1 h2 h3 e2)
  subst this
  exact ⟨_, hp, d, rfl, h1, h2, h3⟩

/-- the signed payloads of a run -/
def payloads (l : List Happens) : List Val :=
  l.filterMap (fun e => match e with
    | .signs _ p => some p
    | .accepts _ _ => none)

theorem mem_payloads {l : List Happens} {iss : String} {p : Val} (h : .signs iss p ∈ l) : p ∈ payloads l :=
  List.mem_filterMap.2 ⟨_, h, rfl⟩

/-- Different things that each have a partner in a list, no two the same partner, are no more than the list is long. -/
theorem length_le_of_partners {α β : Type} (R : α → β → Prop) (hR : ∀ a a' b, R a b → R a' b → a = a') :
    ∀ (as : List α) (bs : List β), as.Nodup → (∀ a ∈ as, ∃ b ∈ bs, R a b) → as.length ≤ bs.length
  | [], _, _, _ => Nat.zero_le _
  | a :: as, bs, hn, h => by
    obtain ⟨b, hb, hab⟩ := h a (by simp)
    obtain ⟨b1, b2, rfl⟩ := List.append_of_mem hb
    have hn' := List.nodup_cons.1 hn
    have := length_le_of_partners R hR as (b1 ++ b2) hn'.2 (by
      intro a' ha'
      obtain ⟨b', hb', hr⟩ := h a' (by simp [ha'])
      refine ⟨b', ?_, hr⟩
      simp only [List.mem_append, List.mem_cons] at hb' ⊢
      rcases hb' with hb' | rfl | hb'
      · exact .inl hb'
      · exact absurd (hR _ _ _ hab hr) (fun e => hn'.1 (e ▸ ha'))
      · exact .inr hb')
    simp only [List.length_append, List.length_cons] at this ⊢
    omega

/-- **C148, no replay.**  If the issuers put a nonce into everything they sign, then there are at least as many signed payloads
as there are nonces whose sessions accepted something: no signed payload serves two of them. -/
theorem C148_no_replay {l : List Happens} (h : Run l) (hn : ∀ iss p, .signs iss p ∈ l → ∃ n, HasNonce p n)
    (nonces : List String) (hd : nonces.Nodup) (ha : ∀ n ∈ nonces, ∃ s slot, s.nonce = n ∧ .accepts s slot ∈ l) :
    nonces.length ≤ (payloads l).length := by
  refine length_le_of_partners (fun n p => HasNonce p n) ?_ nonces (payloads l) hd ?_
  · rintro a a' p ⟨d, rfl, _, h1, _⟩ ⟨d', e, _, h2, _⟩
    cases e
    rw [h1] at h2
    cases h2
    rfl
  · intro n hm
    obtain ⟨s, slot, rfl, hs⟩ := ha n hm
    obtain ⟨l1, l2, rfl⟩ := List.append_of_mem hs
    obtain ⟨p, hp, hpn⟩ := C148_own_nonce h (fun iss p hm => hn iss p (by simp [hm]))
    exact ⟨p, mem_payloads (iss := s.iss) (by simp [hp.signed]), hpn⟩

/-! ## the hypotheses can be met, and are needed -/

/-- a library that knows one signed token -/
def oneToken (claims : Dict) : Crypto :=
  toyCrypto [("T", ⟨[("alg", .str "RS256")], .ok (.dict claims)⟩)] ["https://op"] ["T"]

theorem oneToken_trustworthy {claims : Dict} (hn : DNodup claims) (hi : dget claims "iss" = some (.str "https://op"))
    {l : List Happens} (h : .signs "https://op" (.dict claims) ∈ l) : Trustworthy (oneToken claims) (SignedIn l) where
  stable := by intro _ _ _ _ _ _ _; rfl
  text := by
    intro v j h
    cases v <;> simp [oneToken, toyCrypto] at h
    exact ⟨_, rfl⟩
  parse := by
    intro t j a oj h h'
    simp only [oneToken, toyCrypto, Except.ok.injEq] at h h'
    rw [← h', h]
  plain := by
    intro t j a ow _ h
    cases h; rfl
  payload := by
    intro v j p d h hp hd
    cases v <;> simp [oneToken, toyCrypto, dget] at h
    obtain ⟨_, rfl⟩ := h
    cases hp
    cases hd
    exact hn
  sound := by
    intro kj t j kw ks p d i ht _ _ hp hd hii
    simp only [oneToken, toyCrypto, Except.ok.injEq] at ht
    have := dget_mem ht
    simp only [List.mem_cons, Prod.mk.injEq, List.not_mem_nil, or_false] at this
    obtain ⟨_, rfl⟩ := this
    cases hp
    cases hd
    rw [hi] at hii
    cases hii
    exact h

/-- the session for a request with this nonce -/
def sessionOf (nonce : String) : Session :=
  ⟨"https://op", "client", nonce, [("iss", .str "https://op"), ("client_id", .str "client"), ("nonce", .str nonce)]⟩

theorem sessionOf_proper (nonce : String) : (sessionOf nonce).Proper where
  strict := ⟨by intro v h; simp [sessionOf, dget] at h, by simp [sessionOf, dget], .inl rfl⟩
  iss := rfl
  client := rfl
  nonce := rfl

/-- a response with the token -/
def oneResponse : Dict := [("id_token", .str "T")]

/-- A session accepts the one token. -/
theorem accepts_one {claims : Dict} (hn : DNodup claims) (hi : dget claims "iss" = some (.str "https://op")) {nonce : String}
    (hv : authzResponseVerify (oneToken claims) 1500 oneResponse (some (some ())) (sessionOf nonce).args =
      .ok (true, oneResponse ++ [("__verified_id_token", .msg oidc_IdToken.cls claims)]))
    {l : List Happens} (h : .signs "https://op" (.dict claims) ∈ l) (hr : Run l) :
    Run (.accepts (sessionOf nonce) (some (.msg oidc_IdToken.cls claims)) :: l) :=
  Run.response (s := sessionOf nonce) hr (oneToken_trustworthy hn hi h) (sessionOf_proper nonce)
    (by simp [oneResponse, dget]) hv

/-- A sign-in: the token with the nonce of the session is signed, delivered and accepted. -/
example : Run [.accepts (sessionOf "n") (some (.msg oidc_IdToken.cls toyClaims)), .signs "https://op" (.dict toyClaims)] ∧
    HasNonce (.dict toyClaims) "n" :=
  ⟨accepts_one (by unfold DNodup; decide) rfl (by decide +kernel) (by simp) (.signs _ _ .start),
    ⟨_, rfl, by unfold DNodup; decide, rfl, by decide⟩⟩

/-- claims without a nonce -/
def noNonce : Dict :=
  [("iss", .str "https://op"), ("sub", .str "s"), ("aud", .list [.str "client"]), ("exp", .int 2000), ("iat", .int 1000)]

/-- **C148 fails for tokens without a nonce.**  One token, signed once, is accepted by the sessions of two requests with
different nonces: the nonce of a request is not insisted on. -/
theorem C148_counterexample_replay :
    Run [.accepts (sessionOf "b") (some (.msg oidc_IdToken.cls noNonce)),
      .accepts (sessionOf "a") (some (.msg oidc_IdToken.cls noNonce)), .signs "https://op" (.dict noNonce)] :=
  accepts_one (by unfold DNodup; decide) rfl (by decide +kernel) (by simp)
    (accepts_one (by unfold DNodup; decide) rfl (by decide +kernel) (by simp) (.signs _ _ .start))

end Verif
