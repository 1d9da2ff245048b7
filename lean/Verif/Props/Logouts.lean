import Verif.Props.Sessions
import Verif.Props.TokenRoles

/-!
# C150: every logout goes back to a logout token of the issuer

The same guarantees of the signature library as for C116, and one more.  Runs as for C148, with sign-ins and logouts.
-/

namespace Verif

/-- How a relying party verifies back-channel logout requests: for its issuer, for its client, with the algorithm it has
registered, and with verification left on. -/
structure LogoutArgs (iss client : String) (kw : Dict) : Prop where
  iss : dget kw "iss" = some (.str iss)
  aud : dget kw "aud" = some (.str client)
  alg : ∃ a, dget kw "allowed_sign_alg" = some (.str a) ∧ a ≠ "none" ∧ a ≠ ""
  verify : ∀ v, dget kw "verify" = some v → v.truthy = true

/-- Moreover, the expected algorithm does not make a token of a text that is none. -/
structure TrustworthyJws (C : Crypto) (Signed : String → Val → Prop) : Prop extends Trustworthy C Signed where
  same : ∀ t j a, C.jws (.str t) a = .ok (some j) → C.jws (.str t) none = .ok (some j)

/-- The claims in the slot are those of a logout token which this issuer signed for this client. -/
structure LogoutSlot (Signed : String → Val → Prop) (now : Int) (iss client : String) (kw : Dict) (slot : Option Val) (p : Val) :
    Prop where
  signed : Signed iss p
  claims : ∃ d claims, p.itemsOf = .ok d ∧ DNodup d ∧ fromDictR session_LogoutToken [] d = .ok claims ∧
    slot = some (.msg session_LogoutToken.cls claims) ∧ dget d "iss" = some (.str iss) ∧
    (∃ aud, dget d "aud" = some aud ∧ NamesAudience aud client) ∧ dget d "events" ≠ none ∧ dget d "jti" ≠ none ∧
    EventsOk claims ∧ (dget claims "sub" ≠ none ∨ dget claims "sid" ≠ none) ∧
    (∀ n, dget d "nonce" = some (.str n) → n = "") ∧
    ∃ skew iat, NumArg kw "skew" 0 skew ∧ NumAt claims "iat" iat ∧ iat ≤ (now : Rat) + skew

/-- **C150, one request.**  An accepted logout request carries a logout token which the expected issuer signed for this client. -/
theorem C150_request {C : Crypto} {Signed : String → Val → Prop} (hC : TrustworthyJws C Signed) {now : Int} {st : Dict}
    {jar : JarArg C} {kw st' : Dict} {iss client : String} (ha : LogoutArgs iss client kw)
    (h : backChannelVerify C now st jar kw = .ok st') :
    ∃ p, LogoutSlot Signed now iss client kw (dget st' "__verified_logout_token") p := by
  obtain ⟨v, m, h1, h2, h3, h4, _⟩ := C31_backchannel C now st jar kw st' h
  obtain ⟨c1, _, c3, c4, c5, c6, c7, c8⟩ := (C30_iff _ _ _ _).1 h3
  obtain ⟨a, ea, ha1, ha2⟩ := ha.alg
  obtain ⟨hdr, alg, hh, halg, he⟩ := c8 (.str a) ea (by simp [Val.truthy, ha2])
  rw [eq_str_iff] at he
  subst he
  have hva : ∀ w, dget (pick idTokenVerifyArgs kw) "verify" = some w → w.truthy = true := by
    intro w hw
    rw [dget_pick] at hw
    split at hw
    · exact ha.verify w hw
    · cases hw
  obtain ⟨kj, txt, j, ks, d, _, _, _, e3, hk, hvc, hp, hf⟩ := C19_signature C hC.stable _ _ _ _ m h2 hva hdr hh
    (by rw [halg]; simp [ha1])
  have hj := hC.same _ _ _ e3
  obtain ⟨p, hp, hi⟩ : ∃ p, j.payload = .ok p ∧ p.itemsOf = .ok d := by
    rcases hp with hp | ⟨c, hp⟩
    · exact ⟨_, hp, rfl⟩
    · exact ⟨_, hp, rfl⟩
  have hn := hC.payload _ _ _ _ hj hp hi
  have hf' : fromDictR session_LogoutToken [] d = .ok m.st := hf
  obtain ⟨w, hw, hg⟩ := (c1 "iss" singleRequiredString (by simp [session_LogoutToken]) (by decide)).1 rfl
  obtain ⟨i, rfl, hsrc⟩ := iss_source_of rfl hn hf' hw (hg.resolve_right (by simp [singleRequiredString]))
  have ei := c6 _ _ hw ha.iss
  rw [eq_str_iff, Val.str.injEq] at ei
  subst ei
  obtain ⟨aud, haud, _⟩ := (c1 "aud" requiredListOfStrings (by simp [session_LogoutToken]) (by decide)).1 rfl
  obtain ⟨iat, hiat, _⟩ := (c1 "iat" singleRequiredInt (by simp [session_LogoutToken]) (by decide)).1 rfl
  obtain ⟨skew, x, k1, k2, k3⟩ := c7 _ hiat
  refine ⟨p, hC.sound _ _ _ _ _ _ _ _ hj hk hvc hp hi hsrc, d, m.st, hi, hn, hf', h4, hsrc,
    aud_source_of rfl hn hf' haud (c5 _ _ haud ha.aud), ?_, ?_, c3, c4, ?_, skew, x, k1, ⟨_, hiat, k2⟩, k3⟩
  · intro e; exact C112_events (.inl e) hf' _ _ _ h3
  · intro e; exact C112_events (.inr e) hf' _ _ _ h3
  · intro n hnn
    by_cases hne : n = ""
    · exact hne
    · exact absurd h3 (C112_nonce hn hnn (by simp [hne]) (by simp) hf' _ _ _)

/-! ## runs -/

/-- what happens in a run -/
inductive Deed where
  /-- the payload is signed with a key of the issuer -/
  | signs (iss : String) (p : Val)
  /-- a session accepts a response -/
  | signsIn (s : Session) (slot : Option Val)
  /-- a client of an issuer accepts a logout request -/
  | signsOut (iss client : String) (slot : Option Val)

def SignedBy (l : List Deed) (iss : String) (p : Val) : Prop := .signs iss p ∈ l

/-- The runs, latest event first; messages are arbitrary. -/
inductive Life : List Deed → Prop
  | start : Life []
  | signs {l : List Deed} (iss : String) (p : Val) : Life l → Life (.signs iss p :: l)
  | response {l : List Deed} {C : Crypto} {now : Int} {s : Session} {st st' : Dict} {jar : JarArg C} : Life l →
      Trustworthy C (SignedBy l) → s.Proper → dget st "id_token" ≠ none →
      authzResponseVerify C now st jar s.args = .ok (true, st') → Life (.signsIn s (dget st' "__verified_id_token") :: l)
  | logout {l : List Deed} {C : Crypto} {now : Int} {iss client : String} {st st' kw : Dict} {jar : JarArg C} : Life l →
      TrustworthyJws C (SignedBy l) → LogoutArgs iss client kw → backChannelVerify C now st jar kw = .ok st' →
      Life (.signsOut iss client (dget st' "__verified_logout_token") :: l)

theorem life_suffix {l l' : List Deed} (h : Life (l ++ l')) : Life l' := by
  induction l with
  | nil => exact h
  | cons e l ih =>
    apply ih
    cases h <;> assumption

/-- **C150, runs.**  Whenever a client is logged out, its issuer has signed a logout token for it before. -/
theorem C150_run {l l' : List Deed} {iss client : String} {slot : Option Val} (h : Life (l ++ .signsOut iss client slot :: l')) :
    ∃ p now kw, LogoutSlot (SignedBy l') now iss client kw slot p := by
  have h' := life_suffix h
  cases h' with
  | logout _ hC ha hv =>
    obtain ⟨p, hp⟩ := C150_request hC ha hv
    exact ⟨p, _, _, hp⟩

/-- **C150, no logout by sign-ins.**  An issuer that has signed nothing but payloads with a nonce, as in ID tokens, has
logged nobody out. -/
theorem C150_no_logout {l : List Deed} (h : Life l) (iss : String)
    (hn : ∀ p, .signs iss p ∈ l → ∃ n, HasNonce p n) (client : String) (slot : Option Val) : .signsOut iss client slot ∉ l := by
  intro hm
  obtain ⟨l1, l2, rfl⟩ := List.append_of_mem hm
  obtain ⟨p, now, kw, hp⟩ := C150_run h
  obtain ⟨n, d, rfl, _, h2, h3⟩ := hn p (by simp only [List.mem_append, List.mem_cons]; exact .inr (.inr hp.signed))
  obtain ⟨d', _, e, _, _, _, _, _, _, _, _, _, e2, _⟩ := hp.claims
  cases e
  exact h3 (e2 n h2)

/-! ## the hypotheses can be met, and a logout token serves any number of times -/

theorem oneToken_trustworthyBy {claims : Dict} (hn : DNodup claims) (hi : dget claims "iss" = some (.str "https://op"))
    {l : List Deed} (h : .signs "https://op" (.dict claims) ∈ l) : TrustworthyJws (oneToken claims) (SignedBy l) where
  stable := by intro _ _ _ _ _ _ _; rfl
  text := by
    intro v j h
    cases v <;> simp [oneToken, toyCrypto] at h
    exact ⟨_, rfl⟩
  parse := by
    intro t j a oj h h'
    simp only [oneToken, toyCrypto, Except.ok.injEq] at h h'
    rw [← h', h]
  plain := by
    intro t j a ow _ h
    cases h; rfl
  payload := by
    intro v j p d h hp hd
    cases v <;> simp [oneToken, toyCrypto, dget] at h
    obtain ⟨_, rfl⟩ := h
    cases hp
    cases hd
    exact hn
  sound := by
    intro kj t j kw ks p d i ht _ _ hp hd hii
    simp only [oneToken, toyCrypto, Except.ok.injEq] at ht
    have := dget_mem ht
    simp only [List.mem_cons, Prod.mk.injEq, List.not_mem_nil, or_false] at this
    obtain ⟨_, rfl⟩ := this
    cases hp
    cases hd
    rw [hi] at hii
    cases hii
    exact h
  same := by
    intro t j a h
    exact h

/-- a logout token -/
def oneLogout : Dict :=
  [("iss", .str "https://op"), ("aud", .list [.str "client"]), ("iat", .int 1000), ("jti", .str "1"),
   ("events", .dict [("http://schemas.openid.net/event/backchannel-logout", .dict [])]), ("sub", .str "s")]

def oneLogoutArgs : Dict := [("iss", .str "https://op"), ("aud", .str "client"), ("allowed_sign_alg", .str "RS256")]

theorem oneLogoutArgs_ok : LogoutArgs "https://op" "client" oneLogoutArgs where
  iss := rfl
  aud := rfl
  alg := ⟨"RS256", rfl, by decide, by decide⟩
  verify := by intro v h; simp [oneLogoutArgs, dget] at h

theorem signsOut_one {now : Int}
    (hv : backChannelVerify (oneToken oneLogout) now [("logout_token", .str "T")] (some (some ())) oneLogoutArgs =
      .ok [("logout_token", .str "T"), ("__verified_logout_token", .msg session_LogoutToken.cls oneLogout)])
    {l : List Deed} (h : .signs "https://op" (.dict oneLogout) ∈ l) (hl : Life l) :
    Life (.signsOut "https://op" "client" (some (.msg session_LogoutToken.cls oneLogout)) :: l) :=
  Life.logout hl (oneToken_trustworthyBy (by unfold DNodup; decide) rfl h) oneLogoutArgs_ok hv

/-- **C150 fails for replays.**  One logout token, signed once, logs the client out again, however long ago it was
signed (here, almost 32 years): its identifier is not remembered and its age is not looked at. -/
theorem C150_counterexample_replay :
    (∀ now, now = 1001 ∨ now = 1000000000 →
      backChannelVerify (oneToken oneLogout) now [("logout_token", .str "T")] (some (some ())) oneLogoutArgs =
        .ok [("logout_token", .str "T"), ("__verified_logout_token", .msg session_LogoutToken.cls oneLogout)]) ∧
    Life [.signsOut "https://op" "client" (some (.msg session_LogoutToken.cls oneLogout)),
      .signsOut "https://op" "client" (some (.msg session_LogoutToken.cls oneLogout)),
      .signs "https://op" (.dict oneLogout)] := by
  have hv : ∀ now, now = 1001 ∨ now = 1000000000 →
      backChannelVerify (oneToken oneLogout) now [("logout_token", .str "T")] (some (some ())) oneLogoutArgs =
        .ok [("logout_token", .str "T"), ("__verified_logout_token", .msg session_LogoutToken.cls oneLogout)] := by
    rintro now (rfl | rfl) <;> decide +kernel
  exact ⟨hv, signsOut_one (hv _ (.inr rfl)) (by simp) (signsOut_one (hv _ (.inl rfl)) (by simp) (.signs _ _ .start))⟩

theorem signsIn_one
    (hv : authzResponseVerify (oneToken toyClaims) 1500 oneResponse (some (some ())) (sessionOf "n").args =
      .ok (true, oneResponse ++ [("__verified_id_token", .msg oidc_IdToken.cls toyClaims)]))
    {l : List Deed} (h : .signs "https://op" (.dict toyClaims) ∈ l) (hl : Life l) :
    Life (.signsIn (sessionOf "n") (some (.msg oidc_IdToken.cls toyClaims)) :: l) :=
  Life.response (s := sessionOf "n") hl (oneToken_trustworthyBy (by unfold DNodup; decide) rfl h).toTrustworthy
    (sessionOf_proper "n") (by simp [oneResponse, dget]) hv

/-- A life with a sign-in only: the hypotheses of `C150_no_logout`. -/
example : Life [.signsIn (sessionOf "n") (some (.msg oidc_IdToken.cls toyClaims)), .signs "https://op" (.dict toyClaims)] ∧
    HasNonce (.dict toyClaims) "n" :=
  ⟨signsIn_one (by decide +kernel) (by simp) (.signs _ _ .start), ⟨_, rfl, by unfold DNodup; decide, rfl, by decide⟩⟩

end Verif
