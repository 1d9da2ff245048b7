import Verif.Props.Requests

/-!
# JSON Web Tokens and logout: C29–C31, C77, C78
-/

namespace Verif

/-! ## C29 -/

theorem timeCheck_iff (st kw : Dict) (k : String) (ok : Rat → Rat → Bool) (e : Exc) :
    timeCheck st kw k ok e = .ok () ↔
      ∀ v, dget st k = some v → ∃ skew x, NumArg kw "skew" 0 skew ∧ v.num? = some x ∧ ok skew x = true := by
  unfold timeCheck
  cases dget st k with
  | none => simp
  | some v =>
    simp only [Option.some.injEq, forall_eq', bind_ok, numArg_ok, numR_ok, need_ok]
    constructor
    · rintro ⟨s, hs, x, hx, h⟩; exact ⟨s, x, hs, hx, h⟩
    · rintro ⟨s, x, hs, hx, h⟩; exact ⟨s, hs, x, hx, h⟩

/-- the audience check: when token and caller both have one, the expected audience is in `aud` -/
def AudArgOk (st kw : Dict) : Prop :=
  ∀ aud a, dget st "aud" = some aud → dget kw "aud" = some a → a.contains aud = .ok true

theorem audArg_iff (st kw : Dict) : audArg st kw = .ok () ↔ AudArgOk st kw := by
  unfold audArg AudArgOk
  cases dget st "aud" with
  | none => simp
  | some aud =>
    cases dget kw "aud" with
    | none => simp
    | some a =>
      simp only [Option.some.injEq, forall_eq']
      cases h : a.contains aud with
      | error e => simp [h]
      | ok b => cases b <;> simp [need, h]

/-- C29: the exact acceptance condition of `JsonWebToken.verify`. -/
theorem C29_iff (now : Int) (sch : Schema) (st kw : Dict) :
    jsonWebTokenVerify now sch st kw = .ok () ↔
      Acceptable sch st ∧
      (∀ v, dget st "exp" = some v → ∃ skew x, NumArg kw "skew" 0 skew ∧ v.num? = some x ∧ (now : Rat) - skew ≤ x) ∧
      (∀ v, dget st "iat" = some v → ∃ skew x, NumArg kw "skew" 0 skew ∧ v.num? = some x ∧ x ≤ (now : Rat) + skew) ∧
      (∀ v, dget st "nbf" = some v → ∃ skew x, NumArg kw "skew" 0 skew ∧ v.num? = some x ∧ x ≤ (now : Rat) - skew) ∧
      AudArgOk st kw ∧ SameIfBoth st kw "iss" := by
  unfold jsonWebTokenVerify
  simp only [bind_ok]
  constructor
  · rintro ⟨⟨⟩, h1, ⟨⟩, h2, ⟨⟩, h3, ⟨⟩, h4, ⟨⟩, h5, h6⟩
    rw [C04_verify_iff] at h1; rw [timeCheck_iff] at h2 h3 h4; rw [audArg_iff] at h5; rw [matchArg_iff] at h6
    simp only [decide_eq_true_eq] at h2 h3 h4
    exact ⟨h1, h2, h3, h4, h5, h6⟩
  · rintro ⟨h1, h2, h3, h4, h5, h6⟩
    refine ⟨(), (C04_verify_iff _ _).2 h1, (), (timeCheck_iff _ _ _ _ _).2 ?_, (), (timeCheck_iff _ _ _ _ _).2 ?_, (),
      (timeCheck_iff _ _ _ _ _).2 ?_, (), (audArg_iff _ _).2 h5, (matchArg_iff _ _ _ _).2 h6⟩ <;>
      simpa only [decide_eq_true_eq]

/-- C29, what holds of "a positive skew widens the window" (`_partial`: only for tokens without `nbf`): if a token
without `nbf` is accepted with one skew, it is accepted with every larger one. -/
theorem C29_widens_partial (now : Int) (sch : Schema) (st kw : Dict) (s t : Int) (hst : s ≤ t)
    (hn : dget st "nbf" = none) (h : jsonWebTokenVerify now sch st (dset kw "skew" (.int s)) = .ok ()) :
    jsonWebTokenVerify now sch st (dset kw "skew" (.int t)) = .ok () := by
  rw [C29_iff] at h ⊢
  obtain ⟨h1, h2, h3, _, h5, h6⟩ := h
  have hne : ∀ k v, k ≠ "skew" → dget (dset kw "skew" v) k = dget kw k := fun k v hk => dget_dset_ne _ _ (Ne.symm hk)
  have hs : ∀ (u : Int) q, NumArg (dset kw "skew" (.int u)) "skew" 0 q ↔ q = (u : Rat) := by
    intro u q
    unfold NumArg NumAt
    rw [dget_dset_same]
    simp [Val.num?]; exact eq_comm
  have hst' : (s : Rat) ≤ t := Rat.intCast_le_intCast.2 hst
  refine ⟨h1, ?_, ?_, ?_, ?_, ?_⟩
  · intro v hv
    obtain ⟨q, x, hq, hx, hle⟩ := h2 v hv
    rw [hs] at hq; subst hq
    refine ⟨t, x, (hs _ _).2 rfl, hx, ?_⟩
    grind
  · intro v hv
    obtain ⟨q, x, hq, hx, hle⟩ := h3 v hv
    rw [hs] at hq; subst hq
    refine ⟨t, x, (hs _ _).2 rfl, hx, ?_⟩
    grind
  · intro v hv; rw [hn] at hv; cases hv
  · unfold AudArgOk at h5 ⊢; rwa [hne _ _ (by decide)] at h5 ⊢
  · unfold SameIfBoth at h6 ⊢; rwa [hne _ _ (by decide)] at h6 ⊢

/-- With no required parameter and no restricted values everything is acceptable. -/
theorem acceptable_free {sch : Schema} (h1 : sch.params.all (fun p => !p.2.required) = true) (h2 : sch.allowed = [])
    (st : Dict) : Acceptable sch st := by
  intro a sp hm _
  rw [List.all_eq_true] at h1
  have := h1 _ hm
  simp at this
  refine ⟨by simp [this], ?_⟩
  intro v av _ _ h; rw [h2] at h; simp at h

/-- C29 as stated is false: for the `nbf` claim a positive skew narrows the window.  At every time, a token that
is valid from now on is accepted without skew and refused with any positive skew. -/
theorem C29_nbf_counterexample (now skew : Int) (hs : 0 < skew) :
    jsonWebTokenVerify now oidc_JsonWebToken [("nbf", .int now)] [] = .ok () ∧
    jsonWebTokenVerify now oidc_JsonWebToken [("nbf", .int now)] [("skew", .int skew)] ≠ .ok () := by
  constructor
  · rw [C29_iff]
    refine ⟨?_, by simp, by simp, ?_, by simp [AudArgOk], by simp [SameIfBoth]⟩
    · exact acceptable_free (by decide) rfl _
    · intro v hv
      simp [dget] at hv; subst hv
      refine ⟨0, now, .inl ⟨rfl, rfl⟩, rfl, ?_⟩
      grind
  · intro hc
    obtain ⟨_, _, _, h, _⟩ := (C29_iff _ _ _ _).1 hc
    obtain ⟨q, x, hq, hx, hle⟩ := h (.int now) (by simp)
    simp [NumArg, NumAt, Val.num?] at hq hx
    subst hq; subst hx
    have : (0 : Rat) < skew := by
      have := Rat.intCast_lt_intCast.2 hs
      simpa using this
    grind

example : jsonWebTokenVerify 1000 oidc_JsonWebToken [("exp", .int 999), ("aud", .list [.str "me"]), ("iat", .int 1001)]
    [("skew", .int 1), ("aud", .str "me")] = .ok () := by decide +kernel
example : jsonWebTokenVerify 1000 oidc_JsonWebToken [("exp", .int 998)] [("skew", .int 1)] = .error .expError := by
  decide +kernel

/-! ## C30, C31, C78 -/

theorem eq_empty_dict (v : Val) : v.eq (.dict []) = true ↔ v = .dict [] := by
  cases v <;> simp [Val.eq, Val.num?]
  next d => cases d <;> simp [Val.eqDict]

/-- `events` is the single back-channel logout event with an empty object -/
def EventsOk (st : Dict) : Prop :=
  dget st "events" = some (.dict [("http://schemas.openid.net/event/backchannel-logout", .dict [])]) ∨
  ∃ c, dget st "events" = some (.msg c [("http://schemas.openid.net/event/backchannel-logout", .dict [])])

theorem eventsCheck_iff (st : Dict) : eventsCheck st = .ok () ↔ EventsOk st := by
  unfold eventsCheck EventsOk
  split
  · next k v h =>
    simp only [h, bind_ok, need_ok, eq_empty_dict, beq_iff_eq, backchannelEvent]
    simp
  · next d hd h =>
    simp only [h, reduceCtorEq, false_iff]
    simp only [Option.some.injEq, Val.dict.injEq, reduceCtorEq, exists_false, or_false]
    rintro rfl; exact hd _ _ rfl
  · next c k v h =>
    simp only [h, bind_ok, need_ok, eq_empty_dict, beq_iff_eq, backchannelEvent]
    simp
  · next c d hd h =>
    simp only [h, reduceCtorEq, false_iff]
    simp only [Option.some.injEq, Val.msg.injEq, reduceCtorEq, false_or]
    rintro ⟨c', rfl, rfl⟩; exact hd _ _ rfl
  · next v h1 h2 h3 h4 h =>
    simp only [h, reduceCtorEq, false_iff]
    rintro (e | ⟨c, e⟩)
    · cases e; exact h1 _ _ rfl
    · cases e; exact h3 _ _ _ rfl
  · next h => simp [h]

/-- the header algorithm is the expected one, when one is expected -/
def HeaderAlgOk (hdr : Option Dict) (kw : Dict) : Prop :=
  ∀ a, dget kw "allowed_sign_alg" = some a → a.truthy = true →
    ∃ h alg, hdr = some h ∧ dget h "alg" = some alg ∧ alg.eq a = true

theorem logoutAlg_iff (hdr : Option Dict) (kw : Dict) : logoutAlg hdr kw = .ok () ↔ HeaderAlgOk hdr kw := by
  unfold logoutAlg HeaderAlgOk
  cases dget kw "allowed_sign_alg" with
  | none => simp
  | some a =>
    simp only [Option.some.injEq, forall_eq']
    by_cases ht : a.truthy = true
    · simp only [ht, if_true, forall_const]
      cases hdr with
      | none => simp
      | some h =>
        simp only [Option.some.injEq]
        cases hg : dget h "alg" with
        | none =>
          simp only [reduceCtorEq, false_iff]
          rintro ⟨h', alg, rfl, h2, _⟩; rw [hg] at h2; cases h2
        | some alg =>
          simp only [need_ok]
          constructor
          · intro he; exact ⟨h, alg, rfl, hg, he⟩
          · rintro ⟨h', alg', rfl, h2, he⟩; rw [hg] at h2; cases h2; exact he
    · simp [ht]

/-- C30: the exact acceptance condition of `LogoutToken.verify`. -/
theorem C30_iff (now : Int) (st : Dict) (hdr : Option Dict) (kw : Dict) :
    logoutTokenVerify now st hdr kw = .ok () ↔
      Acceptable session_LogoutToken st ∧ dget st "nonce" = none ∧ EventsOk st ∧
      (dget st "sub" ≠ none ∨ dget st "sid" ≠ none) ∧ AudArgOk st kw ∧ SameIfBoth st kw "iss" ∧
      (∀ v, dget st "iat" = some v → ∃ skew x, NumArg kw "skew" 0 skew ∧ v.num? = some x ∧ x ≤ (now : Rat) + skew) ∧
      HeaderAlgOk hdr kw := by
  have hsub : (dhas st "sub" || dhas st "sid") = true ↔ (dget st "sub" ≠ none ∨ dget st "sid" ≠ none) := by
    simp [dhas, Option.isSome_iff_ne_none]
  have hnonce : (!dhas st "nonce") = true ↔ dget st "nonce" = none := by simp [dhas]
  unfold logoutTokenVerify
  simp only [bind_ok, need_ok, hsub, hnonce]
  constructor
  · rintro ⟨⟨⟩, h1, ⟨⟩, h2, ⟨⟩, h3, ⟨⟩, h4, ⟨⟩, h5, ⟨⟩, h6, ⟨⟩, h7, h8⟩
    rw [C04_verify_iff] at h1; rw [eventsCheck_iff] at h3; rw [audArg_iff] at h5; rw [matchArg_iff] at h6
    rw [timeCheck_iff] at h7; rw [logoutAlg_iff] at h8
    simp only [decide_eq_true_eq] at h7
    exact ⟨h1, h2, h3, h4, h5, h6, h7, h8⟩
  · rintro ⟨h1, h2, h3, h4, h5, h6, h7, h8⟩
    refine ⟨(), (C04_verify_iff _ _).2 h1, (), h2, (), (eventsCheck_iff _).2 h3, (), h4, (), (audArg_iff _ _).2 h5, (),
      (matchArg_iff _ _ _ _).2 h6, (), (timeCheck_iff _ _ _ _ _).2 ?_, (logoutAlg_iff _ _).2 h8⟩
    simpa only [decide_eq_true_eq]

def toyLogout : Dict :=
  [("iss", .str "https://op"), ("aud", .list [.str "client"]), ("iat", .int 1000), ("jti", .str "1"),
   ("events", .msg ⟨"message", "Message"⟩ [(backchannelEvent, .dict [])]), ("sub", .str "s")]

example : logoutTokenVerify 1000 toyLogout (some [("alg", .str "RS256")])
    [("aud", .str "client"), ("iss", .str "https://op"), ("allowed_sign_alg", .str "RS256")] = .ok () := by
  decide +kernel
example : logoutTokenVerify 999 toyLogout none [] = .error .valueError := by decide +kernel

/-- What a successful back-channel logout verification did. -/
theorem backChannel_ok {C : Crypto} {now : Int} {st : Dict} {jar : JarArg C} {kw st' : Dict}
    (h : backChannelVerify C now st jar kw = .ok st') :
    ∃ v m, Acceptable session_BackChannelLogoutRequest st ∧ dget st "logout_token" = some v ∧
      fromJwt C session_LogoutToken (strOf C v) jar (pick idTokenVerifyArgs kw) = .ok m ∧
      logoutTokenVerify now m.st m.header kw = .ok () ∧
      st' = dset st "__verified_logout_token" (.msg session_LogoutToken.cls m.st) := by
  unfold backChannelVerify at h
  simp only [bind_ok, getR_ok] at h
  obtain ⟨⟨⟩, h1, v, hv, m, hm, ⟨⟩, hver, ⟨⟩, _, h⟩ := h
  cases h
  exact ⟨v, m, (C04_verify_iff _ _).1 h1, hv, hm, hver, rfl⟩

/-- C31: success means that the logout token decoded and verified, and that exactly it is now in the message,
whatever the sender had put there; nothing else changed. -/
theorem C31_backchannel (C : Crypto) (now : Int) (st : Dict) (jar : JarArg C) (kw st' : Dict)
    (h : backChannelVerify C now st jar kw = .ok st') :
    ∃ v m, dget st "logout_token" = some v ∧
      fromJwt C session_LogoutToken (strOf C v) jar (pick idTokenVerifyArgs kw) = .ok m ∧
      logoutTokenVerify now m.st m.header kw = .ok () ∧
      dget st' "__verified_logout_token" = some (.msg session_LogoutToken.cls m.st) ∧
      ∀ k, k ≠ "__verified_logout_token" → dget st' k = dget st k := by
  obtain ⟨v, m, _, h1, h2, h3, rfl⟩ := backChannel_ok h
  exact ⟨v, m, h1, h2, h3, dget_dset_same _ _ _, fun k hk => dget_dset_ne _ _ (Ne.symm hk)⟩

/-- the arguments handed to `from_jwt` -/
theorem dget_pick (names : List String) (kw : Dict) (k : String) :
    dget (pick names kw) k = if k ∈ names then dget kw k else none := by
  induction names with
  | nil => simp [pick]
  | cons n ns ih =>
    unfold pick at ih ⊢
    cases hg : dget kw n with
    | none =>
      simp only [List.filterMap_cons, hg, Option.map_none, ih, List.mem_cons]
      by_cases e : k = n
      · subst e; simp [hg]
      · simp [e]
    | some v =>
      simp only [List.filterMap_cons, hg, Option.map_some, dget_cons, ih, List.mem_cons]
      by_cases e : n = k
      · subst e; simp [hg]
      · have e' : ¬ k = n := fun x => e x.symm
        simp [e, e']

/-- C78, what holds (`_partial`: only when the caller gives the algorithm it expects): then the accepted logout
token is signed with this algorithm and its signature was verified with keys of the key jar. -/
theorem C78_signed_partial (C : Crypto) (hC : C.JarStable) (now : Int) (st : Dict) (jar : JarArg C) (kw st' : Dict)
    (a : String) (ha : dget kw "allowed_sign_alg" = some (.str a)) (ha1 : a ≠ "none") (ha2 : a ≠ "")
    (hv : ∀ v, dget kw "verify" = some v → v.truthy = true) (h : backChannelVerify C now st jar kw = .ok st') :
    ∃ v kj txt j ks, dget st "logout_token" = some v ∧ jar = some (some kj) ∧
      OpenedText C (ddel (pick idTokenVerifyArgs kw) "verify") (strOf C v) txt ∧
      dget j.headers "alg" = some (.str a) ∧
      KeysFor C kj j (ddel (pick idTokenVerifyArgs kw) "verify") ks ∧ C.verifyCompact j txt ks = .ok () := by
  obtain ⟨v, m, h1, h2, h3, _⟩ := C31_backchannel C now st jar kw st' h
  obtain ⟨hdr, alg, hh, halg, he⟩ := ((C30_iff _ _ _ _).1 h3).2.2.2.2.2.2.2 (.str a) ha (by simp [Val.truthy, ha2])
  rw [eq_str_iff] at he
  subst he
  obtain ⟨kj, txt, j, ks, _, e1, e2, e3, e4, e5, e6, _⟩ := C19_signature C hC _ _ _ _ m h2
    (by intro w hw; rw [dget_pick] at hw; split at hw
        · exact hv w hw
        · cases hw) hdr hh (by rw [halg]; simp [ha1])
  exact ⟨v, kj, txt, j, ks, h1, e1, e2, by rw [e3]; exact halg, e5, e6⟩

/-- C78 as stated is false: an unsigned logout token, and even a plain JSON text, is accepted with no key jar at
all when the caller does not give the expected algorithm. -/
theorem C78_unsigned_counterexample :
    (backChannelVerify (toyCrypto [("U", ⟨[("alg", .str "none")], .ok (.dict (dset toyLogout "events" (.dict [(backchannelEvent, .dict [])])))⟩)]
      [] []) 1000
      [("logout_token", .str "U")] (some none) []).isOk = true := by decide +kernel

theorem C78_plain_json_counterexample :
    (backChannelVerify (toyCrypto [] [] []) 1000
      [("logout_token", .str ("{\"iss\": \"https://op\", \"aud\": [\"client\"], \"iat\": 1000, \"jti\": \"1\", " ++
        "\"sub\": \"s\", \"events\": {\"http://schemas.openid.net/event/backchannel-logout\": {}}}"))]
      (some none) []).isOk = true := by decide +kernel

/-- C78, in general: for every crypto library, key jar and unsigned logout token with verifiable claims, the
request is accepted as long as no algorithm is expected. -/
theorem C78_unsigned_accepted (C : Crypto) (now : Int) (st : Dict) (jar : Option C.KeyJar) (kw : Dict) (t : String)
    (j : Jws) (d lst : Dict) (h0 : Acceptable session_BackChannelLogoutRequest st)
    (ht : dget st "logout_token" = some (.str t))
    (h1 : C.jwe t (algArg (ddel (pick idTokenVerifyArgs kw) "verify")) = .ok none)
    (h2 : C.jws (.str t) (sigAlg (ddel (pick idTokenVerifyArgs kw) "verify")) = .ok (some j))
    (h3 : j.payload = .ok (.dict d)) (h4 : dget j.headers "alg" = some (.str "none"))
    (h5 : fromDictR session_LogoutToken session_LogoutToken.default d = .ok lst)
    (h6 : logoutTokenVerify now lst (some j.headers) kw = .ok ())
    (h7 : formatOk (.msg session_LogoutToken.cls lst) = .ok ()) :
    backChannelVerify C now st (some jar) kw =
      .ok (dset st "__verified_logout_token" (.msg session_LogoutToken.cls lst)) := by
  have hj := C76_alg_none C session_LogoutToken t jar (pick idTokenVerifyArgs kw) j d lst h1 h2 h3 h4 h5
  rw [← C04_verify_iff] at h0
  simp [backChannelVerify, h0, bind, Except.bind, getR, ht, strOf, hj, h6, h7]

/-! ## C77: JWT-secured and pushed authorization requests -/

/-- C77, what holds (`_partial`: only when a request object is given by value): the slot is the decoded request
object, and the parameters are merged as C18 says. -/
theorem C77_request_partial (C : Crypto) (st : Dict) (jar : JarArg C) (kw st' : Dict) (req : Val)
    (hr : dget st "request" = some req) :
    (jwtSecuredVerify C st jar kw = .ok st' →
      ∃ m, fromJwt C oauth2_AuthorizationRequest (strOf C req) jar (requestArgs kw) = .ok m ∧
        dget st' "__verified_request" = some (.msg oauth2_AuthorizationRequest.cls m.st) ∧
        ∀ k, k ≠ "__verified_request" → dget st' k = dget m.st k) ∧
    (pushedVerify C st jar kw = .ok st' →
      ∃ m, fromJwt C oauth2_AuthorizationRequest (strOf C req) jar (requestArgs kw) = .ok m ∧
        dget st' "__verified_request" = some (.msg oauth2_AuthorizationRequest.cls m.st) ∧
        ∀ k, k ≠ "__verified_request" → dget st' k = (dget m.st k).or (dget st k)) := by
  constructor
  · intro h
    simp only [jwtSecuredVerify, hr, requestObject] at h
    split at h
    · cases h
    · next m hm =>
      cases h
      refine ⟨m, hm, dget_dset_same _ _ _, ?_⟩
      intro k hk
      rw [dget_dset_ne _ _ (Ne.symm hk), C18_strict _ _ (fromJwt_nodup hm (by decide))]
  · intro h
    simp only [pushedVerify, hr, requestObject] at h
    split at h
    · cases h
    · next m hm =>
      cases h
      refine ⟨m, hm, dget_dset_same _ _ _, ?_⟩
      intro k hk
      rw [dget_dset_ne _ _ (Ne.symm hk), C18_lax _ _ (fromJwt_nodup hm (by decide)), dget_ddel_ne _ (Ne.symm hk)]

/-- C77 is false without `request`: every pushed request, and every JWT-secured request with a `request_uri`, is
accepted unchanged — no required parameter is looked at and a `__verified_request` of the sender survives. -/
theorem C77_counterexample (C : Crypto) (st : Dict) (jar : JarArg C) (kw : Dict) (hr : dget st "request" = none) :
    pushedVerify C st jar kw = .ok st ∧
    (dget st "request_uri" ≠ none → jwtSecuredVerify C st jar kw = .ok st) := by
  constructor
  · simp [pushedVerify, hr]
  · intro hu
    have : dhas st "request_uri" = true := by simp [dhas, Option.isSome_iff_ne_none, hu]
    simp [jwtSecuredVerify, hr, this]

example : pushedVerify toy [("__verified_request", .dict [("client_id", .str "forged")])] none []
    = .ok [("__verified_request", .dict [("client_id", .str "forged")])] := by decide +kernel
example : (jwtSecuredVerify reqCrypto [("request", .str "R"), ("client_id", .str "x")] (some (some ())) []).map
    (fun st => dget st "client_id") = .ok (some (.str "c")) := by decide +kernel

end Verif
