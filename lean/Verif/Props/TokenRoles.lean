import Verif.Props.Logout
import Verif.Props.ReadWrite
import Verif.Props.ClaimsRequest
import Verif.Props.AuthzResponse

/-! # Roles, clients and lifetimes of tokens

C112: one token text serves as an ID token and as a logout token.
C113: an ID token is accepted for one client only.
C114: for how long tokens are accepted.
C115: null claims in ID tokens. -/

namespace Verif

/-- A class without restricted values: acceptable means that the required parameters have values. -/
theorem acceptable_required {sch : Schema} {st : Dict} (h2 : sch.allowed = [])
    (h : ∀ a ∈ (sch.params.filter (·.2.required)).map (·.1), ∃ v, dget st a = some v ∧ v.truthy = true) :
    Acceptable sch st := by
  intro a sp hm _
  refine ⟨fun hr => ?_, fun v av _ _ e => by rw [h2] at e; simp at e⟩
  obtain ⟨v, hv, ht⟩ := h a (List.mem_map.2 ⟨(a, sp), List.mem_filter.2 ⟨hm, hr⟩, rfl⟩)
  exact ⟨v, hv, .inl ht⟩

theorem given_required {sch : Schema} {st : Dict} (h : Acceptable sch st) {a : String} {sp : Spec}
    (hm : (a, sp) ∈ sch.params) (ha : a ≠ "*") (hr : sp.required = true) : ∃ v, dget st a = some v ∧ Given sp v :=
  (h a sp hm ha).1 hr

/-! ## C112 -/

/-- Payloads read as a logout token: a payload with a nonce is refused. -/
theorem C112_nonce {d st : Dict} {v : Val} (hd : DNodup d) (hv : dget d "nonce" = some v) (h1 : v ≠ .str "")
    (h2 : v ≠ .list [.str ""]) (h : fromDictR session_LogoutToken [] d = .ok st) (now : Int) (hdr : Option Dict)
    (kw : Dict) : logoutTokenVerify now st hdr kw ≠ .ok () := by
  intro hok
  have h' : fromDict session_LogoutToken [] d = (st, none) := by
    unfold fromDictR at h; split at h
    · next e => cases h; exact e
    · cases h
  obtain ⟨s1, s2, _, b, c⟩ := fromDict_get_mem hd h' hv
  have hb : isBlank v = false := by
    unfold isBlank
    split <;> simp_all
  have hl : lookupSpec session_LogoutToken.params "nonce" = none := rfl
  simp only [addItem, hb, Bool.false_eq_true, if_false, hl] at b
  cases b
  rw [((C30_iff _ _ _ _).1 hok).2.1, dget_dset_same] at c
  cases c

/-- Payloads read as an ID token: without an expiry, without a subject the token is refused. -/
theorem C112_exp {d st : Dict} (hv : dget d "exp" = none ∨ dget d "sub" = none)
    (h : fromDictR oidc_IdToken [] d = .ok st) (now : Int) (kw : Dict) : idTokenVerify now st kw ≠ .ok () := by
  intro hok
  have h' : fromDict oidc_IdToken [] d = (st, none) := by
    unfold fromDictR at h; split at h
    · next e => cases h; exact e
    · cases h
  have ha := ((C24_iff _ _ _).1 hok).1
  rcases hv with hv | hv <;> have hn := fromDict_get_other h' ((dget_eq_none_iff _ _).1 hv)
  · obtain ⟨v, e, _⟩ := given_required ha (a := "exp") (sp := singleRequiredInt) (by simp [oidc_IdToken]) (by decide) rfl
    rw [hn] at e; cases e
  · obtain ⟨v, e, _⟩ := given_required ha (a := "sub") (sp := singleRequiredString) (by simp [oidc_IdToken]) (by decide) rfl
    rw [hn] at e; cases e

/-- Payloads read as a logout token: without events or without a token identifier the token is refused. -/
theorem C112_events {d st : Dict} (hv : dget d "events" = none ∨ dget d "jti" = none)
    (h : fromDictR session_LogoutToken [] d = .ok st) (now : Int) (hdr : Option Dict) (kw : Dict) :
    logoutTokenVerify now st hdr kw ≠ .ok () := by
  intro hok
  have h' : fromDict session_LogoutToken [] d = (st, none) := by
    unfold fromDictR at h; split at h
    · next e => cases h; exact e
    · cases h
  have ha := ((C30_iff _ _ _ _).1 hok).1
  rcases hv with hv | hv <;> have hn := fromDict_get_other h' ((dget_eq_none_iff _ _).1 hv)
  · obtain ⟨v, e, _⟩ := given_required ha (a := "events") (sp := singleRequiredJson) (by simp [session_LogoutToken]) (by decide) rfl
    rw [hn] at e; cases e
  · obtain ⟨v, e, _⟩ := given_required ha (a := "jti") (sp := singleRequiredString) (by simp [session_LogoutToken]) (by decide) rfl
    rw [hn] at e; cases e

/-- **C112**, what holds: a payload that is accepted in both roles has no nonce, and has an expiry, a subject, an event
and an identifier. -/
theorem C112_partial {d ist lst : Dict} (hd : DNodup d) (hi : fromDictR oidc_IdToken [] d = .ok ist)
    (hl : fromDictR session_LogoutToken [] d = .ok lst) {now now' : Int} {hdr : Option Dict} {kw kw' : Dict}
    (h1 : idTokenVerify now ist kw = .ok ()) (h2 : logoutTokenVerify now' lst hdr kw' = .ok ()) :
    (∀ v, dget d "nonce" = some v → v = .str "" ∨ v = .list [.str ""]) ∧
    dget d "exp" ≠ none ∧ dget d "sub" ≠ none ∧ dget d "events" ≠ none ∧ dget d "jti" ≠ none := by
  refine ⟨fun v hv => ?_, fun e => C112_exp (.inl e) hi _ _ h1, fun e => C112_exp (.inr e) hi _ _ h1,
    fun e => C112_events (.inl e) hl _ _ _ h2, fun e => C112_events (.inr e) hl _ _ _ h2⟩
  by_cases a : v = .str ""
  · exact .inl a
  · by_cases b : v = .list [.str ""]
    · exact .inr b
    · exact absurd h2 (C112_nonce hd hv a b hl _ _ _)

/-- a logout token that also has an expiry -/
def bothRoles (iss sub aud jti : String) (iat exp : Int) : Dict :=
  [("iss", .str iss), ("sub", .str sub), ("aud", .list [.str aud]), ("iat", .int iat), ("exp", .int exp),
   ("jti", .str jti), ("events", .dict [("http://schemas.openid.net/event/backchannel-logout", .dict [])])]

theorem bothRoles_id {iss sub aud jti : String} (h1 : iss ≠ "") (h2 : sub ≠ "") (h3 : aud ≠ "") (h4 : jti ≠ "")
    (iat exp : Int) :
    fromDictR oidc_IdToken [] (bothRoles iss sub aud jti iat exp) = .ok (bothRoles iss sub aud jti iat exp) := by
  have l1 : lookupSpec oidc_IdToken.params "iss" = some (false, singleRequiredString) := rfl
  have l2 : lookupSpec oidc_IdToken.params "sub" = some (false, singleRequiredString) := rfl
  have l3 : lookupSpec oidc_IdToken.params "aud" = some (false, requiredListOfStrings) := rfl
  have l4 : lookupSpec oidc_IdToken.params "iat" = some (false, singleRequiredInt) := rfl
  have l5 : lookupSpec oidc_IdToken.params "exp" = some (false, singleRequiredInt) := rfl
  have l6 : lookupSpec oidc_IdToken.params "jti" = none := rfl
  have l7 : lookupSpec oidc_IdToken.params "events" = none := rfl
  refine (fromDictR_each (fun _ v => v) (bothRoles iss sub aud jti iat exp) [] ?_ (by simp [bothRoles, dkeys])).trans rfl
  intro p hp st
  simp only [bothRoles, List.mem_cons, List.not_mem_nil, or_false] at hp
  rcases hp with rfl | rfl | rfl | rfl | rfl | rfl | rfl <;>
  simp [addItem, isBlank, h1, h2, h3, h4, l1, l2, l3, l4, l5, l6, l7, addValue, ignoredList,
    singleRequiredString, singleRequiredInt, requiredListOfStrings, singleValue, Ty.isInst, addToList, addListOfList,
    deserList, listDeser, orDecodeError, checkItems, Val.iter, bind, Except.bind, Val.isNone]

theorem bothRoles_logout {iss sub aud jti : String} (h1 : iss ≠ "") (h2 : sub ≠ "") (h3 : aud ≠ "") (h4 : jti ≠ "")
    (iat exp : Int) :
    fromDictR session_LogoutToken [] (bothRoles iss sub aud jti iat exp) = .ok (bothRoles iss sub aud jti iat exp) := by
  have l1 : lookupSpec session_LogoutToken.params "iss" = some (false, singleRequiredString) := rfl
  have l2 : lookupSpec session_LogoutToken.params "sub" = some (false, singleOptionalString) := rfl
  have l3 : lookupSpec session_LogoutToken.params "aud" = some (false, requiredListOfStrings) := rfl
  have l4 : lookupSpec session_LogoutToken.params "iat" = some (false, singleRequiredInt) := rfl
  have l5 : lookupSpec session_LogoutToken.params "exp" = none := rfl
  have l6 : lookupSpec session_LogoutToken.params "jti" = some (false, singleRequiredString) := rfl
  have l7 : lookupSpec session_LogoutToken.params "events" = some (false, singleRequiredJson) := rfl
  refine (fromDictR_each (fun _ v => v) (bothRoles iss sub aud jti iat exp) [] ?_ (by simp [bothRoles, dkeys])).trans rfl
  intro p hp st
  simp only [bothRoles, List.mem_cons, List.not_mem_nil, or_false] at hp
  rcases hp with rfl | rfl | rfl | rfl | rfl | rfl | rfl <;>
  simp [addItem, isBlank, h1, h2, h3, h4, l1, l2, l3, l4, l5, l6, l7, addValue, ignoredList,
    singleRequiredString, singleOptionalString, singleRequiredInt, singleRequiredJson, requiredListOfStrings, singleValue,
    Ty.isInst, addToList, addListOfList, deserList, listDeser, orDecodeError, checkItems, Val.iter, bind, Except.bind, Val.isNone]

/-- **C112**, the confusion in general: every logout token of a client for a subject that has an expiry is also
accepted as an ID token of that client and subject, whatever nonce the client expects. -/
theorem C112_confusion {iss sub aud jti : String} (h1 : iss ≠ "") (h2 : sub ≠ "") (h3 : aud ≠ "") (h4 : jti ≠ "")
    {iat exp now : Int} (hi : iat ≠ 0) (he : exp ≠ 0) (n1 : iat ≤ now) (n2 : now ≤ exp) (n3 : now ≤ iat + 14400)
    (nonce : String) (alg : String) :
    ∃ ist lst, fromDictR oidc_IdToken [] (bothRoles iss sub aud jti iat exp) = .ok ist ∧
      fromDictR session_LogoutToken [] (bothRoles iss sub aud jti iat exp) = .ok lst ∧
      idTokenVerify now ist [("client_id", .str aud), ("iss", .str iss), ("nonce", .str nonce)] = .ok () ∧
      logoutTokenVerify now lst (some [("alg", .str alg)])
        [("aud", .str aud), ("iss", .str iss), ("allowed_sign_alg", .str alg)] = .ok () := by
  refine ⟨_, _, bothRoles_id h1 h2 h3 h4 iat exp, bothRoles_logout h1 h2 h3 h4 iat exp, ?_, ?_⟩
  · have a1 : Acceptable oidc_IdToken (bothRoles iss sub aud jti iat exp) := by
      apply acceptable_required rfl
      have e : (oidc_IdToken.params.filter (·.2.required)).map (·.1) = ["sub", "iss", "aud", "exp", "iat"] := by decide
      intro a ha
      rw [e] at ha
      simp only [List.mem_cons, List.not_mem_nil, or_false] at ha
      rcases ha with rfl | rfl | rfl | rfl | rfl <;> simp [bothRoles, dget, Val.truthy, h1, h2, he, hi]
    have a2 : DescriptionOk (bothRoles iss sub aud jti iat exp) := by intro v hv; simp [bothRoles, dget] at hv
    have a3 : BirthdateOk (bothRoles iss sub aud jti iat exp) := by intro v hv; simp [bothRoles, dget] at hv
    refine (C24_typed now exp iat _ aud iss iss [aud] none _ rfl rfl rfl rfl a1 a2 a3 rfl rfl rfl rfl rfl).2
      ⟨rfl, by simp, by simp, by simp, n2, n3, ?_⟩
    intro a b e; simp [bothRoles, dget] at e
  · rw [C30_iff]
    refine ⟨?_, rfl, .inl rfl, .inl (by simp [bothRoles, dget]), ?_, ?_, ?_, ?_⟩
    · apply acceptable_required rfl
      have e : (session_LogoutToken.params.filter (·.2.required)).map (·.1) = ["iss", "aud", "iat", "jti", "events"] := by
        decide
      intro a ha
      rw [e] at ha
      simp only [List.mem_cons, List.not_mem_nil, or_false] at ha
      rcases ha with rfl | rfl | rfl | rfl | rfl <;> simp [bothRoles, dget, Val.truthy, h1, h4, hi]
    · intro a b ha hb
      simp [bothRoles, dget] at ha hb
      subst ha; subst hb
      exact (contains_str_list aud [aud]).2 (by simp)
    · intro a b ha hb
      simp [bothRoles, dget] at ha hb
      subst ha; subst hb
      rw [eq_str_iff]
    · intro v hv
      simp [bothRoles, dget] at hv
      subst hv
      refine ⟨0, iat, .inl ⟨rfl, rfl⟩, rfl, ?_⟩
      rw [Rat.add_zero]
      exact Rat.intCast_le_intCast.2 n1
    · intro a ha _
      simp [dget] at ha
      subst ha
      exact ⟨_, .str alg, rfl, rfl, by rw [eq_str_iff]⟩

/-- the token text `T`, signed, with such a payload -/
abbrev toyBoth : Crypto :=
  toyCrypto [("T", ⟨[("alg", .str "RS256")], .ok (.dict (bothRoles "https://op" "s" "client" "1" 1000 2000))⟩)]
    ["https://op"] ["T"]

/-- **C112**, violated: the very same signed token is accepted in a logout request and in a token response of a
client that expects a nonce. -/
theorem C112_counterexample :
    (backChannelVerify toyBoth 1500 [("logout_token", .str "T")] (some (some ()))
      [("aud", .str "client"), ("iss", .str "https://op"), ("allowed_sign_alg", .str "RS256")]).isOk = true ∧
    (accessTokenResponseVerify toyBoth 1500
      [("access_token", .str "at"), ("token_type", .str "Bearer"), ("id_token", .str "T")] (some (some ()))
      [("client_id", .str "client"), ("iss", .str "https://op"), ("nonce", .str "n"),
       ("allowed_sign_alg", .str "RS256")]).isOk = true := by
  constructor <;> decide +kernel

/-! ## C113 -/

/-- Two clients that are both the one audience are the same client. -/
theorem sole_audience {a b : String} (hna : a ≠ "") (hnb : b ≠ "") {v : Val} {n : Nat} (hl : v.len = .ok n) (hn : n < 2)
    (ha : (Val.str a).contains v = .ok true) (hb : (Val.str b).contains v = .ok true) : a = b := by
  have one : ∀ d : Dict, d.length < 2 → dhas d a = true → dhas d b = true → a = b := by
    intro d hl ha hb
    rcases d with _ | ⟨⟨x, v⟩, _ | ⟨y, d⟩⟩
    · simp [dhas, dget] at ha
    · simp only [dhas, dget_cons, dget] at ha hb
      split at ha
      · split at hb
        · simp_all
        · simp at hb
      · simp at ha
    · simp only [List.length_cons] at hl; omega
  cases v with
  | list l =>
    simp only [Val.len, Except.ok.injEq] at hl
    simp only [Val.contains, Except.ok.injEq, Val.memList] at ha hb
    rcases l with _ | ⟨x, _ | ⟨y, l⟩⟩
    · simp at ha
    · simp only [List.any_cons, List.any_nil, Bool.or_false] at ha hb
      rw [str_eq_iff] at ha hb
      rw [ha] at hb; cases hb; rfl
    · simp only [List.length_cons] at hl; omega
  | dict d =>
    simp only [Val.len, Except.ok.injEq] at hl
    simp only [Val.contains, Except.ok.injEq] at ha hb
    exact one d (by omega) ha hb
  | msg c d =>
    simp only [Val.len, Except.ok.injEq] at hl
    simp only [Val.contains, Except.ok.injEq] at ha hb
    exact one d (by omega) ha hb
  | str s =>
    simp only [Val.len, Except.ok.injEq] at hl
    simp only [Val.contains, Except.ok.injEq] at ha hb
    have sub : ∀ t : String, t ≠ "" → isSubstrC t.toList s.toList = true → t = s := by
      intro t ht h
      obtain ⟨p, q, e⟩ := (isSubstr_iff _ _).1 h
      have hne : t.toList ≠ [] := fun h => ht (by rw [← String.toList_eq_nil_iff]; exact h)
      have h1 : 1 ≤ t.toList.length := List.length_pos_iff.2 hne
      have h2 := congrArg List.length e
      simp only [List.length_append] at h2
      have hp : p = [] := List.length_eq_zero_iff.1 (by omega)
      have hq : q = [] := List.length_eq_zero_iff.1 (by omega)
      subst hp; subst hq
      simp only [List.nil_append, List.append_nil] at e
      exact (String.toList_inj.1 e).symm
    rw [sub a hna ha, sub b hnb hb]
  | _ => simp [Val.len] at hl

/-- **C113**: claims that are accepted for two clients, at whatever times and with whatever other arguments, are
accepted for the same client.  The claims may be of any shape. -/
theorem C113_one_client {st : Dict} {now now' : Int} {kw kw' : Dict} {a b : String} (hna : a ≠ "") (hnb : b ≠ "")
    (ha : dget kw "client_id" = some (.str a)) (hb : dget kw' "client_id" = some (.str b))
    (h1 : idTokenVerify now st kw = .ok ()) (h2 : idTokenVerify now' st kw' = .ok ()) : a = b := by
  obtain ⟨acc, _, _, _, au1, az1, _⟩ := (C24_iff _ _ _).1 h1
  obtain ⟨_, _, _, _, au2, az2, _⟩ := (C24_iff _ _ _).1 h2
  obtain ⟨aud, haud, _⟩ := given_required acc (a := "aud") (sp := requiredListOfStrings)
    (by simp [oidc_IdToken]) (by decide) rfl
  obtain ⟨c1, n, hl, hz⟩ := au1 aud haud
  obtain ⟨c2, _⟩ := au2 aud haud
  by_cases hn : 2 ≤ n
  · obtain ⟨azp, e, _⟩ := hz hn
    have e1 := az1 azp _ e ha
    have e2 := az2 azp _ e hb
    rw [str_eq_iff] at e1 e2
    rw [e1] at e2; cases e2; rfl
  · exact sole_audience hna hnb hl (by omega) (c1 _ ha) (c2 _ hb)

/-- a token for two audiences, accepted by the authorized party -/
def twoAudiences : Dict := [("iss", .str "https://op"), ("sub", .str "s"), ("aud", .list [.str "a", .str "b"]),
  ("azp", .str "a"), ("exp", .int 2000), ("iat", .int 1000)]
example : fromDictR oidc_IdToken [] twoAudiences = .ok twoAudiences ∧
    idTokenVerify 1500 twoAudiences [("client_id", .str "a")] = .ok () ∧
    (idTokenVerify 1500 twoAudiences [("client_id", .str "b")]).isOk = false := by decide +kernel

/-- An empty client id is the exception: it is a part of every text.  (A text as audience needs `update`, reading a
token gives a list.) -/
example : ∃ st : Dict, idTokenVerify 1500 st [("client_id", .str "x")] = .ok () ∧
    idTokenVerify 1500 st [("client_id", .str "")] = .ok () :=
  ⟨dset toyClaims "aud" (.str "x"), by decide +kernel⟩

/-! ## C114 -/

/-- **C114**, ID tokens: what is accepted is also accepted at every earlier time. -/
theorem C114_earlier {now now' : Int} (hle : now' ≤ now) {st kw : Dict} (h : idTokenVerify now st kw = .ok ()) :
    idTokenVerify now' st kw = .ok () := by
  rw [C24_iff] at h ⊢
  obtain ⟨h1, h2, h3, h4, h5, h6, ⟨skew, e, i, s, k1, k2, k3, k4, k5, k6⟩, h8⟩ := h
  have hq : (now' : Rat) ≤ now := Rat.intCast_le_intCast.2 hle
  refine ⟨h1, h2, h3, h4, h5, h6, ⟨skew, e, i, s, k1, k2, k3, k4, ?_, ?_⟩, h8⟩ <;> grind

/-- **C114**, ID tokens: after its expiry (plus the accepted skew) a token is never accepted. -/
theorem C114_expired {now exp skew : Int} {st kw : Dict} (he : dget st "exp" = some (.int exp))
    (hs : dget kw "skew" = some (.int skew) ∨ (dget kw "skew" = none ∧ skew = 0)) (hlt : exp + skew < now) :
    idTokenVerify now st kw ≠ .ok () := by
  intro h
  obtain ⟨_, _, _, _, _, _, ⟨q, e, i, s, k1, ⟨v, k2, k2'⟩, _, _, k5, _⟩, _⟩ := (C24_iff _ _ _).1 h
  rw [he] at k2; cases k2
  simp only [Val.num?, Option.some.injEq] at k2'
  subst k2'
  have hq : q = skew := by
    rcases k1 with ⟨a, rfl⟩ | ⟨v, a, b⟩
    · rcases hs with hs | ⟨_, rfl⟩
      · rw [a] at hs; cases hs
      · rfl
    · rcases hs with hs | ⟨hs, _⟩
      · rw [a] at hs; cases hs
        simp only [Val.num?, Option.some.injEq] at b
        exact b.symm
      · rw [a] at hs; cases hs
  subst hq
  have : ((exp + skew : Int) : Rat) < now := Rat.intCast_lt_intCast.2 hlt
  rw [Rat.intCast_add] at this
  grind

/-- **C114**, violated for ID tokens: no token is refused for being issued in the future; every token that is ever
accepted is accepted at any time before it was issued. -/
theorem C114_before_issue {now iat : Int} {st kw : Dict} (h : idTokenVerify now st kw = .ok ())
    (_hi : dget st "iat" = some (.int iat)) (ahead : Nat) : idTokenVerify (min now (iat - ahead)) st kw = .ok () :=
  C114_earlier (Int.min_le_left ..) h

/-- **C114**, violated for logout tokens: what is accepted once is accepted for ever after, whatever expiry it
names. -/
theorem C114_logout_later {now now' : Int} (hle : now ≤ now') {st : Dict} {hdr : Option Dict} {kw : Dict}
    (h : logoutTokenVerify now st hdr kw = .ok ()) : logoutTokenVerify now' st hdr kw = .ok () := by
  rw [C30_iff] at h ⊢
  obtain ⟨h1, h2, h3, h4, h5, h6, h7, h8⟩ := h
  have hq : (now : Rat) ≤ now' := Rat.intCast_le_intCast.2 hle
  refine ⟨h1, h2, h3, h4, h5, h6, fun v hv => ?_, h8⟩
  obtain ⟨s, x, a, b, c⟩ := h7 v hv
  exact ⟨s, x, a, b, by grind⟩

/-- **C114**, tokens with `JsonWebToken.verify`: the times at which a token is accepted have no gaps. -/
theorem C114_no_gap {n1 n2 n3 : Int} (h12 : n1 ≤ n2) (h23 : n2 ≤ n3) {sch : Schema} {st kw : Dict}
    (h1 : jsonWebTokenVerify n1 sch st kw = .ok ()) (h3 : jsonWebTokenVerify n3 sch st kw = .ok ()) :
    jsonWebTokenVerify n2 sch st kw = .ok () := by
  rw [C29_iff] at h1 h3 ⊢
  obtain ⟨a1, _, a3, a4, a5, a6⟩ := h1
  obtain ⟨_, b2, _⟩ := h3
  have hq : (n1 : Rat) ≤ n2 := Rat.intCast_le_intCast.2 h12
  have hr : (n2 : Rat) ≤ n3 := Rat.intCast_le_intCast.2 h23
  refine ⟨a1, fun v hv => ?_, fun v hv => ?_, fun v hv => ?_, a5, a6⟩
  · obtain ⟨s, x, e1, e2, e3⟩ := b2 v hv; exact ⟨s, x, e1, e2, by grind⟩
  · obtain ⟨s, x, e1, e2, e3⟩ := a3 v hv; exact ⟨s, x, e1, e2, by grind⟩
  · obtain ⟨s, x, e1, e2, e3⟩ := a4 v hv; exact ⟨s, x, e1, e2, by grind⟩

/-- an expired logout token is accepted, an ID token is accepted a million seconds before it was issued -/
example : logoutTokenVerify 1000000000 (bothRoles "https://op" "s" "client" "1" 1000 2000) none [] = .ok () ∧
    idTokenVerify 0 (bothRoles "https://op" "s" "client" "1" 1000000 1000060) [("client_id", .str "client")] = .ok () := by
  decide +kernel

/-! ## C115 -/

/-- the claims that `IdToken.verify` looks at itself -/
def lookedAt : List String :=
  ["sub", "iss", "aud", "exp", "iat", "azp", "nonce", "error_description", "birthdate"]

/-- **C115**, violated: every accepted ID token is still accepted when any claim that is not looked at is null,
although `OpenIDSchema.verify`, whose result is dropped, says no. -/
theorem C115_null {now : Int} {st kw : Dict} (h : idTokenVerify now st kw = .ok ()) {k : String} (hk : k ∉ lookedAt) :
    idTokenVerify now (dset st k .none) kw = .ok () ∧
    openIdSchemaVerify oidc_IdToken (dset st k .none) = .ok false := by
  simp only [lookedAt, List.mem_cons, List.not_mem_nil, or_false, not_or] at hk
  obtain ⟨k1, k2, k3, k4, k5, k6, k7, k8, k9⟩ := hk
  have g : ∀ a, k ≠ a → dget (dset st k .none) a = dget st a := fun a ha => dget_dset_ne _ _ ha
  obtain ⟨h1, h2, h3, h4, h5, h6, h7, h8⟩ := (C24_iff _ _ _).1 h
  have a1 : Acceptable oidc_IdToken (dset st k .none) := by
    intro a sp hm ha
    obtain ⟨r1, _⟩ := h1 a sp hm ha
    refine ⟨fun hr => ?_, fun v av _ _ e => by simp [show oidc_IdToken.allowed = [] from rfl] at e⟩
    have : a ∈ ["sub", "iss", "aud", "exp", "iat"] := by
      have e : (oidc_IdToken.params.filter (·.2.required)).map (·.1) = ["sub", "iss", "aud", "exp", "iat"] := by decide
      rw [← e]; exact List.mem_map.2 ⟨(a, sp), List.mem_filter.2 ⟨hm, hr⟩, rfl⟩
    have hne : k ≠ a := by
      rintro rfl
      simp only [List.mem_cons, List.not_mem_nil, or_false] at this
      rcases this with e | e | e | e | e <;> contradiction
    rw [g a hne]; exact r1 hr
  have a2 : DescriptionOk (dset st k .none) := by unfold DescriptionOk; rw [g _ k8]; exact h2
  have a3 : BirthdateOk (dset st k .none) := by unfold BirthdateOk; rw [g _ k9]; exact h3
  constructor
  · rw [C24_iff]
    refine ⟨a1, a2, a3, ?_, ?_, ?_, ?_, ?_⟩
    · unfold SameIfBoth; rw [g _ k2]; exact h4
    · unfold AudienceOk; rw [g _ k3, g _ k6]; exact h5
    · rw [g _ k6]; exact h6
    · unfold NumAt; rw [g _ k4, g _ k5]; exact h7
    · unfold SameIfBoth; rw [g _ k7]; exact h8
  · rw [C37_exact]
    refine ⟨a1, a2, a3, ?_⟩
    have hm : (k, Val.none) ∈ dset st k .none := dget_mem (dget_dset_same _ _ _)
    exact ⟨fun _ => ⟨k, hm⟩, fun _ => rfl⟩

/-- **C115**, what holds: no accepted ID token has a null among the required claims, the error description and the
birthdate; with a client id given the authorized party is not null; with a nonce expected the nonce is not null. -/
theorem C115_partial {now : Int} {st kw : Dict} (h : idTokenVerify now st kw = .ok ()) :
    (∀ k ∈ ["sub", "iss", "aud", "exp", "iat", "error_description", "birthdate"], dget st k ≠ some .none) ∧
    (∀ c : String, dget kw "client_id" = some (.str c) → dget st "azp" ≠ some .none) ∧
    (∀ n : String, dget kw "nonce" = some (.str n) → dget st "nonce" ≠ some .none) := by
  obtain ⟨h1, h2, h3, h4, h5, h6, h7, h8⟩ := (C24_iff _ _ _).1 h
  have req : ∀ a sp, (a, sp) ∈ oidc_IdToken.params → a ≠ "*" → sp.required = true → sp.vtyp ≠ .single .bool →
      dget st a ≠ some .none := by
    intro a sp hm ha hr hb e
    obtain ⟨v, hv, hg⟩ := given_required h1 hm ha hr
    rw [e] at hv; cases hv
    rcases hg with hg | hg
    · cases hg
    · exact hb hg
  refine ⟨?_, ?_, ?_⟩
  · intro k hk
    simp only [List.mem_cons, List.not_mem_nil, or_false] at hk
    rcases hk with rfl | rfl | rfl | rfl | rfl | rfl | rfl
    · exact req "sub" singleRequiredString (by simp [oidc_IdToken]) (by decide) rfl (by simp [singleRequiredString])
    · exact req "iss" singleRequiredString (by simp [oidc_IdToken]) (by decide) rfl (by simp [singleRequiredString])
    · exact req "aud" requiredListOfStrings (by simp [oidc_IdToken]) (by decide) rfl (by simp [requiredListOfStrings])
    · exact req "exp" singleRequiredInt (by simp [oidc_IdToken]) (by decide) rfl (by simp [singleRequiredInt])
    · exact req "iat" singleRequiredInt (by simp [oidc_IdToken]) (by decide) rfl (by simp [singleRequiredInt])
    · intro e
      obtain ⟨items, hi, _⟩ := h2 _ e
      cases hi
    · intro e
      obtain ⟨s, hs, _⟩ := h3 _ e
      cases hs
  · intro c hc e
    have := h6 _ _ e hc
    rw [str_eq_iff] at this; cases this
  · intro n hn e
    have := h8 _ _ e hn
    rw [eq_str_iff] at this; cases this

example : idTokenVerify 1500 (dset toyClaims "name" .none) [("client_id", .str "client"), ("nonce", .str "n")] = .ok () ∧
    fromDictR oidc_IdToken [] (dset toyClaims "name" .none) = .ok (dset toyClaims "name" .none) ∧
    openIdSchemaVerify oidc_OpenIDSchema [("sub", .str "s"), ("name", .none)] = .ok false := by decide +kernel

end Verif
