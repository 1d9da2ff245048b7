import Verif.Props.Logout

/-! # Accepted tokens are authentic (C116)

The signature library is a parameter of the model.  Here it is assumed to do what it is for, and the conclusion is about
the whole of a verification: what is accepted was said by the issuer it names. -/

namespace Verif

/-- What is assumed of the signature library.  `Signed i p` stands for "the payload `p` was signed with a key of `i`".
The library looks for the keys of the issuer named in the payload. -/
structure Trustworthy (C : Crypto) (Signed : String → Val → Prop) : Prop where
  stable : C.JarStable
  /-- only texts are signed tokens -/
  text : ∀ v j, C.jws v none = .ok (some j) → ∃ t, v = .str t
  /-- the expected algorithm has no influence on how a token is taken apart -/
  parse : ∀ t j a oj, C.jws (.str t) none = .ok (some j) → C.jws (.str t) a = .ok oj → oj = some j
  /-- a signed token is not at the same time an encrypted one -/
  plain : ∀ t j a ow, C.jws (.str t) none = .ok (some j) → C.jwe t a = .ok ow → ow = none
  /-- no two items of a payload have the same name -/
  payload : ∀ v j p d, C.jws v none = .ok (some j) → j.payload = .ok p → p.itemsOf = .ok d → DNodup d
  /-- a token that is verified with the keys found for it was signed by the issuer it names -/
  sound : ∀ kj t j kw ks p d i, C.jws (.str t) none = .ok (some j) → KeysFor C kj j kw ks →
    C.verifyCompact j t ks = .ok () → j.payload = .ok p → p.itemsOf = .ok d → dget d "iss" = some (.str i) → Signed i p

/-- the caller leaves verification on and does not allow unsigned tokens -/
structure Strict (kw : Dict) : Prop where
  verify : ∀ v, dget kw "verify" = some v → v.truthy = true
  sigalg : dget kw "sigalg" ≠ some (.str "none")
  none : dget kw "allow_sign_alg_none" = none ∨ dget kw "allow_sign_alg_none" = some (.bool false)

/-- the issuer that is read is the text in the payload -/
theorem iss_source_of {sch : Schema} (hsp : lookupSpec sch.params "iss" = some (false, singleRequiredString))
    {d claims : Dict} {w : Val} (hd : DNodup d) (h : fromDictR sch [] d = .ok claims)
    (hw : dget claims "iss" = some w) (hg : w.truthy = true) :
    ∃ i, w = .str i ∧ dget d "iss" = some (.str i) := by
  have h' : fromDict sch [] d = (claims, none) := by
    unfold fromDictR at h
    split at h <;> simp_all
  cases e : dget d "iss" with
  | none =>
    have := fromDict_get_other h' ((dget_eq_none_iff _ _).1 e)
    rw [hw] at this; simp [dget] at this
  | some v =>
    obtain ⟨st1, st2, h1, h2, h3⟩ := fromDict_get_mem hd h' e
    rw [hw] at h3
    unfold addItem at h2
    split at h2
    · cases h2; rw [h1] at h3; simp [dget] at h3
    · rw [hsp] at h2
      simp only [Bool.false_and, Bool.false_eq_true, if_false] at h2
      unfold addValue at h2
      split at h2
      · cases h2; rw [h1] at h3; simp [dget] at h3
      · cases v <;> simp [singleRequiredString, singleValue, Ty.isInst, coerceSingle] at h2 <;>
          subst h2 <;> rw [dget_dset_same] at h3 <;> simp at h3 <;> subst h3
        · simp [Val.truthy] at hg
        · exact ⟨_, rfl, rfl⟩

theorem iss_source {d claims : Dict} {w : Val} (hd : DNodup d) (h : fromDictR oidc_IdToken [] d = .ok claims)
    (hw : dget claims "iss" = some w) (hg : w.truthy = true) :
    ∃ i, w = .str i ∧ dget d "iss" = some (.str i) := iss_source_of rfl hd h hw hg

/-- The shapes in which a payload can name a client as audience: in a list, as a word of a text, or as a name in an
object (which is taken over as it is). -/
def NamesAudience (aud : Val) (client : String) : Prop :=
  (∃ ss : List String, aud = .list (ss.map .str) ∧ client ∈ ss) ∨
  (∃ s, aud = .str s ∧ client ∈ pySplit ' ' s) ∨
  (∃ o, aud = .dict o ∧ client ∈ dkeys o)

theorem strs_of_all : ∀ l : List Val, l.all (fun v => Ty.str.isInst v) = true → ∃ ss : List String, l = ss.map .str
  | [], _ => ⟨[], rfl⟩
  | a :: l, h => by
    simp only [List.all_cons, Bool.and_eq_true] at h
    obtain ⟨ss, rfl⟩ := strs_of_all l h.2
    cases a <;> simp [Ty.isInst] at h
    exact ⟨_ :: ss, rfl⟩

theorem aud_source_of {sch : Schema} (hsp : lookupSpec sch.params "aud" = some (false, requiredListOfStrings))
    {d claims : Dict} {w : Val} {client : String} (hd : DNodup d)
    (h : fromDictR sch [] d = .ok claims) (hw : dget claims "aud" = some w)
    (hc : (Val.str client).contains w = .ok true) : ∃ aud, dget d "aud" = some aud ∧ NamesAudience aud client := by
  have h' : fromDict sch [] d = (claims, none) := by
    unfold fromDictR at h
    split at h <;> simp_all
  cases e : dget d "aud" with
  | none =>
    have := fromDict_get_other h' ((dget_eq_none_iff _ _).1 e)
    rw [hw] at this; simp [dget] at this
  | some v =>
    refine ⟨v, rfl, ?_⟩
    obtain ⟨st1, st2, h1, h2, h3⟩ := fromDict_get_mem hd h' e
    rw [hw] at h3
    unfold addItem at h2
    split at h2
    · cases h2; rw [h1] at h3; simp [dget] at h3
    · rw [hsp] at h2
      simp only [Bool.false_and, Bool.false_eq_true, if_false] at h2
      unfold addValue at h2
      split at h2
      · cases h2; rw [h1] at h3; simp [dget] at h3
      · cases v with
        | str s =>
          simp only [requiredListOfStrings, addToList, Val.isNone, Bool.false_eq_true, if_false, Ty.isInst, if_true,
            listDeser, orDecodeError, ok_ok] at h2
          subst h2
          rw [dget_dset_same] at h3
          cases h3
          rw [contains_str_list] at hc
          exact .inr (.inl ⟨s, rfl, hc⟩)
        | list l =>
          have hi : Ty.isInst .str (.list l) = false := rfl
          simp only [requiredListOfStrings, addToList, Val.isNone, Bool.false_eq_true, if_false, hi,
            addListOfList, deserList, listDeser, reduceCtorEq, orDecodeError, checkItems, Val.iter, bind, Except.bind] at h2
          by_cases hall : l.all (fun v => Ty.str.isInst v) = true
          · rw [if_pos hall] at h2
            cases h2
            rw [dget_dset_same] at h3
            cases h3
            obtain ⟨ss, rfl⟩ := strs_of_all l hall
            rw [contains_str_list] at hc
            exact .inl ⟨ss, rfl, hc⟩
          · rw [if_neg hall] at h2; cases h2
        | dict o =>
          simp only [requiredListOfStrings, addToList, Val.isNone, Bool.false_eq_true, if_false, Ty.isInst,
            listDeser, reduceCtorEq, orDecodeError, ok_ok] at h2
          subst h2
          rw [dget_dset_same] at h3
          cases h3
          refine .inr (.inr ⟨o, rfl, ?_⟩)
          rw [Val.contains, ok_ok] at hc
          have : dhas o client ≠ false := by rw [hc]; simp
          rw [Ne, dhas_eq_false_iff, dget_eq_none_iff] at this
          exact Classical.not_not.1 this
        | _ => simp [requiredListOfStrings, addToList, Val.isNone, Ty.isInst] at h2

theorem aud_source {d claims : Dict} {w : Val} {client : String} (hd : DNodup d)
    (h : fromDictR oidc_IdToken [] d = .ok claims) (hw : dget claims "aud" = some w)
    (hc : (Val.str client).contains w = .ok true) : ∃ aud, dget d "aud" = some aud ∧ NamesAudience aud client :=
  aud_source_of rfl hd h hw hc

/-- **C116**, one token: an accepted ID token is a payload that was signed; the claims put into the message are read
from that payload and satisfy the conditions of an ID token. -/
theorem C116_token {C : Crypto} {Signed : String → Val → Prop} (hC : Trustworthy C Signed) {now : Int} {st : Dict} {claim : String}
    {checkHash : Bool} {jar : JarArg C} {kw st' : Dict} (hs : Strict kw)
    (h : verifyIdToken C now st claim checkHash jar kw = .ok st') :
    ∃ p d claims iss, Signed iss p ∧ p.itemsOf = .ok d ∧ DNodup d ∧ dget d "iss" = some (.str iss) ∧
      fromDictR oidc_IdToken [] d = .ok claims ∧
      dget claims "iss" = some (.str iss) ∧ idTokenVerify now claims kw = .ok () ∧
      st' = dset st (verifiedClaimName claim) (.msg oidc_IdToken.cls claims) := by
  obtain ⟨v, j, alg, signed, body, m, hv, hj, ha, hal, hb, _, hf, hver, _, rfl⟩ := verifyIdToken_ok h
  obtain ⟨t, rfl⟩ := hC.text v j hj
  simp only [strOf] at hf
  have hne : alg ≠ .str "none" := by
    rintro rfl
    unfold algCheck at hal
    have e1 : (Val.str "none").eq (.str "none") = true := by rw [eq_str_iff]
    have e2 : sigalgNone kw = false := by
      unfold sigalgNone
      split
      · next w hw =>
        cases e : w.eq (.str "none") with
        | false => rfl
        | true => rw [eq_str_iff] at e; subst e; exact absurd hw hs.sigalg
      · rfl
    have e3 : noneForbidden kw = true := by
      unfold noneForbidden
      rcases hs.none with e | e <;> rw [e]
    simp [e1, e2, e3] at hal
  obtain ⟨jar₀, txt', jso, d, rfl, hd, hi, hfd, hcase⟩ := fromJwt_ok hf
  have htxt : txt' = t := by
    rcases decryptStep_ok hd with ⟨_, e⟩ | ⟨w, ks, e, _⟩
    · exact e
    · have := hC.plain t j _ _ hj e; cases this
  subst htxt
  rcases hcase with ⟨e, _⟩ | ⟨j', e, hp, hh, hsig⟩
  · have := hC.parse _ _ _ _ hj e; cases this
  · have := hC.parse _ _ _ _ hj e
    cases this
    have hva : ∀ w, dget (pick idTokenVerifyArgs kw) "verify" = some w → w.truthy = true := by
      intro w hw
      rw [dget_pick, if_pos (by decide)] at hw
      exact hs.verify w hw
    obtain ⟨kj, txt₂, j₂, ks, pl, e0, hop, e1, e2, hk, hvc, _, _⟩ := C19_signature C hC.stable _ _ _ _ m hf hva
      j.headers hh (by rw [ha]; intro e; exact hne (Option.some.inj e))
    have ht2 : txt₂ = txt' := by
      rcases hop with ⟨_, e⟩ | ⟨w, ks, e, _⟩
      · exact e
      · have := hC.plain _ j _ _ hj e; cases this
    subst ht2
    have := hC.parse _ _ _ _ hj e2
    cases this
    obtain ⟨w, hw, hg⟩ := (((C24_iff _ _ _).1 hver).1 "iss" singleRequiredString (by simp [oidc_IdToken]) (by decide)).1 rfl
    obtain ⟨i, rfl, hsrc⟩ := iss_source (hC.payload _ _ _ _ hj hp hi) hfd hw (hg.resolve_right (by simp [singleRequiredString]))
    exact ⟨jso, d, m.st, i, hC.sound _ _ _ _ _ _ _ _ hj hk hvc hp hi hsrc, hi, hC.payload _ _ _ _ hj hp hi, hsrc, hfd, hw, hver, rfl⟩

/-- What the caller may rely on after a successful verification: the claims in the slot were signed, name the expected
issuer and have this client as an audience, have not expired, and carry no other nonce than the expected one. -/
structure AuthenticSlot (Signed : String → Val → Prop) (now : Int) (iss client : String) (kw : Dict) (slot : Option Val) : Prop where
  claims : ∃ p d claims, Signed iss p ∧ p.itemsOf = .ok d ∧ fromDictR oidc_IdToken [] d = .ok claims ∧
    slot = some (.msg oidc_IdToken.cls claims) ∧
    dget claims "iss" = some (.str iss) ∧
    dget d "iss" = some (.str iss) ∧ (∃ aud, dget d "aud" = some aud ∧ NamesAudience aud client) ∧
    (∃ skew e, NumArg kw "skew" 0 skew ∧ NumAt claims "exp" e ∧ (now : Rat) - skew ≤ e) ∧
    SameIfBoth claims kw "nonce"

theorem authentic_of_verify {Signed : String → Val → Prop} {now : Int} {iss client : String} {kw : Dict} {slot : Option Val}
    (hi : dget kw "iss" = some (.str iss)) (hc : dget kw "client_id" = some (.str client))
    {p : Val} {d claims : Dict} {i : String} (h1 : Signed i p) (h2 : p.itemsOf = .ok d) (hn : DNodup d) (h6 : dget d "iss" = some (.str i)) (h3 : fromDictR oidc_IdToken [] d = .ok claims)
    (h0 : dget claims "iss" = some (.str i)) (h4 : idTokenVerify now claims kw = .ok ()) (h5 : slot = some (.msg oidc_IdToken.cls claims)) :
    AuthenticSlot Signed now iss client kw slot := by
  obtain ⟨a1, _, _, a4, a5, _, ⟨skew, e, i, s, k1, k2, _, _, k5, _⟩, a8⟩ := (C24_iff _ _ _).1 h4
  have := a4 _ _ h0 hi
  rw [eq_str_iff, Val.str.injEq] at this
  subst this
  refine ⟨p, d, claims, h1, h2, h3, h5, h0, h6, ?_, ⟨skew, e, k1, k2, k5⟩, a8⟩
  · obtain ⟨aud, ha, _⟩ := (a1 "aud" requiredListOfStrings (by simp [oidc_IdToken]) (by decide)).1 rfl
    exact aud_source hn h3 ha ((a5 aud ha).1 _ hc)

/-- **C116**, token responses. -/
theorem C116_token_response {C : Crypto} {Signed : String → Val → Prop} (hC : Trustworthy C Signed) {now : Int} {st : Dict}
    {jar : JarArg C} {kw st' : Dict} (hs : Strict kw) {iss client : String} (hi : dget kw "iss" = some (.str iss))
    (hc : dget kw "client_id" = some (.str client)) (hid : dget st "id_token" ≠ none)
    (h : accessTokenResponseVerify C now st jar kw = .ok st') :
    AuthenticSlot Signed now iss client kw (dget st' "__verified_id_token") := by
  unfold accessTokenResponseVerify at h
  simp only [bind_ok] at h
  obtain ⟨_, _, h⟩ := h
  have e : dget (clearVerifiedClaims st) "id_token" = dget st "id_token" :=
    clear_dget _ _ (by decide) (by decide) (by decide)
  unfold verifyIfPresent at h
  split at h
  · obtain ⟨p, d, claims, i, h1, h2, hn, h6, h3, h0, h4, rfl⟩ := C116_token hC hs h
    exact authentic_of_verify hi hc h1 h2 hn h6 h3 h0 h4 (dget_dset_same _ _ _)
  · next hn =>
    simp only [dhas, e, Bool.not_eq_true, Option.isSome_eq_false_iff, Option.isNone_iff_eq_none] at hn
    exact absurd hn hid

/-- **C116**, authorization responses. -/
theorem C116_authz_response {C : Crypto} {Signed : String → Val → Prop} (hC : Trustworthy C Signed) {now : Int} {st : Dict}
    {jar : JarArg C} {kw st' : Dict} (hs : Strict kw) {iss client : String} (hi : dget kw "iss" = some (.str iss))
    (hc : dget kw "client_id" = some (.str client)) (hid : dget st "id_token" ≠ none)
    (h : authzResponseVerify C now st jar kw = .ok (true, st')) :
    AuthenticSlot Signed now iss client kw (dget st' "__verified_id_token") := by
  unfold authzResponseVerify at h
  simp only [bind_ok] at h
  obtain ⟨_, _, mine, _, h⟩ := h
  have e : dget (clearVerifiedClaims st) "id_token" = dget st "id_token" :=
    clear_dget _ _ (by decide) (by decide) (by decide)
  unfold authzResponseRest at h
  cases mine with
  | false => simp at h
  | true =>
    simp only [if_true, map_ok, Prod.mk.injEq, true_and] at h
    obtain ⟨s, h, rfl⟩ := h
    unfold verifyIfPresent at h
    split at h
    · obtain ⟨p, d, claims, i, h1, h2, hn, h6, h3, h0, h4, rfl⟩ := C116_token hC hs h
      exact authentic_of_verify hi hc h1 h2 hn h6 h3 h0 h4 (dget_dset_same _ _ _)
    · next hn =>
      simp only [dhas, e, Bool.not_eq_true, Option.isSome_eq_false_iff, Option.isNone_iff_eq_none] at hn
      exact absurd hn hid

/-- **C116**, messages that carry an ID token (token refresh and the like). -/
theorem C116_message {C : Crypto} {Signed : String → Val → Prop} (hC : Trustworthy C Signed) {now : Int} {sch : Schema}
    {st : Dict} {jar : JarArg C} {kw st' : Dict} (hs : Strict kw) {iss client : String}
    (hi : dget kw "iss" = some (.str iss)) (hc : dget kw "client_id" = some (.str client))
    (hid : dget st "id_token" ≠ none) (h : messageWithIdTokenVerify C now sch st jar kw = .ok st') :
    AuthenticSlot Signed now iss client kw (dget st' "__verified_id_token") := by
  unfold messageWithIdTokenVerify at h
  simp only [bind_ok] at h
  obtain ⟨_, _, h⟩ := h
  unfold verifyIfPresent at h
  split at h
  · obtain ⟨p, d, claims, i, h1, h2, hn, h6, h3, h0, h4, rfl⟩ := C116_token hC hs h
    exact authentic_of_verify hi hc h1 h2 hn h6 h3 h0 h4 (dget_dset_same _ _ _)
  · next hn =>
    simp only [Bool.not_eq_true, dhas_eq_false_iff] at hn
    exact absurd hn hid

/-- **C116**, end-session requests. -/
theorem C116_end_session {C : Crypto} {Signed : String → Val → Prop} (hC : Trustworthy C Signed) {now : Int}
    {st : Dict} {jar : JarArg C} {kw st' : Dict} {b : Bool} (hs : Strict kw) {iss client : String}
    (hi : dget kw "iss" = some (.str iss)) (hc : dget kw "client_id" = some (.str client))
    (hid : dget st "id_token_hint" ≠ none) (h : endSessionVerify C now st jar kw = .ok (b, st')) :
    AuthenticSlot Signed now iss client kw (dget st' "__verified_id_token_hint") := by
  rcases endSession_ok h with ⟨_, h⟩ | ⟨h1, _⟩
  · unfold hintVerify at h
    simp only [bind_ok, getR_ok] at h
    obtain ⟨v, hv, m, hm, s, hs', h⟩ := h
    cases h
    obtain ⟨v', j, _, _, _, m', hv', hj, _, _, _, _, hm', _, _, e'⟩ := verifyIdToken_ok hs'
    rw [hv] at hv'; cases hv'
    obtain ⟨p, d, claims, i, h1, h2, hn, h6, h3, h0, h4, e⟩ := C116_token hC hs hs'
    obtain ⟨t, rfl⟩ := hC.text v j hj
    have hst : m.st = m'.st := by
      simp only [strOf] at hm hm'
      obtain ⟨_, _, _, _, rfl, hd, _⟩ := fromJwt_ok hm
      rcases decryptStep_ok hd with ⟨e1, _⟩ | ⟨w, ks, e1, _⟩
      · exact (fromJwt_plain_same e1 hm hm').1
      · have := hC.plain t j _ _ hj e1; cases this
    have hcl : m'.st = claims := by
      have := (congrArg (fun x => dget x (verifiedClaimName "id_token_hint")) (e'.symm.trans e))
      simp only [dget_dset_same, Option.some.injEq, Val.msg.injEq, true_and] at this
      exact this
    rw [dget_dset_same, hst, hcl]
    exact authentic_of_verify hi hc h1 h2 hn h6 h3 h0 h4 rfl
  · exact absurd h1 hid

/-! ### the hypotheses can be met -/

theorem toy_trustworthy (keys : List String) : Trustworthy (toyCrypto toyTokens ["https://op"] keys)
    (fun i p => i = "https://op" ∧ p = .dict toyClaims ∧ keys ≠ []) where
  stable := by intro _ _ _ _ _ _ _; rfl
  text := by
    intro v j h
    cases v <;> simp [toyCrypto] at h
    exact ⟨_, rfl⟩
  parse := by
    intro t j a oj h h'
    simp only [toyCrypto, Except.ok.injEq] at h h'
    rw [← h', h]
  plain := by
    intro t j a ow _ h
    cases h; rfl
  payload := by
    intro v j p d h hp hd
    cases v <;> simp [toyCrypto] at h
    have := dget_mem h
    simp only [toyTokens, List.mem_cons, Prod.mk.injEq, List.not_mem_nil, or_false] at this
    rcases this with ⟨_, rfl⟩ | ⟨_, rfl⟩ <;> simp only [Except.ok.injEq] at hp <;> subst hp <;>
      simp only [Val.itemsOf, Except.ok.injEq] at hd <;> subst hd <;> unfold DNodup <;> decide
  sound := by
    intro kj t j kw ks p d i h hk hv hp hd hi
    have hne : keys ≠ [] := by
      rintro rfl
      have : ks = [] := by
        rcases hk with e | ⟨_, _, e⟩ <;> simp [toyCrypto] at e <;> exact (congrArg Prod.fst e).symm
      subst this
      simp [toyCrypto] at hv
    simp only [toyCrypto, Except.ok.injEq] at h
    have := dget_mem h
    simp only [toyTokens, List.mem_cons, Prod.mk.injEq, List.not_mem_nil, or_false] at this
    rcases this with ⟨_, rfl⟩ | ⟨_, rfl⟩ <;> simp only [Except.ok.injEq] at hp <;> subst hp <;>
      simp only [Val.itemsOf, Except.ok.injEq] at hd <;> subst hd <;>
      simp [toyClaims, dget] at hi <;> exact ⟨hi.symm, rfl, hne⟩

def strictArgs : Dict := [("iss", .str "https://op"), ("client_id", .str "client"), ("nonce", .str "n")]

theorem strictArgs_strict : Strict strictArgs where
  verify := by intro v h; simp [strictArgs, dget] at h
  sigalg := by simp [strictArgs, dget]
  none := .inl rfl

example : (accessTokenResponseVerify toy 1500 [("access_token", .str "at"), ("token_type", .str "Bearer"),
    ("id_token", .str "T")] (some (some ())) strictArgs).isOk = true := by decide +kernel
/-- the unsigned token with the same claims is refused -/
example : accessTokenResponseVerify toy 1500 [("access_token", .str "at"), ("token_type", .str "Bearer"),
    ("id_token", .str "U")] (some (some ())) strictArgs = .error .unsupportedAlgorithm := by decide +kernel
example : (authzResponseVerify toy 1500 [("id_token", .str "T")] (some (some ())) strictArgs).map (·.1)
    = .ok true := by decide +kernel
example : (messageWithIdTokenVerify toy 1500 oidc_MessageWithIdToken [("id_token", .str "T")] (some (some ()))
    strictArgs).isOk = true := by decide +kernel
example : (endSessionVerify toy 1500 [("id_token_hint", .str "T")] (some (some ())) strictArgs).map (·.1)
    = .ok true := by decide +kernel

/-- Without `Strict` the conclusion fails: with `allow_sign_alg_none` a token gets in although nobody signed anything. -/
theorem C116_needs_strict :
    Trustworthy (toyCrypto toyTokens ["https://op"] []) (fun _ _ => False) ∧
    (accessTokenResponseVerify (toyCrypto toyTokens ["https://op"] []) 1500 [("access_token", .str "at"),
      ("token_type", .str "Bearer"), ("id_token", .str "U")] (some (some ()))
      (("allow_sign_alg_none", .bool true) :: strictArgs)).isOk = true := by
  refine ⟨?_, by decide +kernel⟩
  have h := toy_trustworthy []
  exact ⟨h.stable, h.text, h.parse, h.plain, h.payload,
    fun kj t j kw ks p d i a b c e f g => (h.sound kj t j kw ks p d i a b c e f g).2.2 rfl⟩

/-! ### encrypted ID tokens -/

/-- What is not a signed token as it stands is refused: the text is taken for a signed token before anything is
decrypted.  So an encrypted ID token is never accepted in a response. -/
theorem C116_not_signed {C : Crypto} {now : Int} {st : Dict} {claim : String} {checkHash : Bool} {jar : JarArg C}
    {kw : Dict} {v : Val} (hv : dget st claim = some v) (hj : C.jws v none = .ok none) :
    ∃ e, verifyIdToken C now st claim checkHash jar kw = .error e := by
  cases h : verifyIdToken C now st claim checkHash jar kw with
  | error e => exact ⟨e, rfl⟩
  | ok st' =>
    obtain ⟨v', j, _, _, _, _, hv', hj', _⟩ := verifyIdToken_ok h
    rw [hv] at hv'; cases hv'
    rw [hj] at hj'; cases hj'

example : toy.jws (.str "E") none = .ok none := rfl

/-! ## C117: the parts of a response belong together -/

/-- What is assumed of the hash function: it gives texts, and different ones for different values. -/
structure CollisionFree (C : Crypto) : Prop where
  text : ∀ v f x, C.leftHash v f = .ok x → ∃ s, x = .str s
  inj : ∀ v w f x, C.leftHash v f = .ok x → C.leftHash w f = .ok x → v = w

/-- what a signed token decodes to is independent of the keys and the arguments it is decoded with -/
theorem decoded_is {C : Crypto} {Signed : String → Val → Prop} (hC : Trustworthy C Signed) {sch : Schema} {t : String}
    {j : Jws} (hj : C.jws (.str t) none = .ok (some j)) {jar : JarArg C} {args : Dict} {m : JwtMsg C}
    (h : fromJwt C sch t jar args = .ok m) :
    m.header = some j.headers ∧ ∃ p d, j.payload = .ok p ∧ p.itemsOf = .ok d ∧ fromDictR sch sch.default d = .ok m.st := by
  obtain ⟨jar₀, txt', jso, d, rfl, hd, hi, hfd, hcase⟩ := fromJwt_ok h
  have htxt : txt' = t := by
    rcases decryptStep_ok hd with ⟨_, e⟩ | ⟨w, ks, e, _⟩
    · exact e
    · have := hC.plain t j _ _ hj e; cases this
  subst htxt
  rcases hcase with ⟨e, _⟩ | ⟨j', e, hp, hh, _⟩
  · have := hC.parse _ _ _ _ hj e; cases this
  · have := hC.parse _ _ _ _ hj e
    cases this
    exact ⟨hh, jso, d, hp, hi, hfd⟩

/-- **C117**: authorization responses that are accepted with the same signed ID token do not differ in the access token
nor in the code, whenever they were received, with whatever keys and arguments. -/
theorem C117_authz_response {C : Crypto} {Signed : String → Val → Prop} (hC : Trustworthy C Signed)
    (hH : CollisionFree C) {now₁ now₂ : Int} {st₁ st₂ : Dict} {jar₁ jar₂ : JarArg C} {kw₁ kw₂ st₁' st₂' : Dict}
    {v : Val} {j : Jws} {alg : Val} (hv₁ : dget st₁ "id_token" = some v) (hv₂ : dget st₂ "id_token" = some v)
    (hj : C.jws v none = .ok (some j)) (ha : dget j.headers "alg" = some alg) (hn : alg ≠ .str "none")
    (h₁ : authzResponseVerify C now₁ st₁ jar₁ kw₁ = .ok (true, st₁'))
    (h₂ : authzResponseVerify C now₂ st₂ jar₂ kw₂ = .ok (true, st₂')) {k : String}
    (hk : k = "access_token" ∨ k = "code") {x y : Val} (hx : dget st₁ k = some x) (hy : dget st₂ k = some y) : x = y := by
  obtain ⟨t, rfl⟩ := hC.text v j hj
  obtain ⟨idt₁, a₁, m₁, hdr₁, _, f₁, rfl, e₁, b₁, c₁, d₁⟩ := C23_hashes C now₁ st₁ jar₁ kw₁ st₁' _ j alg hv₁ hj ha hn h₁
  obtain ⟨idt₂, a₂, m₂, hdr₂, _, f₂, rfl, e₂, b₂, c₂, d₂⟩ := C23_hashes C now₂ st₂ jar₂ kw₂ st₂' _ j alg hv₂ hj ha hn h₂
  obtain ⟨g₁, p₁, q₁, i₁, r₁, s₁⟩ := decoded_is hC hj f₁
  obtain ⟨g₂, p₂, q₂, i₂, r₂, s₂⟩ := decoded_is hC hj f₂
  rw [i₁] at i₂; cases i₂
  rw [r₁] at r₂; cases r₂
  rw [s₁, ok_ok] at s₂
  rw [e₁] at g₁; cases g₁
  rw [e₂] at g₂; cases g₂
  rw [b₁] at b₂; cases b₂
  rw [← s₂] at c₂ d₂
  have key : ∀ hk : String, (∃ w z, dget m₁.st hk = some w ∧ C.leftHash x
        ("HS" ++ String.ofList (a₁.toList.drop (a₁.toList.length - 3))) = .ok z ∧ w.eq z = true) →
      (∃ w z, dget m₁.st hk = some w ∧ C.leftHash y
        ("HS" ++ String.ofList (a₁.toList.drop (a₁.toList.length - 3))) = .ok z ∧ w.eq z = true) → x = y := by
    rintro hk ⟨w, z, u1, u2, u3⟩ ⟨w', z', u1', u2', u3'⟩
    rw [u1] at u1'; cases u1'
    obtain ⟨s, rfl⟩ := hH.text _ _ _ u2
    obtain ⟨s', rfl⟩ := hH.text _ _ _ u2'
    rw [eq_str_iff] at u3 u3'
    rw [u3] at u3'
    rw [← u3'] at u2'
    exact hH.inj _ _ _ _ u2 u2'
  rcases hk with rfl | rfl
  · exact key _ (c₁ x hx) (c₂ y hy)
  · exact key _ (d₁ x hx) (d₂ y hy)

/-- a library with a collision-free hash function, and a token with both hashes -/
def boundClaims : Dict := dset toyClaims "c_hash" (.str "HS256:code")
abbrev boundToy : Crypto :=
  toyCrypto [("T", ⟨[("alg", .str "RS256")], .ok (.dict boundClaims)⟩)] ["https://op"] ["T"]

theorem boundToy_collisionFree : CollisionFree boundToy where
  text := by
    intro v f x h
    cases v <;> simp [toyCrypto] at h
    exact ⟨_, h.symm⟩
  inj := by
    intro v w f x h h'
    cases v <;> simp [toyCrypto] at h
    cases w <;> simp [toyCrypto] at h'
    subst h
    simp only [Val.str.injEq] at h' ⊢
    have := congrArg String.toList h'
    simp only [String.toList_append] at this
    have := List.append_cancel_left this
    exact (String.toList_inj.1 this).symm

example : (authzResponseVerify boundToy 1500 [("id_token", .str "T"), ("access_token", .str "at"),
    ("token_type", .str "Bearer"), ("code", .str "code")] (some (some ())) strictArgs).map (·.1) = .ok true := by
  decide +kernel
/-- another code or another access token is refused -/
example : (authzResponseVerify boundToy 1500 [("id_token", .str "T"), ("access_token", .str "at"),
    ("token_type", .str "Bearer"), ("code", .str "stolen")] (some (some ())) strictArgs).map (·.1) = .error .cHashError ∧
  (authzResponseVerify boundToy 1500 [("id_token", .str "T"), ("access_token", .str "stolen"),
    ("token_type", .str "Bearer"), ("code", .str "code")] (some (some ())) strictArgs).map (·.1) = .error .atHashError := by
  decide +kernel

/-- C117 fails for token responses: they are accepted with any access token beside the same ID token, although this
carries the hash of another one. -/
theorem C117_counterexample_token_response :
    CollisionFree boundToy ∧ Strict strictArgs ∧
    (∀ t ∈ ["at", "stolen"], (accessTokenResponseVerify boundToy 1500 [("access_token", .str t),
      ("token_type", .str "Bearer"), ("id_token", .str "T")] (some (some ())) strictArgs).isOk = true) :=
  ⟨boundToy_collisionFree, strictArgs_strict, by decide +kernel⟩

end Verif
