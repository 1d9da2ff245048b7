import Verif.Model.Oidc

/-!
# Signed tokens: C19–C23, C75, C76

`from_jwt` and `verify_id_token`, for every crypto library, key jar and token.
-/

namespace Verif

/-! ## inversion lemmas -/

theorem bind_ok {α β : Type} {x : Res α} {f : α → Res β} {b : β} :
    (x >>= f) = .ok b ↔ ∃ a, x = .ok a ∧ f a = .ok b := by
  cases x with
  | error e => simp [bind, Except.bind]
  | ok a => simp [bind, Except.bind]

theorem map_ok {α β : Type} {x : Res α} {f : α → β} {b : β} :
    x.map f = .ok b ↔ ∃ a, x = .ok a ∧ f a = b := by
  cases x with
  | error e => simp [Except.map]
  | ok a => simp [Except.map]

theorem need_ok {b : Bool} {e : Exc} {u : Unit} : need b e = .ok u ↔ b = true := by
  cases b <;> simp [need]

theorem ok_ok {α : Type} {a b : α} : (Except.ok a : Res α) = .ok b ↔ a = b := by simp

theorem getR_ok {d : Dict} {k : String} {v : Val} : getR d k = .ok v ↔ dget d k = some v := by
  unfold getR; cases dget d k <;> simp

theorem getReq_ok {d : Dict} {k : String} {v : Val} : getReq d k = .ok v ↔ dget d k = some v := by
  unfold getReq; cases dget d k <;> simp

theorem eq_str_iff (v : Val) (s : String) : v.eq (.str s) = true ↔ v = .str s := by
  cases v <;> simp [Val.eq, Val.num?]

theorem str_eq_iff (v : Val) (s : String) : (Val.str s).eq v = true ↔ v = .str s := by
  cases v <;> simp [Val.eq, Val.num?]
  exact eq_comm

/-! ## C19 -/

/-- A key set that the key jar gives for the token, directly or after one refresh. -/
inductive KeysFor (C : Crypto) (kj : C.KeyJar) (j : Jws) (kw : Dict) : List C.Key → Prop where
  | direct {ks kj'} : C.keys kj j kw = .ok (ks, kj') → KeysFor C kj j kw ks
  | refreshed {ks₀ ks kj₁ kj₂ kj₃} : C.keys kj j kw = .ok (ks₀, kj₁) → C.update kj₁ = .ok kj₂ →
      C.keys kj₂ j kw = .ok (ks, kj₃) → KeysFor C kj j kw ks

/-- A jar that has just given keys is not an empty jar (`bool(keyjar)` is its number of owners). -/
def Crypto.JarStable (C : Crypto) : Prop :=
  ∀ kj j kw k ks kj', C.keys kj j kw = .ok (k :: ks, kj') → C.truthy kj' = true

theorem checkSig_ok {C : Crypto} (hC : C.JarStable) {j : Jws} {txt : String} {jar : Option C.KeyJar} {kw : Dict}
    {jar' : Option C.KeyJar} (h : checkSig C j txt jar kw = .ok jar') :
    ∃ kj ks, jar = some kj ∧ KeysFor C kj j kw ks ∧ C.verifyCompact j txt ks = .ok () := by
  unfold checkSig jarKeys at h
  cases jar with
  | none => simp at h
  | some kj =>
    simp only at h
    by_cases ht : C.truthy kj = true
    · rw [if_pos ht] at h
      cases hk : C.keys kj j kw with
      | error e => simp [hk] at h
      | ok p =>
        obtain ⟨ks, kj'⟩ := p
        cases ks with
        | nil => simp [hk] at h
        | cons k ks =>
          simp only [hk] at h
          cases hv : C.verifyCompact j txt (k :: ks) with
          | ok u => exact ⟨kj, k :: ks, rfl, .direct hk, hv⟩
          | error e =>
            rw [hv] at h
            have hr : retryVerify C j txt (some kj') kw = .ok jar' := by
              cases e <;> simp_all
            unfold retryVerify at hr
            simp only [hC _ _ _ _ _ _ hk, if_true] at hr
            cases hu : C.update kj' with
            | error e => simp [hu] at hr
            | ok kj₂ =>
              simp only [hu] at hr
              cases hk2 : C.keys kj₂ j kw with
              | error e => simp [hk2] at hr
              | ok q =>
                obtain ⟨ks2, kj₃⟩ := q
                simp only [hk2] at hr
                cases hv2 : C.verifyCompact j txt ks2 with
                | error e => simp [hv2] at hr
                | ok u => exact ⟨kj, ks2, rfl, .refreshed hk hu hk2, hv2⟩
    · rw [if_neg ht] at h; simp at h

/-- What a successful `from_jwt` has done: the text (decrypted when it was encrypted) was either not a signed
JWT and read as JSON, or a signed JWT whose payload became the message. -/
theorem fromJwt_ok {C : Crypto} {sch : Schema} {txt : String} {jar : JarArg C} {args : Dict} {m : JwtMsg C}
    (h : fromJwt C sch txt jar args = .ok m) :
    ∃ jar₀ txt' jso d, jar = some jar₀ ∧ decryptStep C txt jar₀ (ddel args "verify") = .ok txt' ∧
      jso.itemsOf = .ok d ∧ fromDictR sch sch.default d = .ok m.st ∧
      ((C.jws (.str txt') (sigAlg (ddel args "verify")) = .ok none ∧ loads txt' = .ok jso ∧ m.header = none ∧
          m.jar = jar₀) ∨
       ∃ j, C.jws (.str txt') (sigAlg (ddel args "verify")) = .ok (some j) ∧ j.payload = .ok jso ∧
          m.header = some j.headers ∧
          sigStep C j txt' jar₀ (verifyArg args) (ddel args "verify") = .ok m.jar) := by
  unfold fromJwt at h
  cases jar with
  | none => simp at h
  | some jar₀ =>
    simp only at h
    cases hd : decryptStep C txt jar₀ (ddel args "verify") with
    | error e => simp [hd] at h
    | ok txt' =>
      simp only [hd] at h
      unfold openStep at h
      cases hj : C.jws (.str txt') (sigAlg (ddel args "verify")) with
      | error e => simp [hj] at h
      | ok oj =>
        simp only [hj] at h
        cases oj with
        | none =>
          simp only at h
          cases hl : loads txt' with
          | error e => simp [hl] at h
          | ok jso =>
            simp only [hl] at h
            cases hi : jso.itemsOf with
            | error e => simp [hi] at h
            | ok d =>
              simp only [hi] at h
              cases hf : fromDictR sch sch.default d with
              | error e => simp [hf] at h
              | ok st =>
                simp only [hf] at h
                cases h
                exact ⟨jar₀, txt', jso, d, rfl, hd, hi, hf, .inl ⟨hj, hl, rfl, rfl⟩⟩
        | some j =>
          simp only at h
          cases hl : j.payload with
          | error e => simp [hl] at h
          | ok jso =>
            simp only [hl] at h
            cases hs : sigStep C j txt' jar₀ (verifyArg args) (ddel args "verify") with
            | error e => simp [hs] at h
            | ok jar' =>
              simp only [hs] at h
              cases hi : jso.itemsOf with
              | error e => simp [hi] at h
              | ok d =>
                simp only [hi] at h
                cases hf : fromDictR sch sch.default d with
                | error e => simp [hf] at h
                | ok st =>
                  simp only [hf] at h
                  cases h
                  exact ⟨jar₀, txt', jso, d, rfl, hd, hi, hf, .inr ⟨j, hj, hl, rfl, hs⟩⟩

/-- The text that is opened: the token itself, or what it decrypts to when it is encrypted. -/
def OpenedText (C : Crypto) (kw : Dict) (txt txt' : String) : Prop :=
  (C.jwe txt (algArg kw) = .ok none ∧ txt' = txt) ∨
  ∃ w ks, C.jwe txt (algArg kw) = .ok (some w) ∧ C.decrypt w txt ks = .ok txt'

theorem decryptStep_ok {C : Crypto} {txt txt' : String} {jar : Option C.KeyJar} {kw : Dict}
    (h : decryptStep C txt jar kw = .ok txt') : OpenedText C kw txt txt' := by
  unfold decryptStep at h
  split at h
  · simp at h
  · next hj => left; exact ⟨hj, by simpa using h.symm⟩
  · next w hj =>
    split at h
    · simp at h
    · split at h
      · simp at h
      · next ks _ => right; exact ⟨w, ks, hj, h⟩

/-- C19: with verification on (the default, or any truthy `verify`), if `from_jwt` accepts a token whose
header algorithm is not `none`, then a key set from the key jar verified that very token (after decryption
when it was encrypted), and the message is exactly the payload of the verified token. -/
theorem C19_signature (C : Crypto) (hC : C.JarStable) (sch : Schema) (txt : String) (jar : JarArg C)
    (args : Dict) (m : JwtMsg C) (h : fromJwt C sch txt jar args = .ok m)
    (hv : ∀ v, dget args "verify" = some v → v.truthy = true)
    (hdr : Dict) (hh : m.header = some hdr) (halg : dget hdr "alg" ≠ some (.str "none")) :
    ∃ kj txt' j ks payload,
      jar = some (some kj) ∧ OpenedText C (ddel args "verify") txt txt' ∧ j.headers = hdr ∧
      C.jws (.str txt') (sigAlg (ddel args "verify")) = .ok (some j) ∧
      KeysFor C kj j (ddel args "verify") ks ∧ C.verifyCompact j txt' ks = .ok () ∧
      (j.payload = .ok (.dict payload) ∨ ∃ c, j.payload = .ok (.msg c payload)) ∧
      fromDictR sch sch.default payload = .ok m.st := by
  obtain ⟨jar₀, txt', jso, d, rfl, hd, hi, hf, hcase⟩ := fromJwt_ok h
  rcases hcase with ⟨_, _, hn, _⟩ | ⟨j, hj, hp, hm, hs⟩
  · rw [hn] at hh; simp at hh
  · rw [hm] at hh; cases hh
    unfold sigStep at hs
    cases ha : dget j.headers "alg" with
    | none => simp [ha] at hs
    | some alg =>
      simp only [ha] at hs
      have hne : alg.eq (.str "none") ≠ true := by
        intro e; rw [eq_str_iff] at e; subst e; exact halg ha
      rw [if_neg hne] at hs
      have hva : verifyArg args = true := by
        unfold verifyArg
        cases hg : dget args "verify" with
        | none => rfl
        | some v => exact hv v hg
      rw [if_pos hva] at hs
      obtain ⟨kj, ks, rfl, hks, hvc⟩ := checkSig_ok hC hs
      refine ⟨kj, txt', j, ks, d, rfl, decryptStep_ok hd, rfl, hj, hks, hvc, ?_, hf⟩
      cases jso <;> simp [Val.itemsOf] at hi <;> subst hi
      · exact .inl hp
      · exact .inr ⟨_, hp⟩

/-- C19, non-empty key set: when no signature verifies against an empty key set (as in `cryptojwt`), the
verifying key set is not empty. -/
theorem C19_nonempty_keys (C : Crypto) (hC : C.JarStable) (h0 : ∀ j t, C.verifyCompact j t [] ≠ .ok ())
    (sch : Schema) (txt : String) (jar : JarArg C)
    (args : Dict) (m : JwtMsg C) (h : fromJwt C sch txt jar args = .ok m)
    (hv : ∀ v, dget args "verify" = some v → v.truthy = true)
    (hdr : Dict) (hh : m.header = some hdr) (halg : dget hdr "alg" ≠ some (.str "none")) :
    ∃ kj txt' j k ks, jar = some (some kj) ∧ j.headers = hdr ∧ OpenedText C (ddel args "verify") txt txt' ∧
      KeysFor C kj j (ddel args "verify") (k :: ks) ∧ C.verifyCompact j txt' (k :: ks) = .ok () := by
  obtain ⟨kj, txt', j, ks, _, h1, h2, h3, _, h5, h6, _⟩ := C19_signature C hC sch txt jar args m h hv hdr hh halg
  cases ks with
  | nil => exact absurd h6 (h0 j txt')
  | cons k ks => exact ⟨kj, txt', j, k, ks, h1, h3, h2, h5, h6⟩

/-- C19, the refusals: a token that is neither unsigned nor verified is refused.  Without keys the error is
`MissingSigningKey`. -/
theorem C19_no_keys (C : Crypto) (sch : Schema) (txt : String) (kj : C.KeyJar) (args : Dict) (j : Jws) (jso : Val)
    (h1 : C.jwe txt (algArg (ddel args "verify")) = .ok none)
    (h2 : C.jws (.str txt) (sigAlg (ddel args "verify")) = .ok (some j)) (h3 : j.payload = .ok jso)
    (alg : Val) (h4 : dget j.headers "alg" = some alg) (h5 : alg ≠ .str "none")
    (hv : ∀ v, dget args "verify" = some v → v.truthy = true)
    (hk : C.truthy kj = false ∨ ∃ kj', C.keys kj j (ddel args "verify") = .ok ([], kj')) :
    fromJwt C sch txt (some (some kj)) args = .error .missingSigningKey := by
  have hva : verifyArg args = true := by
    unfold verifyArg
    cases hg : dget args "verify" with
    | none => rfl
    | some v => exact hv v hg
  have hne : ¬ alg.eq (.str "none") = true := by rwa [eq_str_iff]
  have hc : checkSig C j txt (some kj) (ddel args "verify") = .error .missingSigningKey := by
    unfold checkSig jarKeys
    rcases hk with hk | ⟨kj', hk⟩
    · simp [hk]
    · by_cases ht : C.truthy kj = true <;> simp [ht, hk]
  simp [fromJwt, decryptStep, h1, openStep, h2, h3, sigStep, h4, hne, hva, hc]

/-! ## A small crypto library for the examples

Tokens and key sets are looked up in tables; a key verifies the token it is named after. -/

def toyCrypto (tokens : List (String × Jws)) (issuers : List String) (keys : List String) : Crypto where
  KeyJar := Unit
  Key := String
  Jwe := Empty
  jwe := fun _ _ => .ok none
  decryptKeys := fun _ => .ok []
  decrypt := fun w _ _ => nomatch w
  jws := fun v _ => match v with
    | .str t => .ok (dget tokens t)
    | _ => .error (.crypto 0)
  truthy := fun _ => !issuers.isEmpty
  keys := fun _ _ _ => .ok (keys, ())
  update := fun _ => .ok ()
  verifyCompact := fun _ t ks => if ks.contains t then .ok () else .error .noSuitableSigningKeys
  hasIssuer := fun _ v => match v with
    | .str i => .ok (issuers.contains i)
    | _ => .ok false
  leftHash := fun v f => match v with
    | .str s => .ok (.str (f ++ ":" ++ s))
    | _ => .error .typeError
  repr := fun _ => ""

def toyClaims : Dict :=
  [("iss", .str "https://op"), ("sub", .str "s"), ("aud", .list [.str "client"]), ("exp", .int 2000),
   ("iat", .int 1000), ("at_hash", .str "HS256:at"), ("nonce", .str "n")]

/-- a signed token "T" and an unsigned one "U" with the same claims -/
def toyTokens : List (String × Jws) :=
  [("T", ⟨[("alg", .str "RS256")], .ok (.dict toyClaims)⟩), ("U", ⟨[("alg", .str "none")], .ok (.dict toyClaims)⟩)]

abbrev toy : Crypto := toyCrypto toyTokens ["https://op"] ["T"]

theorem toy_stable : toy.JarStable := by intro _ _ _ _ _ _ _; rfl

/-- the hypotheses of `C19_signature` are met by the signed token -/
example : (fromJwt toy oidc_IdToken "T" (some (some ())) []).map (fun m => (m.header, m.st))
    = .ok (some [("alg", .str "RS256")], toyClaims) := by decide +kernel
/-- with a key jar whose keys do not fit, the token is refused -/
example : (fromJwt (toyCrypto toyTokens ["https://op"] ["X"]) oidc_IdToken "T" (some (some ())) []).map (·.st)
    = .error .noSuitableSigningKeys := by decide +kernel
example : (fromJwt (toyCrypto toyTokens ["https://op"] []) oidc_IdToken "T" (some (some ())) []).map (·.st)
    = .error .missingSigningKey := by decide +kernel

/-! ## C75: plain JSON instead of a token -/

/-- C75: a text that the crypto library does not recognise as an encrypted or signed JWT is read as a JSON
document: with any key jar, even none at all, `from_jwt` then gives the same message as `from_json`. -/
theorem C75_plain_json (C : Crypto) (sch : Schema) (txt : String) (jar : Option C.KeyJar) (args : Dict)
    (h1 : C.jwe txt (algArg (ddel args "verify")) = .ok none)
    (h2 : C.jws (.str txt) (sigAlg (ddel args "verify")) = .ok none) (st : Dict)
    (h : fromJson sch sch.default txt = .ok st) :
    fromJwt C sch txt (some jar) args = .ok ⟨st, none, jar⟩ := by
  unfold fromJson at h
  rw [bind_ok] at h
  obtain ⟨v, hl, h⟩ := h
  rw [bind_ok] at h
  obtain ⟨d, hi, h⟩ := h
  simp [fromJwt, decryptStep, h1, openStep, h2, hl, hi, h]

example : (fromJwt toy oidc_IdToken "{\"iss\": \"https://op\"}" (some none) []).map (·.st)
    = .ok [("iss", .str "https://op")] := by decide +kernel

/-- C76: an unsigned token (header algorithm `none`) is accepted by `from_jwt` whatever the key jar, also
with verification on: refusing it is left to the caller. -/
theorem C76_alg_none (C : Crypto) (sch : Schema) (txt : String) (jar : Option C.KeyJar) (args : Dict) (j : Jws)
    (d st : Dict) (h1 : C.jwe txt (algArg (ddel args "verify")) = .ok none)
    (h2 : C.jws (.str txt) (sigAlg (ddel args "verify")) = .ok (some j))
    (h3 : j.payload = .ok (.dict d)) (h4 : dget j.headers "alg" = some (.str "none"))
    (h : fromDictR sch sch.default d = .ok st) :
    fromJwt C sch txt (some jar) args = .ok ⟨st, some j.headers, jar⟩ := by
  have he : (Val.str "none").eq (.str "none") = true := by rw [eq_str_iff]
  simp [fromJwt, decryptStep, h1, openStep, h2, h3, sigStep, h4, he, Val.itemsOf, h]

example : (fromJwt toy oidc_IdToken "U" (some none) []).map (·.st) = .ok toyClaims := by decide +kernel

/-! ## verify_id_token -/

/-- What a successful `verify_id_token` has done. -/
theorem verifyIdToken_ok {C : Crypto} {now : Int} {st : Dict} {claim : String} {checkHash : Bool} {jar : JarArg C}
    {kw st' : Dict} (h : verifyIdToken C now st claim checkHash jar kw = .ok st') :
    ∃ v j alg signed body m, dget st claim = some v ∧ C.jws v none = .ok (some j) ∧
      dget j.headers "alg" = some alg ∧ algCheck alg kw = .ok signed ∧ j.payload = .ok body ∧
      issuerStep C signed body jar = .ok () ∧
      fromJwt C oidc_IdToken (strOf C v) jar (pick idTokenVerifyArgs kw) = .ok m ∧
      idTokenVerify now m.st kw = .ok () ∧ hashStep C (signed && checkHash) st m = .ok () ∧
      st' = dset st (verifiedClaimName claim) (.msg oidc_IdToken.cls m.st) := by
  unfold verifyIdToken at h
  simp only [bind_ok, getR_ok] at h
  obtain ⟨v, hv, m, hm, _, _, h⟩ := h
  cases h
  unfold verifyIdTokenCore at hm
  simp only [bind_ok, getR_ok] at hm
  obtain ⟨j, hj, alg, ha, signed, hs, body, hb, _, hi, m', hf, _, hver, _, hh, he⟩ := hm
  cases he
  unfold parseClaim at hj
  refine ⟨v, j, alg, signed, body, m, hv, ?_, ha, hs, hb, hi, hf, hver, hh, rfl⟩
  split at hj <;> simp_all

/-- C20: verification of an unsigned ID token only succeeds when the caller asked for signature algorithm
`none` or passed an `allow_sign_alg_none` that is not `False`. -/
theorem C20_unsigned (C : Crypto) (now : Int) (st : Dict) (claim : String) (checkHash : Bool) (jar : JarArg C)
    (kw st' : Dict) (v : Val) (j : Jws) (hv : dget st claim = some v) (hj : C.jws v none = .ok (some j))
    (halg : dget j.headers "alg" = some (.str "none"))
    (h : verifyIdToken C now st claim checkHash jar kw = .ok st') :
    dget kw "sigalg" = some (.str "none") ∨
    ∃ w, dget kw "allow_sign_alg_none" = some w ∧ w ≠ .bool false := by
  obtain ⟨v', j', alg, signed, body, m, hv', hj', ha, hs, _⟩ := verifyIdToken_ok h
  rw [hv] at hv'; cases hv'
  rw [hj] at hj'; cases hj'
  rw [halg] at ha; cases ha
  unfold algCheck at hs
  rw [if_pos (by rw [eq_str_iff])] at hs
  by_cases h1 : sigalgNone kw = true
  · left
    unfold sigalgNone at h1
    cases hg : dget kw "sigalg" with
    | none => simp [hg] at h1
    | some w => rw [hg] at h1; simp only [eq_str_iff] at h1; rw [h1]
  · right
    rw [if_neg h1] at hs
    by_cases h2 : noneForbidden kw = true
    · rw [if_pos h2] at hs; simp at hs
    · unfold noneForbidden at h2
      split at h2
      · simp at h2
      · simp at h2
      · next w hne hg => exact ⟨w, hg, fun e => hne e⟩

/-- C20, the error: such a token is refused with `UnsupportedAlgorithm` before its signature or content is
looked at. -/
theorem C20_error (C : Crypto) (now : Int) (st : Dict) (claim : String) (checkHash : Bool) (jar : JarArg C)
    (kw : Dict) (v : Val) (j : Jws) (hv : dget st claim = some v) (hj : C.jws v none = .ok (some j))
    (halg : dget j.headers "alg" = some (.str "none")) (h1 : dget kw "sigalg" ≠ some (.str "none"))
    (h2 : dget kw "allow_sign_alg_none" = none ∨ dget kw "allow_sign_alg_none" = some (.bool false)) :
    verifyIdToken C now st claim checkHash jar kw = .error .unsupportedAlgorithm := by
  have ha : algCheck (.str "none") kw = .error .unsupportedAlgorithm := by
    unfold algCheck
    rw [if_pos (by rw [eq_str_iff])]
    have : sigalgNone kw = false := by
      unfold sigalgNone
      cases hg : dget kw "sigalg" with
      | none => rfl
      | some w =>
        simp only
        cases he : w.eq (.str "none") with
        | false => rfl
        | true => rw [eq_str_iff] at he; subst he; exact absurd hg h1
    rw [this]
    have : noneForbidden kw = true := by
      unfold noneForbidden
      rcases h2 with h2 | h2 <;> rw [h2]
    rw [this]; rfl
  simp [verifyIdToken, getR, hv, verifyIdTokenCore, parseClaim, hj, halg, ha, bind, Except.bind]

/-- The finding behind C20: `allow_sign_alg_none=None` (or `0`) is not `False`, so it permits unsigned
tokens. -/
theorem C20_none_permits :
    (verifyIdToken toy 1500 [("id_token", .str "U")] "id_token" false (some (some ()))
      [("allow_sign_alg_none", .none)]).isOk = true := by decide +kernel

example : verifyIdToken toy 1500 [("id_token", .str "U")] "id_token" false (some (some ())) []
    = .error .unsupportedAlgorithm := by
  exact C20_error toy _ _ _ _ _ _ (.str "U") ⟨[("alg", .str "none")], .ok (.dict toyClaims)⟩ rfl rfl rfl
    (by simp) (.inl rfl)

/-- C21: if verification succeeds and the caller gave `allowed_sign_alg`, the header algorithm equals it, or
the token is unsigned and unsigned tokens were explicitly allowed. -/
theorem C21_allowed_alg (C : Crypto) (now : Int) (st : Dict) (claim : String) (checkHash : Bool) (jar : JarArg C)
    (kw st' : Dict) (allowed : Val) (hk : dget kw "allowed_sign_alg" = some allowed)
    (h : verifyIdToken C now st claim checkHash jar kw = .ok st') :
    ∃ v j alg, dget st claim = some v ∧ C.jws v none = .ok (some j) ∧ dget j.headers "alg" = some alg ∧
      (alg.eq allowed = true ∨
       alg = .str "none" ∧ (dget kw "sigalg" = some (.str "none") ∨
          ∃ w, dget kw "allow_sign_alg_none" = some w ∧ w ≠ .bool false)) := by
  have h' := h
  obtain ⟨v, j, alg, signed, body, m, hv, hj, ha, hs, _⟩ := verifyIdToken_ok h
  refine ⟨v, j, alg, hv, hj, ha, ?_⟩
  by_cases hn : alg = .str "none"
  · subst hn
    exact .inr ⟨rfl, C20_unsigned C now st claim checkHash jar kw st' v j hv hj ha h'⟩
  · left
    unfold algCheck at hs
    rw [if_neg (by rwa [eq_str_iff]), hk] at hs
    simp only at hs
    by_cases he : alg.eq allowed = true
    · exact he
    · rw [if_neg he] at hs; simp at hs

example : (verifyIdToken toy 1500 [("id_token", .str "T")] "id_token" false (some (some ()))
      [("allowed_sign_alg", .str "RS256")]).isOk = true := by decide +kernel
example : verifyIdToken toy 1500 [("id_token", .str "T")] "id_token" false (some (some ()))
      [("allowed_sign_alg", .str "ES256")] = .error .unsupportedAlgorithm := by decide +kernel

/-- C22: if verification of a signed ID token succeeds and a key jar was given, the token payload has an
issuer and the key jar knows it. -/
theorem C22_known_issuer (C : Crypto) (now : Int) (st : Dict) (claim : String) (checkHash : Bool)
    (jar : Option C.KeyJar) (kw st' : Dict) (v : Val) (j : Jws) (alg : Val) (hv : dget st claim = some v)
    (hj : C.jws v none = .ok (some j)) (ha : dget j.headers "alg" = some alg) (hn : alg ≠ .str "none")
    (h : verifyIdToken C now st claim checkHash (some jar) kw = .ok st') :
    ∃ kj payload iss, jar = some kj ∧ j.payload = .ok (.dict payload) ∧ dget payload "iss" = some iss ∧
      C.hasIssuer kj iss = .ok true := by
  obtain ⟨v', j', alg', signed, body, m, hv', hj', ha', hs, hb, hi, _⟩ := verifyIdToken_ok h
  rw [hv] at hv'; cases hv'
  rw [hj] at hj'; cases hj'
  rw [ha] at ha'; cases ha'
  have hsig : signed = true := by
    unfold algCheck at hs
    rw [if_neg (by rwa [eq_str_iff])] at hs
    split at hs
    · simpa using hs.symm
    · split at hs <;> simp at hs
      exact hs
  subst hsig
  simp only [issuerStep, if_true, issuerKnown, bind_ok] at hi
  obtain ⟨iss, hiss, hi⟩ := hi
  unfold bodyIss at hiss
  cases body <;> simp only [reduceCtorEq, getReq_ok] at hiss
  cases jar with
  | none => simp at hi
  | some kj =>
    refine ⟨kj, _, iss, rfl, hb, hiss, ?_⟩
    simp only at hi
    split at hi
    · next b hb => rw [need_ok] at hi; rw [hb, hi]
    · simp at hi

example : verifyIdToken (toyCrypto toyTokens ["https://other"] ["T"]) 1500 [("id_token", .str "T")] "id_token" false
    (some (some ())) [] = .error .valueError := by decide +kernel

/-! ## C23 -/

theorem hashCheck_ok {C : Crypto} {hfunc : String} {st idt : Dict} {attr hashAttr : String} {e : Exc} {u : Unit}
    (h : hashCheck C hfunc st idt attr hashAttr e = .ok u) (v : Val) (hv : dget st attr = some v) :
    ∃ w x, dget idt hashAttr = some w ∧ C.leftHash v hfunc = .ok x ∧ w.eq x = true := by
  unfold hashCheck at h
  simp only [hv, bind_ok, getReq_ok, need_ok] at h
  obtain ⟨w, hw, x, hx, he⟩ := h
  exact ⟨w, x, hw, hx, he⟩

theorem clear_dget (st : Dict) (k : String) (h1 : k ≠ "__verified_id_token") (h2 : k ≠ "__verified_id_token_hint")
    (h3 : k ≠ "__verified_request") : dget (clearVerifiedClaims st) k = dget st k := by
  unfold clearVerifiedClaims
  rw [dget_ddel_ne _ (Ne.symm h3), dget_ddel_ne _ (Ne.symm h2), dget_ddel_ne _ (Ne.symm h1)]

/-- C23: after successful verification of an OIDC authorization response with a signed ID token, the token
carries the hash of the access token under `at_hash` and of the code under `c_hash`, whenever the response has
these; the hash function is `HS` followed by the last three characters of the header algorithm. -/
theorem C23_hashes (C : Crypto) (now : Int) (st : Dict) (jar : JarArg C) (kw st' : Dict) (v : Val) (j : Jws)
    (alg : Val) (hv : dget st "id_token" = some v) (hj : C.jws v none = .ok (some j))
    (ha : dget j.headers "alg" = some alg) (hn : alg ≠ .str "none")
    (h : authzResponseVerify C now st jar kw = .ok (true, st')) :
    ∃ (idt : Dict) (a : String) (m : JwtMsg C) (hdr : Dict),
      dget st' "__verified_id_token" = some (.msg oidc_IdToken.cls idt) ∧
      fromJwt C oidc_IdToken (strOf C v) jar (pick idTokenVerifyArgs kw) = .ok m ∧ m.st = idt ∧
      m.header = some hdr ∧ dget hdr "alg" = some (.str a) ∧
      (∀ tok, dget st "access_token" = some tok → ∃ w x, dget idt "at_hash" = some w ∧
        C.leftHash tok ("HS" ++ String.ofList (a.toList.drop (a.toList.length - 3))) = .ok x ∧ w.eq x = true) ∧
      (∀ code, dget st "code" = some code → ∃ w x, dget idt "c_hash" = some w ∧
        C.leftHash code ("HS" ++ String.ofList (a.toList.drop (a.toList.length - 3))) = .ok x ∧ w.eq x = true) := by
  unfold authzResponseVerify at h
  simp only [bind_ok] at h
  obtain ⟨_, _, mine, _, h⟩ := h
  unfold authzResponseRest at h
  cases mine with
  | false => simp at h
  | true =>
    simp only [if_true, map_ok, Prod.mk.injEq, true_and] at h
    obtain ⟨s, h, rfl⟩ := h
    have hv1 : dget (clearVerifiedClaims st) "id_token" = some v := by
      rw [clear_dget _ _ (by decide) (by decide) (by decide), hv]
    unfold verifyIfPresent at h
    rw [if_pos (by simp [dhas, hv1])] at h
    obtain ⟨v', j', alg', signed, body, m, hv', hj', ha', hs, hb, hi, hm, _, hh, rfl⟩ := verifyIdToken_ok h
    rw [hv1] at hv'; cases hv'
    rw [hj] at hj'; cases hj'
    rw [ha] at ha'; cases ha'
    have hsig : signed = true := by
      unfold algCheck at hs
      rw [if_neg (by rwa [eq_str_iff])] at hs
      split at hs
      · simpa using hs.symm
      · split at hs <;> simp at hs
        exact hs
    subst hsig
    simp only [Bool.and_self, hashStep, if_true, hashChecks, bind_ok] at hh
    obtain ⟨hf, hhf, _, h1, h2⟩ := hh
    have hform : ∃ a hdr, m.header = some hdr ∧ dget hdr "alg" = some (.str a) ∧ hf = hashAlg a := by
      unfold headerHash at hhf
      split at hhf
      · simp at hhf
      · next hdr hd =>
        split at hhf
        · simp at hhf
        · next a ha => exact ⟨a, hdr, hd, ha, by simpa using hhf.symm⟩
        · simp at hhf
    obtain ⟨a, hdr, hd, had, rfl⟩ := hform
    refine ⟨m.st, a, m, hdr, ?_, hm, rfl, hd, had, ?_, ?_⟩
    · exact dget_dset_same _ _ _
    · intro tok ht
      exact hashCheck_ok h1 tok (by rw [clear_dget _ _ (by decide) (by decide) (by decide), ht])
    · intro code hc
      exact hashCheck_ok h2 code (by rw [clear_dget _ _ (by decide) (by decide) (by decide), hc])

/-- the hypotheses of C23 are met, and a wrong access token is refused -/
example : (authzResponseVerify toy 1500 [("id_token", .str "T"), ("access_token", .str "at")] (some (some ())) []).map
    (·.1) = .ok true := by decide +kernel
example : authzResponseVerify toy 1500 [("id_token", .str "T"), ("access_token", .str "xx")] (some (some ())) []
    = .error .atHashError := by decide +kernel
example : authzResponseVerify toy 1500 [("id_token", .str "T"), ("code", .str "c")] (some (some ())) []
    = .error .missingRequiredAttribute := by decide +kernel

end Verif
