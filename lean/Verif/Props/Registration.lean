import Verif.Props.Requests

/-!
# Registration, discovery, matching of claims, packing: C33–C35, C38, C72, C73
-/

namespace Verif

/-! ## C33 -/

/-- the three pairs of parameters -/
def encPairs : List (String × String) :=
  [("request_object_encryption_alg", "request_object_encryption_enc"),
   ("id_token_encrypted_response_alg", "id_token_encrypted_response_enc"),
   ("userinfo_encrypted_response_alg", "userinfo_encrypted_response_enc")]

theorem setItem_enc {enc : String} (h : dget oidc_RegistrationRequest.params enc = some singleOptionalString)
    (st : Dict) (s : String) : setItem oidc_RegistrationRequest st enc (.str s) = .ok (dset st enc (.str s)) := by
  simp [setItem, h, addValue, singleOptionalString, ignoredList, singleValue, Ty.isInst]

theorem pairStep_ok {st st' : Dict} {alg enc : String}
    (hd : dget oidc_RegistrationRequest.params enc = some singleOptionalString)
    (h : pairStep st alg enc = .ok st') :
    (dget st enc ≠ none → dget st alg ≠ none) ∧
    ∀ k, dget st' k =
      if k = enc ∧ dget st enc = none ∧ dget st alg ≠ none then some (.str "A128CBC-HS256") else dget st k := by
  unfold pairStep at h
  by_cases ha : dget st alg = none
  · have : dhas st alg = false := by simp [dhas, ha]
    rw [this] at h
    simp only [Bool.false_eq_true, if_false] at h
    by_cases he : dget st enc = none
    · have : dhas st enc = false := by simp [dhas, he]
      rw [this] at h; simp at h; subst h
      exact ⟨fun x => absurd he x, fun k => by simp [ha]⟩
    · have : dhas st enc = true := by simp [dhas, Option.isSome_iff_ne_none, he]
      rw [this] at h; simp at h
  · have : dhas st alg = true := by simp [dhas, Option.isSome_iff_ne_none, ha]
    rw [this] at h
    simp only [if_true] at h
    refine ⟨fun _ => ha, ?_⟩
    by_cases he : dget st enc = none
    · have : dhas st enc = false := by simp [dhas, he]
      rw [this, if_neg (by simp), setItem_enc hd] at h
      cases h
      intro k
      rw [dget_dset]
      by_cases hk : enc = k
      · subst hk; simp [he, ha]
      · have hk' : ¬ k = enc := fun e => hk e.symm
        simp [hk, hk']
    · have : dhas st enc = true := by simp [dhas, Option.isSome_iff_ne_none, he]
      rw [this] at h; simp at h; subst h
      intro k; simp [he]

/-- C33: what holds of a registration request after successful verification.  `st` is the request before, `st'`
afterwards. -/
theorem C33_registration (st st' : Dict) (h : registrationRequestVerify st = .ok st') :
    (∀ p ∈ encPairs, (dget st' p.1 = none ↔ dget st' p.2 = none)) ∧
    (∀ p ∈ encPairs, dget st p.1 ≠ none → dget st p.2 = none → dget st' p.2 = some (.str "A128CBC-HS256")) ∧
    (∀ k, (∀ p ∈ encPairs, k = p.2 → dget st p.2 ≠ none ∨ dget st p.1 = none) → dget st' k = dget st k) ∧
    (dget st' "token_endpoint_auth_signing_alg" ≠ some (.str "none")) ∧
    (∀ v, dget st' "initiate_login_uri" = some v → ∃ rest, v = .str (String.ofList ("https:".toList ++ rest))) := by
  unfold registrationRequestVerify at h
  simp only [bind_ok] at h
  obtain ⟨⟨⟩, _, ⟨⟩, hlogin, s1, h1, s2, h2, s3, h3, ⟨⟩, hsig, h⟩ := h
  cases h
  obtain ⟨a1, b1⟩ := pairStep_ok rfl h1
  obtain ⟨a2, b2⟩ := pairStep_ok rfl h2
  obtain ⟨a3, b3⟩ := pairStep_ok rfl h3
  have hall : ∀ k, dget st' k =
      if k = "userinfo_encrypted_response_enc" ∧ dget st "userinfo_encrypted_response_enc" = none ∧
          dget st "userinfo_encrypted_response_alg" ≠ none then some (.str "A128CBC-HS256")
      else if k = "id_token_encrypted_response_enc" ∧ dget st "id_token_encrypted_response_enc" = none ∧
          dget st "id_token_encrypted_response_alg" ≠ none then some (.str "A128CBC-HS256")
      else if k = "request_object_encryption_enc" ∧ dget st "request_object_encryption_enc" = none ∧
          dget st "request_object_encryption_alg" ≠ none then some (.str "A128CBC-HS256")
      else dget st k := by
    intro k
    rw [b3, b2, b2, b2, b1, b1, b1, b1, b1]
    simp
  have e1 : dget st "request_object_encryption_enc" ≠ none → dget st "request_object_encryption_alg" ≠ none := a1
  have e2 : dget st "id_token_encrypted_response_enc" ≠ none → dget st "id_token_encrypted_response_alg" ≠ none := by
    rw [b1, b1] at a2; simpa using a2
  have e3 : dget st "userinfo_encrypted_response_enc" ≠ none → dget st "userinfo_encrypted_response_alg" ≠ none := by
    rw [b2, b2, b1, b1, b1, b1] at a3; simpa using a3
  have ht : dget st' "token_endpoint_auth_signing_alg" = dget st "token_endpoint_auth_signing_alg" := by
    rw [hall]; simp
  refine ⟨?_, ?_, ?_, ?_, ?_⟩
  · intro p hp
    simp only [encPairs, List.mem_cons, List.not_mem_nil, or_false] at hp
    rcases hp with rfl | rfl | rfl <;> rw [hall, hall] <;> simp <;> grind
  · intro p hp
    simp only [encPairs, List.mem_cons, List.not_mem_nil, or_false] at hp
    rcases hp with rfl | rfl | rfl <;> intro x y <;> rw [hall] <;> simp [y] <;> exact fun z => absurd z x
  · intro k hk
    have k1 := hk _ (show ("request_object_encryption_alg", "request_object_encryption_enc") ∈ encPairs by decide)
    have k2 := hk _ (show ("id_token_encrypted_response_alg", "id_token_encrypted_response_enc") ∈ encPairs by decide)
    have k3 := hk _ (show ("userinfo_encrypted_response_alg", "userinfo_encrypted_response_enc") ∈ encPairs by decide)
    rw [hall]
    simp only at k1 k2 k3
    grind
  · unfold authSigningAlg at hsig
    intro he
    rw [he] at hsig
    simp only [need_ok, Bool.not_eq_true', ← Bool.not_eq_true] at hsig
    exact hsig ((eq_str_iff _ _).2 rfl)
  · intro v hv
    rw [hall] at hv
    simp at hv
    unfold initiateLogin at hlogin
    rw [hv] at hlogin
    cases v with
    | str s =>
      simp only [need_ok] at hlogin
      have : ∀ (p l : List Char), startsWithC p l = true → ∃ r, l = p ++ r := by
        intro p
        induction p with
        | nil => intro l _; exact ⟨l, rfl⟩
        | cons x xs ih =>
          intro l hl
          cases l with
          | nil => simp [startsWithC] at hl
          | cons y ys =>
            simp only [startsWithC, List.isPrefixOf, Bool.and_eq_true, beq_iff_eq] at hl
            obtain ⟨r, hr⟩ := ih ys hl.2
            exact ⟨r, by rw [hr, hl.1]; rfl⟩
      obtain ⟨r, hr⟩ := this _ _ hlogin
      exact ⟨r, by rw [← hr, String.ofList_toList]⟩
    | _ => simp at hlogin

/-- C33, the refusal: a content encryption algorithm without key management algorithm is refused. -/
theorem C33_enc_without_alg (st st' : Dict) (p : String × String) (hp : p ∈ encPairs) (h1 : dget st p.1 = none)
    (h2 : dget st p.2 ≠ none) : registrationRequestVerify st ≠ .ok st' := by
  intro h
  obtain ⟨c1, _, c3, _⟩ := C33_registration st st' h
  have key : ∀ k, (k = p.1 ∨ k = p.2) → dget st' k = dget st k := by
    intro k hk
    apply c3
    intro q hq hkq
    simp only [encPairs, List.mem_cons, List.not_mem_nil, or_false] at hp hq
    rcases hp with rfl | rfl | rfl <;> rcases hq with rfl | rfl | rfl <;> rcases hk with hk | hk <;>
      simp_all
  have := c1 p hp
  rw [key _ (.inl rfl), key _ (.inr rfl)] at this
  exact h2 (this.1 h1)

example : registrationRequestVerify [("redirect_uris", .list [.str "https://rp/cb"]),
      ("id_token_encrypted_response_alg", .str "RSA-OAEP"), ("initiate_login_uri", .str "https://rp/login")]
    = .ok [("redirect_uris", .list [.str "https://rp/cb"]), ("id_token_encrypted_response_alg", .str "RSA-OAEP"),
        ("initiate_login_uri", .str "https://rp/login"),
        ("id_token_encrypted_response_enc", .str "A128CBC-HS256")] := by decide +kernel
example : registrationRequestVerify [("redirect_uris", .list [.str "https://rp/cb"]),
      ("id_token_encrypted_response_enc", .str "A128CBC-HS256")] = .error .missingRequiredAttribute := by decide +kernel

/-! ## C34 -/

/-- C34: a registration response is accepted exactly when its parameters are acceptable and it has both or neither
of the configuration endpoint and the access token. -/
theorem C34_iff (st : Dict) :
    registrationResponseVerify st = .ok () ↔
      Acceptable oidc_RegistrationResponse st ∧ DescriptionOk st ∧
      (dget st "registration_client_uri" = none ↔ dget st "registration_access_token" = none) := by
  have hh : (dhas st "registration_client_uri" == dhas st "registration_access_token") = true ↔
      (dget st "registration_client_uri" = none ↔ dget st "registration_access_token" = none) := by
    unfold dhas
    cases dget st "registration_client_uri" <;> cases dget st "registration_access_token" <;> simp
  unfold registrationResponseVerify
  simp only [bind_ok, need_ok, hh]
  constructor
  · rintro ⟨⟨⟩, h1, h2⟩
    rw [C36_iff] at h1
    exact ⟨h1.1, h1.2, h2⟩
  · rintro ⟨h1, h2, h3⟩
    exact ⟨(), (C36_iff _ _).2 ⟨h1, h2⟩, h3⟩

example : registrationResponseVerify [("client_id", .str "c"), ("redirect_uris", .list [.str "https://rp/cb"])] = .ok () := by
  decide +kernel
example : registrationResponseVerify [("client_id", .str "c"), ("redirect_uris", .list [.str "https://rp/cb"]),
    ("registration_client_uri", .str "https://op/reg")] = .error .verificationError := by decide +kernel

/-! ## C72 -/

/-- C72: exact acceptance condition. -/
theorem C72_iff (st : Dict) :
    deviceTokenRequestVerify st = .ok () ↔
      Acceptable device_AccessTokenRequest st ∧
      (dget st "device_code" ≠ none → dget st "grant_type" ≠ none ∧ dget st "client_id" ≠ none) := by
  have hh : (!dhas st "device_code" || (dhas st "grant_type" && dhas st "client_id")) = true ↔
      (dget st "device_code" ≠ none → dget st "grant_type" ≠ none ∧ dget st "client_id" ≠ none) := by
    unfold dhas
    cases dget st "device_code" <;> cases dget st "grant_type" <;> cases dget st "client_id" <;> simp
  unfold deviceTokenRequestVerify
  simp only [bind_ok, need_ok, hh]
  rw [← C04_verify_iff]
  constructor
  · rintro ⟨⟨⟩, h⟩; exact h
  · intro h; exact ⟨(), h⟩

/-! ## C35 -/

/-- the characters accepted in a scope: %x23-5B / %x5D-7E (RFC 6749 also has %x21) -/
def ScopeChar (c : Char) : Prop := (0x23 ≤ c.toNat ∧ c.toNat ≤ 0x5B) ∨ (0x5D ≤ c.toNat ∧ c.toNat ≤ 0x7E)

theorem scopeChar_iff (c : Char) : scopeChar c = true ↔ ScopeChar c := by
  unfold scopeChar ScopeChar
  simp only [Bool.or_eq_true, Bool.and_eq_true, decide_eq_true_eq, char_le_iff_toNat]
  have h1 : '\x23'.toNat = 0x23 := rfl
  have h2 : '\x5b'.toNat = 0x5B := rfl
  have h3 : '\x5d'.toNat = 0x5D := rfl
  have h4 : '\x7e'.toNat = 0x7E := rfl
  rw [h1, h2, h3, h4]

/-- a scope made of such characters; `verify` also takes lists of them and dicts whose names are such characters -/
def ScopeText (v : Val) : Prop := ∃ l, v.iter = .ok l ∧ ∀ x ∈ l, ∃ c, x = .str (String.ofList [c]) ∧ ScopeChar c

theorem scopeText_str (s : String) : ScopeText (.str s) ↔ ∀ c ∈ s.toList, ScopeChar c := by
  unfold ScopeText
  simp only [Val.iter, Except.ok.injEq, exists_eq_left', List.forall_mem_map]
  constructor
  · intro h c hc
    obtain ⟨c', e, h'⟩ := h c hc
    have : c = c' := by
      have := congrArg String.toList (Val.str.inj e)
      simpa using this
    exact this ▸ h'
  · intro h c hc
    exact ⟨c, rfl, h c hc⟩

theorem checkScopeItems_iff (l : List Val) :
    checkScopeItems l = .ok () ↔ ∀ x ∈ l, ∃ c, x = .str (String.ofList [c]) ∧ ScopeChar c := by
  induction l with
  | nil => simp [checkScopeItems]
  | cons v vs ih =>
    have hv : checkScopeItem v = .ok () ↔ ∃ c, v = .str (String.ofList [c]) ∧ ScopeChar c := by
      unfold checkScopeItem
      split
      · rename_i s
        split
        · rename_i c hc
          rw [need_ok, scopeChar_iff]
          have hs : s = String.ofList [c] := by rw [← hc, String.ofList_toList]
          subst hs
          constructor
          · intro h; exact ⟨c, rfl, h⟩
          · rintro ⟨c', e, h⟩
            have : c = c' := by simpa using congrArg String.toList (Val.str.inj e)
            exact this ▸ h
        · rename_i hn
          simp only [reduceCtorEq, false_iff, not_exists, not_and]
          intro c e
          cases e
          exact absurd (by simp) (hn c)
      · simp
      · split <;> simp
      · rename_i h1 _ _
        simp only [reduceCtorEq, false_iff, not_exists, not_and]
        intro c e
        exact absurd e (h1 _)
    simp only [List.mem_cons, forall_eq_or_imp]
    rw [← ih, ← hv]
    rw [show checkScopeItems (v :: vs) = (match checkScopeItem v with
      | .ok () => checkScopeItems vs
      | .error e => .error e) from rfl]
    cases checkScopeItem v <;> simp

theorem checkScopes_iff (l : List Val) :
    checkScopes l = .ok () ↔ ∀ x ∈ l, ScopeText x := by
  induction l with
  | nil => simp [checkScopes]
  | cons v vs ih =>
    have hv : checkScope v = .ok () ↔ ScopeText v := by
      unfold checkScope ScopeText
      simp only [bind_ok, checkScopeItems_iff]
    simp only [List.mem_cons, forall_eq_or_imp]
    rw [← ih, ← hv]
    rw [show checkScopes (v :: vs) = (match checkScope v with
      | .ok () => checkScopes vs
      | .error e => .error e) from rfl]
    cases checkScope v <;> simp

theorem anyCode_false {l : List Val} (h : anyCode l = .ok false) : ∀ x ∈ l, (Val.str "code").contains x = .ok false := by
  induction l with
  | nil => simp
  | cons v vs ih =>
    rw [show anyCode (v :: vs) = (match (Val.str "code").contains v with
      | .ok false => anyCode vs
      | r => r) from rfl] at h
    cases hc : (Val.str "code").contains v with
    | error e => simp [hc] at h
    | ok b =>
      cases b with
      | true => simp [hc] at h
      | false => simp only [hc] at h; simp only [List.mem_cons, forall_eq_or_imp]; exact ⟨hc, ih h⟩

/-- `u` has no `?` and no `#`, except possibly one of each, in this order, at the very end -/
def NoQueryNoFragment (u : List Char) : Prop :=
  ∃ body, '#' ∉ body ∧ '?' ∉ body ∧
    (u = body ∨ u = body ++ ['?'] ∨ u = body ++ ['#'] ∨ u = body ++ ['?', '#'])

theorem splitFirst_empty {c : Char} {s : List Char} (h : ((splitFirst c s).2).getD [] = []) :
    c ∉ (splitFirst c s).1 ∧ (s = (splitFirst c s).1 ∨ s = (splitFirst c s).1 ++ [c]) := by
  cases hs : splitFirst c s with
  | mk a o =>
    rw [hs] at h
    cases o with
    | none => obtain ⟨h1, h2⟩ := splitFirst_none_iff.1 hs; exact ⟨by rw [h1]; exact h2, .inl h1.symm⟩
    | some r =>
      simp at h; subst h
      obtain ⟨h1, h2⟩ := splitFirst_some_iff.1 hs
      exact ⟨h2, .inr h1⟩

theorem noQueryNoFragment_of_rest {rest : List Char}
    (hf : ((splitFirst '#' rest).2).getD [] = []) (hq : ((splitFirst '?' (splitFirst '#' rest).1).2).getD [] = []) :
    NoQueryNoFragment rest := by
  obtain ⟨h1, h2⟩ := splitFirst_empty hf
  obtain ⟨h3, h4⟩ := splitFirst_empty hq
  refine ⟨(splitFirst '?' (splitFirst '#' rest).1).1, ?_, h3, ?_⟩
  · intro hm
    apply h1
    rcases h4 with h4 | h4 <;> rw [h4]
    · exact hm
    · exact List.mem_append_left _ hm
  · rcases h2 with h2 | h2 <;> rcases h4 with h4 | h4
    · left; rw [← h4]; exact h2
    · right; left; rw [← h4]; exact h2
    · right; right; left; rw [← h4]; exact h2
    · right; right; right
      rw [show ['?', '#'] = ['?'] ++ ['#'] from rfl, ← List.append_assoc, ← h4]; exact h2

theorem isSchemeChar_ne {c : Char} (h : isSchemeChar c = true) : c ≠ '#' ∧ c ≠ '?' := by
  constructor <;> (rintro rfl; revert h; decide)

/-- what an empty query and fragment say about the (cleaned) text of a URL, and what its scheme says -/
theorem urlsplit_spec (s : List Char) :
    ((urlsplitC s).query = [] → (urlsplitC s).fragment = [] → NoQueryNoFragment (urlClean s)) ∧
    ∀ sch, sch ≠ [] → (urlsplitC s).scheme = sch →
      ∃ pre rest, urlClean s = pre ++ ':' :: rest ∧ pre.map asciiLower = sch := by
  unfold urlsplitC schemeSplit
  simp only
  cases hs : splitFirst ':' (urlClean s) with
  | mk pre o =>
    cases o with
    | none =>
      simp only
      exact ⟨fun hq hf => noQueryNoFragment_of_rest hf hq, fun sch h e => absurd e.symm h⟩
    | some r =>
      obtain ⟨hu, hc⟩ := splitFirst_some_iff.1 hs
      cases pre with
      | nil =>
        simp only
        exact ⟨fun hq hf => noQueryNoFragment_of_rest hf hq, fun sch h e => absurd e.symm h⟩
      | cons c cs =>
        simp only
        by_cases hall : (isAsciiAlpha c && (c :: cs).all isSchemeChar) = true
        · rw [if_pos hall]
          simp only
          refine ⟨fun hq hf => ?_, fun sch _ e => ⟨c :: cs, r, hu, e⟩⟩
          obtain ⟨body, b1, b2, b3⟩ := noQueryNoFragment_of_rest hf hq
          simp only [Bool.and_eq_true, List.all_eq_true] at hall
          have hm : ∀ x ∈ (c :: cs) ++ [':'], x ≠ '#' ∧ x ≠ '?' := by
            intro x hx
            rcases List.mem_append.1 hx with hx | hx
            · exact isSchemeChar_ne (hall.2 x hx)
            · simp at hx; subst hx; decide
          refine ⟨(c :: cs) ++ [':'] ++ body, ?_, ?_, ?_⟩
          · intro h; rcases List.mem_append.1 h with h | h
            · exact (hm _ h).1 rfl
            · exact b1 h
          · intro h; rcases List.mem_append.1 h with h | h
            · exact (hm _ h).2 rfl
            · exact b2 h
          · rw [hu]
            rcases b3 with rfl | rfl | rfl | rfl <;> simp
        · rw [if_neg hall]
          exact ⟨fun hq hf => noQueryNoFragment_of_rest hf hq, fun sch h e => absurd e.symm h⟩

/-- C35: the acceptance conditions of a provider configuration.  The issuer text is looked at the way `urlsplit`
does: leading blanks and control characters and all tabs and line ends are dropped first. -/
theorem C35_conditions (netlocOk : List Char → Bool) (st kw : Dict) (h : providerConfigVerify netlocOk st kw = .ok ()) :
    Acceptable oidc_ProviderConfigurationResponse st ∧ DescriptionOk st ∧
    (∀ v, dget st "scopes_supported" = some v → (Val.str "openid").contains v = .ok true ∧
      ∃ l, v.iter = .ok l ∧ ∀ x ∈ l, ScopeText x) ∧
    (∃ iss : String, dget st "issuer" = some (.str iss) ∧ NoQueryNoFragment (urlClean iss.toList) ∧
      (dget kw "allow_http" = none → ∃ pre rest, urlClean iss.toList = pre ++ ':' :: rest ∧
        pre.map asciiLower = ['h', 't', 't', 'p', 's'])) ∧
    (∃ algs, dget st "id_token_signing_alg_values_supported" = some algs ∧ (Val.str "RS256").contains algs = .ok true) ∧
    (∃ rts l, dget st "response_types_supported" = some rts ∧ rts.iter = .ok l ∧
      ((∃ rt ∈ l, (Val.str "code").contains rt = .ok true) → dget st "token_endpoint" ≠ none)) := by
  unfold providerConfigVerify at h
  simp only [bind_ok, need_ok, getR_ok] at h
  obtain ⟨⟨⟩, h1, ⟨⟩, h2, parts, h3, ⟨⟩, h4, algs, h5, rs, h6, ⟨⟩, rfl, ⟨⟩, h7, h8⟩ := h
  rw [C36_iff] at h1
  refine ⟨h1.1, h1.2, ?_, ?_, ⟨algs, h5, h6⟩, ?_⟩
  · intro v hv
    unfold scopesSupported at h2
    simp only [hv, bind_ok, need_ok] at h2
    obtain ⟨o, ho, ⟨⟩, rfl, l, hl, hc⟩ := h2
    exact ⟨ho, l, hl, (checkScopes_iff _).1 hc⟩
  · unfold issuerParts at h3
    split at h3
    · cases h3
    · next s hs =>
      unfold urlparse at h3
      split at h3
      · simp only [ok_ok] at h3
        subst h3
        simp only [Bool.and_eq_true, List.isEmpty_iff, Bool.or_eq_true, decide_eq_true_eq] at h4 h7
        obtain ⟨u1, u2⟩ := urlsplit_spec s.toList
        refine ⟨s, hs, u1 h7.1 h7.2, ?_⟩
        intro hk
        rcases h4 with h4 | h4
        · simp [dhas, hk] at h4
        · exact u2 _ (by decide) h4
      · cases h3
    · rename_i v hv hd
      split at h3
      · cases h3
      · rename_i hf
        obtain ⟨w, hw, hg⟩ := (h1.1 "issuer" singleRequiredString (by simp [oidc_ProviderConfigurationResponse]) (by decide)).1 rfl
        rw [hd] at hw
        cases hw
        rcases hg with hg | hg
        · exact absurd hg hf
        · cases hg
  · unfold tokenEndpoint at h8
    simp only [bind_ok, need_ok, getR_ok] at h8
    obtain ⟨rts, hr, l, hl, c, hc, hn⟩ := h8
    refine ⟨rts, l, hr, hl, ?_⟩
    rintro ⟨rt, hm, hcode⟩
    cases c with
    | false => have := anyCode_false hc rt hm; rw [hcode] at this; cases this
    | true =>
      simp at hn
      intro he; simp [dhas, he] at hn

/-- A URL as an issuer has it: https, a host without brackets, a path, nothing else; no control characters, no blanks. -/
def PlainIssuer (iss : String) : Prop := ∃ host path, iss.toList = "https://".toList ++ (host ++ path) ∧
  (∀ c ∈ host, 32 < c.toNat ∧ c.toNat < 128 ∧ c ∉ ['[', ']', '/', '?', '#']) ∧
  (∀ c ∈ path, 32 < c.toNat ∧ c ∉ ['?', '#']) ∧ (path = [] ∨ ∃ r, path = '/' :: r)

theorem plainIssuer_parts {iss : String} (h : PlainIssuer iss) (ok : List Char → Bool) :
    urlparse ok iss = .ok ⟨"https".toList, [], []⟩ := by
  obtain ⟨host, path, he, hh, hp, hs⟩ := h
  have hchars : ∀ c ∈ host ++ path, 32 < c.toNat ∧ c ≠ '?' ∧ c ≠ '#' := by
    intro c hc
    rcases List.mem_append.1 hc with hc | hc
    · obtain ⟨h1, _, h2⟩ := hh c hc
      simp only [List.mem_cons, not_or] at h2
      exact ⟨h1, h2.2.2.2.1, h2.2.2.2.2.1⟩
    · obtain ⟨h1, h2⟩ := hp c hc
      simp only [List.mem_cons, not_or] at h2
      exact ⟨h1, h2.1, h2.2.1⟩
  have hclean : urlClean iss.toList = 'h' :: 't' :: 't' :: 'p' :: 's' :: ':' :: '/' :: '/' :: (host ++ path) := by
    rw [he]
    show urlClean ('h' :: 't' :: 't' :: 'p' :: 's' :: ':' :: '/' :: '/' :: (host ++ path)) = _
    unfold urlClean
    rw [List.dropWhile_cons_of_neg (by decide)]
    refine List.filter_eq_self.2 ?_
    intro c hc
    have : 32 < c.toNat := by
      simp only [List.mem_cons] at hc
      rcases hc with rfl | rfl | rfl | rfl | rfl | rfl | rfl | rfl | hc
      all_goals first | decide | exact (hchars c hc).1
    have h9 : c ≠ '\t' := by rintro rfl; revert this; decide
    have h13 : c ≠ '\r' := by rintro rfl; revert this; decide
    have h10 : c ≠ '\n' := by rintro rfl; revert this; decide
    simp [h9, h10, h13]
  have hsplit : schemeSplit (urlClean iss.toList) = ("https".toList, '/' :: '/' :: (host ++ path)) := by
    rw [hclean]
    unfold schemeSplit
    rw [show splitFirst ':' ('h' :: 't' :: 't' :: 'p' :: 's' :: ':' :: '/' :: '/' :: (host ++ path)) =
      (['h', 't', 't', 'p', 's'], some ('/' :: '/' :: (host ++ path))) from splitFirst_some_iff.2 ⟨rfl, by decide⟩]
    rfl
  have hnet : netlocC iss.toList = host := by
    unfold netlocC
    rw [hsplit]
    show (host ++ path).takeWhile _ = host
    have hall : ∀ c ∈ host, (!(c == '/' || c == '?' || c == '#')) = true := by
      intro c hc
      obtain ⟨_, _, h2⟩ := hh c hc
      simp only [List.mem_cons, not_or] at h2
      simp [h2.2.2.1, h2.2.2.2.1, h2.2.2.2.2.1]
    rw [List.takeWhile_append_of_pos hall]
    rcases hs with rfl | ⟨r, rfl⟩
    · simp
    · rw [List.takeWhile_cons_of_neg (by decide)]; simp
  have hv : netlocValid ok (netlocC iss.toList) = true := by
    rw [hnet]
    have hb : ∀ x, x = '[' ∨ x = ']' → host.contains x = false := by
      intro x hx
      rw [Bool.eq_false_iff, Ne, List.contains_iff_mem]
      intro hm
      have := (hh x hm).2.2
      rcases hx with rfl | rfl <;> exact this (by decide)
    have ha : host.all (fun c => decide (c.toNat < 128)) = true := by
      simp only [List.all_eq_true, decide_eq_true_eq]
      exact fun c hc => (hh c hc).2.1
    unfold netlocValid
    rw [hb _ (.inl rfl), hb _ (.inr rfl), ha]
    rfl
  unfold urlparse
  rw [if_pos hv]
  unfold urlsplit urlsplitC
  simp only [hsplit]
  have hn : ∀ x, x = '#' ∨ x = '?' → x ∉ '/' :: '/' :: (host ++ path) := by
    intro x hx hm
    simp only [List.mem_cons] at hm
    rcases hm with rfl | rfl | hm
    · rcases hx with hx | hx <;> revert hx <;> decide
    · rcases hx with hx | hx <;> revert hx <;> decide
    · have := (hchars x hm).2
      rcases hx with rfl | rfl
      · exact this.2 rfl
      · exact this.1 rfl
  rw [splitFirst_none_iff.2 ⟨rfl, hn _ (.inl rfl)⟩]
  simp only
  rw [splitFirst_none_iff.2 ⟨rfl, hn _ (.inr rfl)⟩]
  rfl

/-- C35, the other direction: a configuration of the documented form is accepted. -/
theorem C35_accepts (netlocOk : List Char → Bool) (st kw : Dict) (ha : Acceptable oidc_ProviderConfigurationResponse st)
    (hd : DescriptionOk st) (hi : ∃ iss, dget st "issuer" = some (.str iss) ∧ PlainIssuer iss)
    (hs : ∀ v, dget st "scopes_supported" = some v → ∃ l : List String, v = .list (l.map .str) ∧ "openid" ∈ l ∧
      ∀ s ∈ l, ∀ c ∈ s.toList, ScopeChar c)
    (hr : ∃ l : List String, dget st "id_token_signing_alg_values_supported" = some (.list (l.map .str)) ∧ "RS256" ∈ l)
    (ht : ∃ l : List String, dget st "response_types_supported" = some (.list (l.map .str)))
    (he : dget st "token_endpoint" ≠ none) : providerConfigVerify netlocOk st kw = .ok () := by
  have mem : ∀ (x : String) (l : List String), x ∈ l → (Val.str x).contains (.list (l.map .str)) = .ok true := by
    intro x l hx
    show Except.ok (Val.memList _ _) = _
    rw [(memList_iff _ _).2 ⟨.str x, List.mem_map_of_mem hx, by simp [Val.eq]⟩]
  obtain ⟨iss, h1, h2⟩ := hi
  obtain ⟨la, h3, h4⟩ := hr
  obtain ⟨lt, h5⟩ := ht
  unfold providerConfigVerify
  simp only [bind_ok, need_ok, getR_ok]
  refine ⟨(), (C36_iff _ _).2 ⟨ha, hd⟩, (), ?_, ⟨"https".toList, [], []⟩, ?_, (), ?_, _, h3, true, mem _ _ h4, (), rfl, (), rfl, ?_⟩
  · unfold scopesSupported
    cases hv : dget st "scopes_supported" with
    | none => rfl
    | some v =>
      obtain ⟨l, rfl, hl, hc⟩ := hs v hv
      simp only [bind_ok, need_ok]
      refine ⟨true, mem _ _ hl, (), rfl, _, rfl, (checkScopes_iff _).2 ?_⟩
      intro x hx
      obtain ⟨s, hsl, rfl⟩ := List.mem_map.1 hx
      exact (scopeText_str s).2 (hc s hsl)
  · unfold issuerParts
    simp only [h1]
    exact plainIssuer_parts h2 netlocOk
  · simp
  · unfold tokenEndpoint
    simp only [bind_ok, need_ok, getR_ok]
    have hcode : ∀ l : List String, ∃ b, anyCode (l.map .str) = .ok b := by
      intro l
      induction l with
      | nil => exact ⟨false, rfl⟩
      | cons s l ih =>
        obtain ⟨b, hb⟩ := ih
        simp only [List.map_cons, anyCode]
        have : ∃ c, (Val.str "code").contains (.str s) = .ok c := ⟨_, rfl⟩
        obtain ⟨c, hc⟩ := this
        rw [hc]
        cases c
        · exact ⟨b, hb⟩
        · exact ⟨true, rfl⟩
    obtain ⟨b, hb⟩ := hcode lt
    refine ⟨_, h5, _, rfl, b, hb, ?_⟩
    rw [Bool.or_eq_true]
    right
    cases h : dhas st "token_endpoint" with
    | true => rfl
    | false => exact absurd ((dhas_eq_false_iff _ _).1 h) he

/-- C35: an issuer that is not a text, or whose host has a bracket without its counterpart, is never accepted; whether one with
a bracketed or an international host is, depends on the library. -/
theorem C35_hosts (netlocOk : List Char → Bool) (st kw : Dict) (s : String) (hs : dget st "issuer" = some (.str s)) :
    ((netlocC s.toList).contains '[' ≠ (netlocC s.toList).contains ']' → providerConfigVerify netlocOk st kw ≠ .ok ()) ∧
    ('[' ∈ netlocC s.toList → netlocOk (netlocC s.toList) = false → providerConfigVerify netlocOk st kw ≠ .ok ()) := by
  have key : netlocValid netlocOk (netlocC s.toList) = false → providerConfigVerify netlocOk st kw ≠ .ok () := by
    intro hf h
    unfold providerConfigVerify at h
    simp only [bind_ok] at h
    obtain ⟨_, _, _, _, parts, h3, _⟩ := h
    unfold issuerParts urlparse at h3
    rw [hs] at h3
    simp [hf] at h3
  refine ⟨fun h => key ?_, fun h1 h2 => key ?_⟩
  · unfold netlocValid
    rw [if_pos (by simpa using h)]
  · unfold netlocValid
    split
    · rfl
    · rw [if_pos (by simp [h1]), h2]

def toyConfig (issuer : String) : Dict :=
  [("issuer", .str issuer), ("authorization_endpoint", .str "https://op/a"), ("jwks_uri", .str "https://op/k"),
   ("response_types_supported", .list [.str "id_token"]), ("subject_types_supported", .list [.str "public"]),
   ("id_token_signing_alg_values_supported", .list [.str "RS256"]), ("version", .str "3.0")]

example : providerConfigVerify (fun _ => true) (toyConfig "https://op") [] = .ok () := by decide +kernel
example : providerConfigVerify (fun _ => true) (toyConfig "http://op") [] = .error .schemeError := by decide +kernel
example : providerConfigVerify (fun _ => true) (toyConfig "https://op?x") [] = .error .valueError := by decide +kernel
example : PlainIssuer "https://op.example:8443/tenant" ∧ ∃ v, dget (toyConfig "https://op") "issuer" = some v :=
  ⟨⟨"op.example:8443".toList, "/tenant".toList, by decide, by decide, by decide, .inr ⟨_, rfl⟩⟩, _, rfl⟩
example : netlocC "https://[::1/a".toList = "[::1".toList := by decide +kernel
/-- a trailing `?` or `#`, capital letters and a leading blank are not noticed -/
example : providerConfigVerify (fun _ => true) (toyConfig " HTTPS://op?#") [] = .ok () := by decide +kernel

/-! ## C38 -/

/-- `value in v` for a list -/
theorem contains_list_ok (x : Val) (l : List Val) : x.contains (.list l) = .ok (Val.memList x l) := rfl

theorem claimLoop_spec (value : Val) (d : List (String × Val))
    (hl : ∀ v, ("values", v) ∈ d → ∃ l, v = .list l) :
    ∃ b, claimLoop value d = .ok b ∧
      (b = true ↔ (∃ v, ("value", v) ∈ d ∧ value.eq v = true) ∨
        ∃ l, ("values", Val.list l) ∈ d ∧ OneOf value l) := by
  induction d with
  | nil => exact ⟨false, rfl, by simp⟩
  | cons p d ih =>
    obtain ⟨k, v⟩ := p
    obtain ⟨b, hb, hiff⟩ := ih (fun v hm => hl v (List.mem_cons_of_mem _ hm))
    rw [show claimLoop value ((k, v) :: d) = (match claimKey value k v with
      | .ok false => claimLoop value d
      | r => r) from rfl]
    unfold claimKey
    by_cases h1 : k = "value"
    · subst h1
      simp only [if_true]
      cases he : value.eq v with
      | true => exact ⟨true, rfl, by simp; exact .inl (.inl he)⟩
      | false =>
        refine ⟨b, hb, ?_⟩
        rw [hiff]
        constructor
        · rintro (⟨w, hm, hw⟩ | ⟨l, hm, hw⟩)
          · exact .inl ⟨w, List.mem_cons_of_mem _ hm, hw⟩
          · exact .inr ⟨l, List.mem_cons_of_mem _ hm, hw⟩
        · rintro (⟨w, hm, hw⟩ | ⟨l, hm, hw⟩)
          · rcases List.mem_cons.1 hm with e | hm
            · cases e; rw [he] at hw; cases hw
            · exact .inl ⟨w, hm, hw⟩
          · rcases List.mem_cons.1 hm with e | hm
            · simp at e
            · exact .inr ⟨l, hm, hw⟩
    · by_cases h2 : k = "values"
      · subst h2
        obtain ⟨l, rfl⟩ := hl v (List.mem_cons_self ..)
        simp only [show ¬ ("values" = "value") by decide, if_false, if_true, contains_list_ok]
        cases he : Val.memList value l with
        | true => exact ⟨true, rfl, by simp; exact .inr (.inl ((memList_iff _ _).1 he))⟩
        | false =>
          refine ⟨b, hb, ?_⟩
          rw [hiff]
          constructor
          · rintro (⟨w, hm, hw⟩ | ⟨l, hm, hw⟩)
            · exact .inl ⟨w, List.mem_cons_of_mem _ hm, hw⟩
            · exact .inr ⟨l, List.mem_cons_of_mem _ hm, hw⟩
          · rintro (⟨w, hm, hw⟩ | ⟨l', hm, hw⟩)
            · rcases List.mem_cons.1 hm with e | hm
              · simp at e
              · exact .inl ⟨w, hm, hw⟩
            · rcases List.mem_cons.1 hm with e | hm
              · cases e; rw [(memList_iff _ _).2 hw] at he; cases he
              · exact .inr ⟨l', hm, hw⟩
      · simp only [h1, h2, if_false]
        refine ⟨b, hb, ?_⟩
        rw [hiff]
        have h1' : ¬ "value" = k := fun e => h1 e.symm
        have h2' : ¬ "values" = k := fun e => h2 e.symm
        simp [h1', h2']

/-- C38: for a claim request whose `values`, if any, is a list, the result is `True` exactly when the request is
null, or asks for an equal value, or lists it, or says `essential` and nothing else. -/
theorem C38_iff (value : Val) (d : Dict) (hd : DNodup d)
    (hl : ∀ v, dget d "values" = some v → ∃ l, v = .list l) :
    claimsMatch value .none = .ok true ∧
    ∃ b, claimsMatch value (.dict d) = .ok b ∧
      (b = true ↔ (∃ v, dget d "value" = some v ∧ value.eq v = true) ∨
        (∃ l, dget d "values" = some (.list l) ∧ OneOf value l) ∨
        ((∃ v, dget d "essential" = some v) ∧ ∀ k, k ≠ "essential" → dget d k = none)) := by
  refine ⟨rfl, ?_⟩
  obtain ⟨b, hb, hiff⟩ := claimLoop_spec value d (fun v hm => hl v (mem_dget hd hm))
  refine ⟨b || decide (dkeys d = ["essential"]), by simp [claimsMatch, hb], ?_⟩
  have hess : dkeys d = ["essential"] ↔
      (∃ v, dget d "essential" = some v) ∧ ∀ k, k ≠ "essential" → dget d k = none := by
    constructor
    · intro h
      match d, h with
      | [(k, v)], h =>
        simp at h; subst h
        refine ⟨⟨v, by simp⟩, fun k hk => ?_⟩
        have : ¬ "essential" = k := fun e => hk e.symm
        simp [this]
    · rintro ⟨⟨v, hv⟩, hn⟩
      have hk : ∀ k ∈ dkeys d, k = "essential" := by
        intro k hk
        by_cases e : k = "essential"
        · exact e
        · exact absurd hk ((dget_eq_none_iff _ _).1 (hn k e))
      have hm : "essential" ∈ dkeys d := by
        rw [← dget_isSome_iff, hv]; rfl
      unfold DNodup at hd
      match h : dkeys d, hd, hk, hm with
      | [], _, _, hm => simp at hm
      | [x], _, hk, _ => rw [hk x (by simp)]
      | x :: y :: r, hd, hk, _ =>
        have := hk x (by simp); have := hk y (by simp)
        simp_all
  simp only [Bool.or_eq_true, decide_eq_true_eq, hiff, hess]
  have hv : (∃ v, ("value", v) ∈ d ∧ value.eq v = true) ↔ ∃ v, dget d "value" = some v ∧ value.eq v = true := by
    constructor
    · rintro ⟨v, hm, h⟩; exact ⟨v, mem_dget hd hm, h⟩
    · rintro ⟨v, hm, h⟩; exact ⟨v, dget_mem hm, h⟩
  have hvs : (∃ l, ("values", Val.list l) ∈ d ∧ OneOf value l) ↔
      ∃ l, dget d "values" = some (.list l) ∧ OneOf value l := by
    constructor
    · rintro ⟨v, hm, h⟩; exact ⟨v, mem_dget hd hm, h⟩
    · rintro ⟨v, hm, h⟩; exact ⟨v, dget_mem hm, h⟩
  rw [hv, hvs, or_assoc]

/-- C38, order: the same request with its keys in another order gives the same result. -/
theorem C38_order (value : Val) (d d' : Dict) (hd : DNodup d) (hp : d.Perm d')
    (hl : ∀ v, dget d "values" = some v → ∃ l, v = .list l) :
    claimsMatch value (.dict d') = claimsMatch value (.dict d) := by
  have hg : ∀ k, dget d' k = dget d k := fun k => dget_perm hd hp k
  have hd' : DNodup d' := (hp.map _).nodup_iff.1 hd
  obtain ⟨_, b, hb, h⟩ := C38_iff value d hd hl
  obtain ⟨_, b', hb', h'⟩ := C38_iff value d' hd' (by rw [hg]; exact hl)
  simp only [hg] at h'
  rw [hb, hb']
  congr 1
  rw [Bool.eq_iff_iff, h, h']

/-- An empty request, or `essential` together with an unknown member, is not satisfied by any value. -/
theorem C38_not_null (value v w : Val) (k : String) (h1 : k ≠ "value") (h2 : k ≠ "values") :
    claimsMatch value (.dict []) = .ok false ∧
    claimsMatch value (.dict [("essential", v), (k, w)]) = .ok false := by
  constructor
  · rfl
  · simp [claimsMatch, claimLoop, claimKey, h1, h2]

/-- When `values` is a string the test is a substring test, and the order of the keys can matter when it is not a
container at all. -/
theorem C38_untyped :
    claimsMatch (.str "adm") (.dict [("values", .str "admin")]) = .ok true ∧
    claimsMatch (.int 1) (.dict [("value", .int 1), ("values", .int 5)]) = .ok true ∧
    claimsMatch (.int 1) (.dict [("values", .int 5), ("value", .int 1)]) = .error .typeError := by
  decide +kernel

example : claimsMatch (.str "a") (.dict [("values", .list [.str "b", .str "a"]), ("essential", .bool true)]) = .ok true := by
  decide +kernel

/-! ## C73 -/

theorem setItem_frame' {st st' : Dict} {k : String} {v : Val} {k' : String} (h : setItem oidc_IdToken st k v = .ok st')
    (hk : k ≠ k') : dget st' k' = dget st k' := by
  unfold setItem at h
  split at h
  · rcases addValue_frame h with rfl | ⟨w, rfl⟩
    · rfl
    · exact dget_dset_ne _ _ hk
  · cases h; exact dget_dset_ne _ _ hk

theorem setItem_str {k : String} (h : dget oidc_IdToken.params k = some singleOptionalString) (st : Dict) (s : String) :
    setItem oidc_IdToken st k (.str s) = .ok (dset st k (.str s)) := by
  simp [setItem, h, addValue, singleOptionalString, ignoredList, singleValue, Ty.isInst]

theorem setItem_int {k : String} (h : dget oidc_IdToken.params k = some singleRequiredInt) (st : Dict) (i : Int) :
    setItem oidc_IdToken st k (.int i) = .ok (dset st k (.int i)) := by
  simp [setItem, h, addValue, singleRequiredInt, ignoredList, singleValue, Ty.isInst]

/-- one hash step -/
theorem hashOne_ok {C : Crypto} {halg : String} {st st' : Dict} {attr hashAttr : String}
    (h : hashOne C halg st attr hashAttr = .ok st') (k : String) (h1 : k ≠ attr) (h2 : k ≠ hashAttr) :
    dget st' k = dget st k := by
  unfold hashOne at h
  split at h
  · cases h; rfl
  · split at h
    · cases h; rfl
    · cases h
    · split at h
      · next st1 hs => cases h; rw [dget_ddel_ne _ (Ne.symm h1), setItem_frame' hs (Ne.symm h2)]
      · cases h

/-- C73: after `pack` with a hash function that gives strings, `at_hash` and `c_hash` are the hashes (function: `HS`
and the last three characters of the algorithm) of the former access token and code, which are gone; `iat` is the
clock, `exp` is `iat + lifetime` for a non-zero lifetime; everything else is unchanged. -/
theorem C73_pack (C : Crypto) (now life : Int) (alg : String) (st st' : Dict)
    (hh : ∀ v, (dget st "access_token" = some v ∨ dget st "code" = some v) →
      ∃ s, C.leftHash v ("HS" ++ String.ofList (alg.toList.drop (alg.toList.length - 3))) = .ok (.str s))
    (h : pack C now alg (.int life) st = .ok st') :
    (∀ v, dget st "access_token" = some v → ∃ s,
      C.leftHash v ("HS" ++ String.ofList (alg.toList.drop (alg.toList.length - 3))) = .ok (.str s) ∧
      dget st' "at_hash" = some (.str s) ∧ dget st' "access_token" = none) ∧
    (∀ v, dget st "code" = some v → ∃ s,
      C.leftHash v ("HS" ++ String.ofList (alg.toList.drop (alg.toList.length - 3))) = .ok (.str s) ∧
      dget st' "c_hash" = some (.str s) ∧ dget st' "code" = none) ∧
    dget st' "access_token" = none ∧ dget st' "code" = none ∧
    dget st' "iat" = some (.int now) ∧
    (life ≠ 0 → dget st' "exp" = some (.int (now + life))) ∧
    (life = 0 → dget st' "exp" = dget st "exp") ∧
    (∀ k, k ∉ ["access_token", "code", "at_hash", "c_hash", "iat", "exp"] → dget st' k = dget st k) := by
  unfold pack valHash at h
  simp only [bind_ok] at h
  obtain ⟨s2, ⟨s1, h1, h2⟩, h3⟩ := h
  -- what the two hash steps do to their own parameters
  have step : ∀ (a b : Dict) (attr hashAttr : String),
      dget oidc_IdToken.params hashAttr = some singleOptionalString → attr ≠ hashAttr →
      hashOne C (hashAlg alg) a attr hashAttr = .ok b →
      (∀ v, dget a attr = some v → ∃ s, C.leftHash v (hashAlg alg) = .ok (.str s)) →
      dget b attr = none ∧ (∀ v s, dget a attr = some v → C.leftHash v (hashAlg alg) = .ok (.str s) →
        dget b hashAttr = some (.str s)) := by
    intro a b attr hashAttr hd hne hs hv
    unfold hashOne at hs
    cases hg : dget a attr with
    | none => simp only [hg] at hs; cases hs; exact ⟨hg, fun v s e => by simp at e⟩
    | some v =>
      obtain ⟨s, hsh⟩ := hv v hg
      simp only [hg, hsh, setItem_str hd] at hs
      cases hs
      refine ⟨dget_ddel_same _ _, ?_⟩
      intro v' s' e hs'
      cases e
      rw [hsh] at hs'
      cases hs'
      rw [dget_ddel_ne _ hne, dget_dset_same]
  obtain ⟨a1, a2⟩ := step st s1 "access_token" "at_hash" rfl (by decide) h1
    (fun v hv => hh v (.inl hv))
  have hcode : dget s1 "code" = dget st "code" := hashOne_ok h1 _ (by decide) (by decide)
  obtain ⟨b1, b2⟩ := step s1 s2 "code" "c_hash" rfl (by decide) h2
    (fun v hv => hh v (.inr (by rw [← hcode]; exact hv)))
  unfold packInit at h3
  rw [setItem_int rfl] at h3
  simp only at h3
  -- the times
  have times : dget st' "iat" = some (.int now) ∧ (life ≠ 0 → dget st' "exp" = some (.int (now + life))) ∧
      (life = 0 → dget st' "exp" = dget s2 "exp") ∧ ∀ k, k ≠ "iat" → k ≠ "exp" → dget st' k = dget s2 k := by
    by_cases hl : life = 0
    · subst hl
      have : (Val.int 0).truthy = false := by decide
      rw [this] at h3
      simp only [Bool.false_eq_true, if_false] at h3
      cases h3
      exact ⟨dget_dset_same _ _ _, fun h => absurd rfl h, fun _ => dget_dset_ne _ _ (by decide),
        fun k x _ => dget_dset_ne _ _ (Ne.symm x)⟩
    · have : (Val.int life).truthy = true := by simp [Val.truthy, hl]
      rw [this] at h3
      simp only [if_true, addInt, setItem_int (show dget oidc_IdToken.params "exp" = some singleRequiredInt from rfl)] at h3
      cases h3
      refine ⟨by rw [dget_dset_ne _ _ (by decide), dget_dset_same], fun _ => dget_dset_same _ _ _,
        fun h => absurd h hl, fun k x y => ?_⟩
      rw [dget_dset_ne _ _ (Ne.symm y), dget_dset_ne _ _ (Ne.symm x)]
  obtain ⟨t1, t2, t3, t4⟩ := times
  have f1 : ∀ k, k ≠ "access_token" → k ≠ "at_hash" → dget s1 k = dget st k := fun k x y => hashOne_ok h1 k x y
  have f2 : ∀ k, k ≠ "code" → k ≠ "c_hash" → dget s2 k = dget s1 k := fun k x y => hashOne_ok h2 k x y
  have g1 : dget st' "access_token" = none := by
    rw [t4 _ (by decide) (by decide), f2 _ (by decide) (by decide), a1]
  have g2 : dget st' "code" = none := by rw [t4 _ (by decide) (by decide), b1]
  refine ⟨?_, ?_, g1, g2, t1, t2, ?_, ?_⟩
  · intro v hv
    obtain ⟨s, hs⟩ := hh v (.inl hv)
    refine ⟨s, hs, ?_, g1⟩
    rw [t4 _ (by decide) (by decide), f2 _ (by decide) (by decide)]
    exact a2 v s hv hs
  · intro v hv
    obtain ⟨s, hs⟩ := hh v (.inr hv)
    refine ⟨s, hs, ?_, g2⟩
    rw [t4 _ (by decide) (by decide)]
    exact b2 v s (by rw [hcode]; exact hv) hs
  · intro hl; rw [t3 hl, f2 _ (by decide) (by decide), f1 _ (by decide) (by decide)]
  · intro k hk
    simp only [List.mem_cons, List.not_mem_nil, or_false, not_or] at hk
    rw [t4 k hk.2.2.2.2.1 hk.2.2.2.2.2, f2 k hk.2.1 hk.2.2.2.1, f1 k hk.1 hk.2.2.1]

/-- **C73**, lifetimes of other kinds: a truth value counts as 0 or 1 seconds; of a sum with a fraction the part before the point
is kept; what is empty or null is no lifetime; anything else is a `TypeError`. -/
theorem C73_lifetime (now : Int) (st : Dict) :
    packInit now (.bool true) st = packInit now (.int 1) st ∧ packInit now (.bool false) st = packInit now (.int 0) st ∧
    (∀ q : Rat, q ≠ 0 → packInit now (.flt q) st =
      .ok (dset (dset st "iat" (.int now)) "exp" (.int (((now : Rat) + q).num.tdiv ((now : Rat) + q).den)))) ∧
    (∀ v, v.truthy = false → packInit now v st = .ok (dset st "iat" (.int now))) ∧
    (∀ v, v.truthy = true → v.num? = none → packInit now v st = .error .typeError) := by
  have hi := fun (d : Dict) (i : Int) => setItem_int (show dget oidc_IdToken.params "iat" = some singleRequiredInt from rfl) d i
  refine ⟨?_, ?_, fun q hq => ?_, fun v hv => ?_, fun v hv hn => ?_⟩
  · unfold packInit
    rw [hi]
    rfl
  · unfold packInit
    rw [hi]
    rfl
  · unfold packInit
    rw [hi]
    have : (Val.flt q).truthy = true := by simp [Val.truthy, hq]
    simp only [this, if_true, addInt]
    simp [setItem, (show dget oidc_IdToken.params "exp" = some singleRequiredInt from rfl), addValue, singleRequiredInt, ignoredList,
      singleValue, Ty.isInst, coerceSingle, pyInt]
  · unfold packInit
    rw [hi]
    simp only [hv, Bool.false_eq_true, if_false]
  · unfold packInit
    rw [hi]
    simp only [hv, if_true]
    cases v with
    | bool b => simp [Val.num?] at hn
    | int i => simp [Val.num?] at hn
    | flt q => simp [Val.num?] at hn
    | _ => rfl

example : pack toy 1000 "RS256" (.int 600) [("iss", .str "i"), ("access_token", .str "at")]
    = .ok [("iss", .str "i"), ("at_hash", .str "HS256:at"), ("iat", .int 1000), ("exp", .int 1600)] := by decide +kernel

end Verif
