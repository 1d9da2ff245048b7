import Verif.Props.Registration
import Verif.Props.AuthzResponse

/-!
# Exactly which configurations and requests are accepted: C35, C27, C33, C32
-/

namespace Verif

/-! ## C35 -/

theorem splitFirst_getD_empty {c : Char} {s body : List Char} (hb : c ∉ body) (h : s = body ∨ s = body ++ [c]) :
    (splitFirst c s).1 = body ∧ ((splitFirst c s).2).getD [] = [] := by
  rcases h with rfl | rfl
  · rw [splitFirst_none_iff.2 ⟨rfl, hb⟩]; exact ⟨rfl, rfl⟩
  · rw [splitFirst_some_iff.2 ⟨rfl, hb⟩]; exact ⟨rfl, rfl⟩

/-- the converse of `noQueryNoFragment_of_rest` -/
theorem rest_of_noQueryNoFragment {rest : List Char} (h : NoQueryNoFragment rest) :
    ((splitFirst '#' rest).2).getD [] = [] ∧ ((splitFirst '?' (splitFirst '#' rest).1).2).getD [] = [] := by
  obtain ⟨body, h1, h2, h3⟩ := h
  have hq : '#' ∉ body ++ ['?'] := by simp [h1]
  rcases h3 with rfl | rfl | rfl | rfl
  · obtain ⟨a, b⟩ := splitFirst_getD_empty (c := '#') (s := rest) h1 (.inl rfl)
    rw [a]; exact ⟨b, (splitFirst_getD_empty h2 (.inl rfl)).2⟩
  · obtain ⟨a, b⟩ := splitFirst_getD_empty (c := '#') (s := body ++ ['?']) hq (.inl rfl)
    rw [a]; exact ⟨b, (splitFirst_getD_empty h2 (.inr rfl)).2⟩
  · obtain ⟨a, b⟩ := splitFirst_getD_empty (c := '#') (s := body ++ ['#']) h1 (.inr rfl)
    rw [a]; exact ⟨b, (splitFirst_getD_empty h2 (.inl rfl)).2⟩
  · obtain ⟨a, b⟩ := splitFirst_getD_empty (c := '#') (s := body ++ ['?', '#']) hq (.inr (by simp))
    rw [a]; exact ⟨b, (splitFirst_getD_empty h2 (.inr rfl)).2⟩

/-- what follows a part without `?` and `#` has neither when the whole has neither -/
theorem noQueryNoFragment_tail {pre rest : List Char} (h1 : '#' ∉ pre) (h2 : '?' ∉ pre) (h : NoQueryNoFragment (pre ++ rest)) :
    NoQueryNoFragment rest := by
  induction pre with
  | nil => exact h
  | cons c cs ih =>
    simp only [List.mem_cons, not_or] at h1 h2
    refine ih h1.2 h2.2 ?_
    obtain ⟨body, b1, b2, b3⟩ := h
    cases body with
    | nil =>
      simp only [List.cons_append, List.nil_append, reduceCtorEq, List.cons.injEq, false_or] at b3
      rcases b3 with b3 | b3 | b3
      · exact absurd b3.1.symm h2.1
      · exact absurd b3.1.symm h1.1
      · exact absurd b3.1.symm h2.1
    | cons d ds =>
      simp only [List.mem_cons, not_or, List.cons_append, List.cons.injEq] at b1 b2 b3
      refine ⟨ds, b1.2, b2.2, ?_⟩
      rcases b3 with b3 | b3 | b3 | b3
      · exact .inl b3.2
      · exact .inr (.inl b3.2)
      · exact .inr (.inr (.inl b3.2))
      · exact .inr (.inr (.inr b3.2))

/-- the text before the colon is a scheme, in any case of letters, when in lower case it is `https` -/
theorem lower_https {pre : List Char} (h : pre.map asciiLower = ['h', 't', 't', 'p', 's']) :
    ':' ∉ pre ∧ pre ≠ [] ∧ ∀ c ∈ pre, isAsciiAlpha c = true := by
  have hl : ∀ c ∈ pre, asciiLower c ∈ ['h', 't', 't', 'p', 's'] := by
    intro c hc; rw [← h]; exact List.mem_map_of_mem hc
  have ha : ∀ c ∈ pre, isAsciiAlpha c = true := by
    intro c hc
    have := hl c hc
    unfold asciiLower at this
    split at this
    · rename_i hu
      unfold isAsciiAlpha
      rw [hu]; rfl
    · simp only [List.mem_cons, List.not_mem_nil, or_false] at this
      rcases this with rfl | rfl | rfl | rfl | rfl <;> decide
  refine ⟨fun hm => ?_, ?_, ha⟩
  · exact absurd (ha _ hm) (by decide)
  · rintro rfl; cases h

/-- the exact form of `urlsplit_spec` -/
theorem urlsplit_https_iff (s : List Char) :
    (urlsplitC s).scheme = ['h', 't', 't', 'p', 's'] ↔
      ∃ pre rest, urlClean s = pre ++ ':' :: rest ∧ pre.map asciiLower = ['h', 't', 't', 'p', 's'] := by
  refine ⟨(urlsplit_spec s).2 _ (by decide), ?_⟩
  rintro ⟨pre, rest, h1, h2⟩
  obtain ⟨l1, l2, l3⟩ := lower_https h2
  unfold urlsplitC schemeSplit
  simp only
  rw [splitFirst_some_iff.2 ⟨h1, l1⟩]
  cases pre with
  | nil => exact absurd rfl l2
  | cons c cs =>
    simp only
    rw [if_pos]
    · exact h2
    · simp only [Bool.and_eq_true, List.all_eq_true]
      exact ⟨l3 c (by simp), fun x hx => by unfold isSchemeChar; rw [l3 x hx]; rfl⟩

theorem urlsplit_bare_iff (s : List Char) :
    ((urlsplitC s).query = [] ∧ (urlsplitC s).fragment = []) ↔ NoQueryNoFragment (urlClean s) := by
  refine ⟨fun h => (urlsplit_spec s).1 h.1 h.2, fun h => ?_⟩
  have key : NoQueryNoFragment (schemeSplit (urlClean s)).2 := by
    unfold schemeSplit
    cases hs : splitFirst ':' (urlClean s) with
    | mk pre o =>
      cases o with
      | none => exact h
      | some r =>
        obtain ⟨hu, -⟩ := splitFirst_some_iff.1 hs
        cases pre with
        | nil => exact h
        | cons c cs =>
          simp only
          by_cases hall : (isAsciiAlpha c && (c :: cs).all isSchemeChar) = true
          · rw [if_pos hall]
            simp only [Bool.and_eq_true, List.all_eq_true] at hall
            have hm : ∀ x ∈ (c :: cs) ++ [':'], x ≠ '#' ∧ x ≠ '?' := by
              intro x hx
              rcases List.mem_append.1 hx with hx | hx
              · exact isSchemeChar_ne (hall.2 x hx)
              · simp at hx; subst hx; decide
            refine noQueryNoFragment_tail (pre := (c :: cs) ++ [':']) (fun hx => (hm _ hx).1 rfl)
              (fun hx => (hm _ hx).2 rfl) ?_
            rw [hu] at h
            simpa using h
          · rw [if_neg hall]; exact h
  obtain ⟨a, b⟩ := rest_of_noQueryNoFragment key
  exact ⟨b, a⟩

/-- What the library asks of the host part `n` of an issuer: brackets come together, and a host with brackets or with
characters outside ASCII passes the checks that are a parameter of the model. -/
def HostOk (netlocOk : List Char → Bool) (n : List Char) : Prop :=
  ('[' ∈ n ↔ ']' ∈ n) ∧ (('[' ∈ n ∨ ∃ c ∈ n, 128 ≤ c.toNat) → netlocOk n = true)

theorem netlocValid_iff (netlocOk : List Char → Bool) (n : List Char) :
    netlocValid netlocOk n = true ↔ HostOk netlocOk n := by
  unfold netlocValid HostOk
  have hb : (n.contains '[' != n.contains ']') = true ↔ ¬ ('[' ∈ n ↔ ']' ∈ n) := by
    by_cases h1 : '[' ∈ n <;> by_cases h2 : ']' ∈ n <;> simp [h1, h2]
  have ha : (n.contains '[' || !n.all (fun c => c.toNat < 128)) = true ↔ ('[' ∈ n ∨ ∃ c ∈ n, 128 ≤ c.toNat) := by
    simp
  by_cases h1 : (n.contains '[' != n.contains ']') = true
  · rw [if_pos h1]
    simp only [Bool.false_eq_true, false_iff, not_and]
    intro h; exact absurd h (hb.1 h1)
  · rw [if_neg h1]
    have h1' := Decidable.not_not.1 (fun h => h1 (hb.2 h))
    by_cases h2 : (n.contains '[' || !n.all (fun c => c.toNat < 128)) = true
    · rw [if_pos h2]
      exact ⟨fun h => ⟨h1', fun _ => h⟩, fun h => h.2 (ha.1 h2)⟩
    · rw [if_neg h2]
      exact ⟨fun _ => ⟨h1', fun h => absurd (ha.2 h) h2⟩, fun _ => rfl⟩

theorem anyCode_texts (l : List String) :
    ∃ b, anyCode (l.map .str) = .ok b ∧ (b = true ↔ ∃ rt ∈ l, ∃ p q, rt.toList = p ++ "code".toList ++ q) := by
  induction l with
  | nil => exact ⟨false, rfl, by simp⟩
  | cons s l ih =>
    obtain ⟨b, hb, hi⟩ := ih
    have hs : (Val.str "code").contains (.str s) = .ok (isSubstrC "code".toList s.toList) := rfl
    simp only [List.map_cons, anyCode, hs]
    cases hc : isSubstrC "code".toList s.toList with
    | true => exact ⟨true, rfl, by simp only [true_iff]; exact ⟨s, by simp, (isSubstr_iff _ _).1 hc⟩⟩
    | false =>
      refine ⟨b, hb, hi.trans ⟨fun ⟨rt, h1, h2⟩ => ⟨rt, by simp [h1], h2⟩, ?_⟩⟩
      rintro ⟨rt, h1, h2⟩
      rcases List.mem_cons.1 h1 with rfl | h1
      · rw [(isSubstr_iff _ _).2 h2] at hc; cases hc
      · exact ⟨rt, h1, h2⟩

/-- **C35, exactly.**  A provider configuration whose issuer is a text and whose lists hold texts is accepted if and only if: the
rules of its parameters hold and an error description is allowed; every scope has the allowed characters only and `openid` is among them; the
issuer has the scheme `https`, in any case of letters, unless http is allowed, has no query and no fragment, and a host
without a lone bracket that the library knows; `RS256` is among the algorithms; and there is a token endpoint as soon
as `code` occurs in a response type. -/
theorem C35_exact (netlocOk : List Char → Bool) (st kw : Dict) (iss : String) (algs types : List String)
    (hi : dget st "issuer" = some (.str iss))
    (hs : ∀ v, dget st "scopes_supported" = some v → ∃ l : List String, v = .list (l.map .str))
    (ha : dget st "id_token_signing_alg_values_supported" = some (.list (algs.map .str)))
    (ht : dget st "response_types_supported" = some (.list (types.map .str))) :
    providerConfigVerify netlocOk st kw = .ok () ↔
      Acceptable oidc_ProviderConfigurationResponse st ∧ DescriptionOk st ∧
      (∀ l : List String, dget st "scopes_supported" = some (.list (l.map .str)) →
        "openid" ∈ l ∧ ∀ s ∈ l, ∀ c ∈ s.toList, ScopeChar c) ∧
      (dget kw "allow_http" = none → ∃ pre rest, urlClean iss.toList = pre ++ ':' :: rest ∧
        pre.map asciiLower = "https".toList) ∧
      NoQueryNoFragment (urlClean iss.toList) ∧ HostOk netlocOk (netlocC iss.toList) ∧
      "RS256" ∈ algs ∧
      ((∃ rt ∈ types, ∃ p q, rt.toList = p ++ "code".toList ++ q) → dget st "token_endpoint" ≠ none) := by
  have hscope : scopesSupported st = .ok () ↔ ∀ l : List String, dget st "scopes_supported" = some (.list (l.map .str)) →
        "openid" ∈ l ∧ ∀ s ∈ l, ∀ c ∈ s.toList, ScopeChar c := by
    unfold scopesSupported
    cases hv : dget st "scopes_supported" with
    | none => simp
    | some v =>
      obtain ⟨l, rfl⟩ := hs v hv
      have hc : checkScopes (l.map .str) = .ok () ↔ ∀ s ∈ l, ∀ c ∈ s.toList, ScopeChar c := by
        rw [checkScopes_iff]
        simp only [List.forall_mem_map, scopeText_str]
      simp only [bind_ok, need_ok]
      constructor
      · rintro ⟨o, ho, ⟨⟩, rfl, l', hl', h⟩ m hm
        simp only [Val.iter, ok_ok] at hl'
        subst hl'
        have : m = l := by
          have := Val.list.inj (Option.some.inj hm)
          exact (List.map_inj_right (fun _ _ h => Val.str.inj h)).1 this.symm
        subst this
        exact ⟨(contains_str_list _ _).1 ho, hc.1 h⟩
      · intro h
        obtain ⟨h1, h2⟩ := h l rfl
        exact ⟨true, (contains_str_list _ _).2 h1, (), rfl, _, rfl, hc.2 h2⟩
  have hparts : ∀ parts, issuerParts netlocOk st = .ok parts ↔
      parts = urlsplitC iss.toList ∧ HostOk netlocOk (netlocC iss.toList) := by
    intro parts
    unfold issuerParts urlparse
    simp only [hi]
    rw [← netlocValid_iff]
    split
    · rename_i h
      simp only [ok_ok, h, and_true]
      exact eq_comm
    · rename_i h; simp [h]
  obtain ⟨b, hb, hbi⟩ := anyCode_texts types
  have htok : tokenEndpoint st = .ok () ↔
      ((∃ rt ∈ types, ∃ p q, rt.toList = p ++ "code".toList ++ q) → dget st "token_endpoint" ≠ none) := by
    rw [← hbi]
    unfold tokenEndpoint
    simp only [bind_ok, need_ok, getR_ok]
    have hd : dhas st "token_endpoint" = true ↔ dget st "token_endpoint" ≠ none := by
      unfold dhas; cases dget st "token_endpoint" <;> simp
    constructor
    · rintro ⟨v, hv, l, hl, c, hc, h⟩ rfl
      rw [ht] at hv; cases hv
      simp only [Val.iter, ok_ok] at hl; subst hl
      rw [hb] at hc; cases hc
      rw [← hd]; simpa using h
    · intro h
      refine ⟨_, ht, _, rfl, b, hb, ?_⟩
      cases b with
      | false => rfl
      | true => simp only [Bool.not_true, Bool.false_or]; exact hd.2 (h rfl)
  unfold providerConfigVerify
  simp only [bind_ok, need_ok, getR_ok]
  constructor
  · rintro ⟨⟨⟩, h1, ⟨⟩, h2, parts, h3, ⟨⟩, h4, a, h5, rs, h6, ⟨⟩, rfl, ⟨⟩, h7, h8⟩
    obtain ⟨rfl, hh⟩ := (hparts _).1 h3
    rw [ha] at h5; cases h5
    obtain ⟨a1, a2⟩ := (C36_iff _ _).1 h1
    simp only [Bool.and_eq_true, List.isEmpty_iff, Bool.or_eq_true, decide_eq_true_eq] at h4 h7
    refine ⟨a1, a2, hscope.1 h2, fun hk => ?_, (urlsplit_bare_iff _).1 h7, hh, (contains_str_list _ _).1 h6, htok.1 h8⟩
    rcases h4 with h4 | h4
    · simp [dhas, hk] at h4
    · exact (urlsplit_https_iff _).1 h4
  · rintro ⟨a1, a2, h2, h4, h7, hh, h6, h8⟩
    refine ⟨(), (C36_iff _ _).2 ⟨a1, a2⟩, (), hscope.2 h2, _, (hparts _).2 ⟨rfl, hh⟩, (), ?_, _, ha, true,
      (contains_str_list _ _).2 h6, (), rfl, (), ?_, htok.2 h8⟩
    · simp only [Bool.or_eq_true, decide_eq_true_eq]
      cases hk : dget kw "allow_http" with
      | some v => left; simp [dhas, hk]
      | none => right; exact (urlsplit_https_iff _).2 (h4 hk)
    · simp only [Bool.and_eq_true, List.isEmpty_iff]
      exact (urlsplit_bare_iff _).2 h7

/-- no token endpoint and no response type with `code`; the scheme in capitals; a bare `#` at the end -/
example : providerConfigVerify (fun _ => false) (toyConfig "HTTPS://op.example/a#") [] = .ok () ∧
    dget (toyConfig "HTTPS://op.example/a#") "token_endpoint" = none ∧
    providerConfigVerify (fun _ => false) (dset (toyConfig "https://op") "response_types_supported"
      (.list [.str "id_token", .str "xcodex"])) [] = .error .missingRequiredAttribute ∧
    providerConfigVerify (fun _ => false) (toyConfig "https://op.example/a#b") [] = .error .valueError := by
  decide +kernel

/-! ## C27 -/

/-- **C27, exactly.**  A request without a signed request object and without an ID token hint, whose response type, scope and prompt are
lists of texts, is accepted if and only if the rules of its parameters hold and: there is a nonce, equal to the expected
one if the caller gives one, when the response type has `id_token`; the scope has `openid`; the prompt has `consent`
when the scope has `offline_access`; the prompt `none` stands alone. -/
theorem C27_exact (C : Crypto) (st : Dict) (jar : JarArg C) (kw : Dict) (types scopes prompts : List String)
    (hr : ∀ t, dget st "request" ≠ some (.str t)) (hh : ∀ t, dget st "id_token_hint" ≠ some (.str t))
    (hrt : dget st "response_type" = some (.list (types.map .str)))
    (hsc : dget st "scope" = some (.list (scopes.map .str)))
    (hpr : dget st "prompt" = some (.list (prompts.map .str)) ∨ dget st "prompt" = none ∧ prompts = []) :
    (∃ st', authzRequestVerify C st jar kw = .ok st') ↔
      Acceptable oidc_AuthorizationRequest st ∧
      ("id_token" ∈ types → ∃ n, dget st "nonce" = some n ∧ ∀ n', dget kw "nonce" = some n' → n.eq n' = true) ∧
      "openid" ∈ scopes ∧ ("offline_access" ∈ scopes → "consent" ∈ prompts) ∧
      ("none" ∈ prompts → prompts = ["none"]) := by
  have g : ∀ k, k ≠ "__verified_id_token" → k ≠ "__verified_id_token_hint" → k ≠ "__verified_request" →
      dget (clearVerifiedClaims st) k = dget st k := fun k => clear_dget st k
  have hreq : ∀ args, requestStep C (clearVerifiedClaims st) jar args = .ok (clearVerifiedClaims st, jar) := by
    intro args
    unfold requestStep
    rw [g _ (by decide) (by decide) (by decide)]
    split
    · rename_i t ht; exact absurd ht (hr t)
    · rfl
  have hhint : ∀ args, hintStep C (clearVerifiedClaims st) jar args = .ok (clearVerifiedClaims st) := by
    intro args
    unfold hintStep
    rw [g _ (by decide) (by decide) (by decide)]
    split
    · rename_i t ht; exact absurd ht (hh t)
    · rfl
  constructor
  · rintro ⟨st', h⟩
    obtain ⟨args, st₁, jar₁, h1, h2, h3, h4, h5⟩ := authzRequest_ok h
    rw [hreq] at h3; cases h3
    rw [hhint] at h4; cases h4
    have hpr' : dget (clearVerifiedClaims st) "prompt" = some (.list (prompts.map .str)) ∨
        dget (clearVerifiedClaims st) "prompt" = none ∧ prompts.map Val.str = [] := by
      rw [g _ (by decide) (by decide) (by decide)]
      rcases hpr with hpr | ⟨hpr, rfl⟩
      · exact .inl hpr
      · exact .inr ⟨hpr, rfl⟩
    obtain ⟨-, l2, l3, l4⟩ := C27_lists C st jar kw _ _ _ _ h ((g _ (by decide) (by decide) (by decide)).trans hrt)
      ((g _ (by decide) (by decide) (by decide)).trans hsc) hpr'
    obtain ⟨rt, c1, c2, -, -⟩ := C27_conditions C st jar kw _ h
    rw [g _ (by decide) (by decide) (by decide), hrt] at c1; cases c1
    have mem : ∀ (s : String) (l : List String), Val.str s ∈ l.map Val.str ↔ s ∈ l := by
      intro s l; simp
    rw [mem] at l2 l3 l4
    rw [mem] at l3
    refine ⟨(C04_verify_iff _ _).1 h1, fun hm => ?_, l2, l3, fun hm => ?_⟩
    · obtain ⟨n, hn, he⟩ := c2 ((contains_str_list _ _).2 hm)
      rw [g _ (by decide) (by decide) (by decide)] at hn
      exact ⟨n, hn, he⟩
    · have := l4 hm
      exact (List.map_inj_right (fun _ _ h => Val.str.inj h)).1 (this.trans (by rfl : _ = ["none"].map Val.str))
  · rintro ⟨a, b, c, d, e⟩
    refine ⟨clearVerifiedClaims st, ?_⟩
    obtain ⟨args, hargs⟩ : ∃ args, authzArgs (clearVerifiedClaims st) kw = .ok args := by
      unfold authzArgs
      split
      · exact ⟨_, rfl⟩
      · obtain ⟨v, hv, -⟩ := (a "client_id" singleRequiredString (by simp [oidc_AuthorizationRequest]) (by decide)).1 rfl
        have : getR (clearVerifiedClaims st) "client_id" = .ok v :=
          getR_ok.2 ((g _ (by decide) (by decide) (by decide)).trans hv)
        rw [this]; exact ⟨_, rfl⟩
    have bool : ∀ (s : String) (l : List String), ∃ b, (Val.str s).contains (.list (l.map .str)) = .ok b ∧ (b = true ↔ s ∈ l) := by
      intro s l
      refine ⟨_, contains_list_ok _ _, ?_⟩
      rw [← contains_str_list, contains_list_ok, ok_ok]
    have hconds : authzRequestConds (clearVerifiedClaims st) kw = .ok () := by
      unfold authzRequestConds
      simp only [bind_ok, getReq_ok]
      refine ⟨_, (g _ (by decide) (by decide) (by decide)).trans hrt, (), ?_, (), ?_, ?_⟩
      · unfold nonceStep
        obtain ⟨x, hx, hxi⟩ := bool "id_token" types
        rw [hx]
        cases x with
        | false => rfl
        | true =>
          obtain ⟨n, hn, he⟩ := b (hxi.1 rfl)
          have hn' := (g "nonce" (by decide) (by decide) (by decide)).trans hn
          simp only [hn']
          refine (matchArg_iff _ _ _ _).2 fun m n' hm hk => ?_
          rw [hn'] at hm; cases hm
          exact he n' hk
      · unfold scopeStep scopeOf
        rw [(g _ (by decide) (by decide) (by decide)).trans hsc]
        simp only [bind_ok, need_ok]
        obtain ⟨x, hx, hxi⟩ := bool "offline_access" scopes
        refine ⟨true, (contains_str_list _ _).2 c, (), rfl, x, hx, true, ?_, rfl⟩
        unfold consentStep
        cases x with
        | false => rfl
        | true =>
          have hp := d (hxi.1 rfl)
          rw [if_pos rfl]
          unfold promptHas
          rw [g _ (by decide) (by decide) (by decide)]
          rcases hpr with hpr | ⟨-, rfl⟩
          · rw [hpr]; exact (contains_str_list _ _).2 hp
          · simp at hp
      · unfold promptStep
        rw [g _ (by decide) (by decide) (by decide)]
        rcases hpr with hpr | ⟨hpr, -⟩
        · rw [hpr]
          simp only [bind_ok, need_ok, decide_eq_true_eq]
          obtain ⟨x, hx, hxi⟩ := bool "none" prompts
          refine ⟨x, hx, ?_⟩
          unfold promptLen
          cases x with
          | false => exact ⟨0, rfl, by decide⟩
          | true =>
            refine ⟨1, ?_, by decide⟩
            rw [if_pos rfl, e (hxi.1 rfl)]; rfl
        · rw [hpr]
    unfold authzRequestVerify
    simp only [bind_ok]
    exact ⟨(), (C04_verify_iff _ _).2 a, args, hargs, _, hreq args, _, hhint args, (), hconds, rfl⟩

/-- both sides of the equivalence occur -/
example : (authzRequestVerify toy (toyRequest [("prompt", .list [.str "consent"]), ("nonce", .str "n")]) (some none)
      [("nonce", .str "n")]).isOk = true ∧
    authzRequestVerify toy (toyRequest [("prompt", .list [.str "consent", .str "none"])]) (some none) []
      = .error .invalidRequest := by decide +kernel

/-! ## C33 -/

theorem pairStep_succeeds {st : Dict} {alg enc : String}
    (hd : dget oidc_RegistrationRequest.params enc = some singleOptionalString)
    (h : dget st enc ≠ none → dget st alg ≠ none) : ∃ st', pairStep st alg enc = .ok st' := by
  unfold pairStep
  split
  · split
    · exact ⟨_, rfl⟩
    · rw [setItem_enc hd]; exact ⟨_, rfl⟩
  · rename_i ha
    split
    · rename_i he
      have h1 : dget st enc ≠ none := by
        intro e; simp [dhas, e] at he
      exact absurd (h h1) (by simpa [dhas] using ha)
    · exact ⟨_, rfl⟩

/-- **C33, exactly.**  A registration request is accepted if and only if the rules of its parameters hold, no content
encryption algorithm comes without its key management algorithm, the token endpoint signing algorithm is not `none`
and the login address, if there is one, is a text that starts with `https:`. -/
theorem C33_exact (st : Dict) :
    (∃ st', registrationRequestVerify st = .ok st') ↔
      Acceptable oidc_RegistrationRequest st ∧ (∀ p ∈ encPairs, dget st p.2 ≠ none → dget st p.1 ≠ none) ∧
      dget st "token_endpoint_auth_signing_alg" ≠ some (.str "none") ∧
      (∀ v, dget st "initiate_login_uri" = some v → ∃ rest, v = .str (String.ofList ("https:".toList ++ rest))) := by
  constructor
  · rintro ⟨st', h⟩
    obtain ⟨-, -, c3, c4, c5⟩ := C33_registration st st' h
    have same : ∀ k, k ∉ encPairs.map Prod.snd → dget st' k = dget st k := by
      intro k hk
      exact c3 k fun p hp e => absurd (e ▸ List.mem_map_of_mem hp) hk
    rw [same _ (by decide)] at c4 c5
    refine ⟨?_, fun p hp h2 h1 => C33_enc_without_alg st st' p hp h1 h2 h, c4, c5⟩
    unfold registrationRequestVerify at h
    simp only [bind_ok] at h
    obtain ⟨⟨⟩, hv, -⟩ := h
    exact (C04_verify_iff _ _).1 hv
  · rintro ⟨a, b, c, d⟩
    obtain ⟨s1, h1⟩ := pairStep_succeeds (st := st) (alg := "request_object_encryption_alg")
      (enc := "request_object_encryption_enc") rfl (b ("request_object_encryption_alg", "request_object_encryption_enc") (by decide))
    obtain ⟨-, b1⟩ := pairStep_ok rfl h1
    obtain ⟨s2, h2⟩ := pairStep_succeeds (st := s1) (alg := "id_token_encrypted_response_alg")
      (enc := "id_token_encrypted_response_enc") rfl (by
        rw [b1, b1]
        simpa using b ("id_token_encrypted_response_alg", "id_token_encrypted_response_enc") (by decide))
    obtain ⟨-, b2⟩ := pairStep_ok rfl h2
    obtain ⟨s3, h3⟩ := pairStep_succeeds (st := s2) (alg := "userinfo_encrypted_response_alg")
      (enc := "userinfo_encrypted_response_enc") rfl (by
        rw [b2, b2, b1, b1, b1, b1]
        simpa using b ("userinfo_encrypted_response_alg", "userinfo_encrypted_response_enc") (by decide))
    obtain ⟨-, b3⟩ := pairStep_ok rfl h3
    refine ⟨s3, ?_⟩
    unfold registrationRequestVerify
    simp only [bind_ok]
    refine ⟨(), (C04_verify_iff _ _).2 a, (), ?_, s1, h1, s2, h2, s3, h3, (), ?_, rfl⟩
    · unfold initiateLogin
      cases hv : dget st "initiate_login_uri" with
      | none => rfl
      | some v =>
        obtain ⟨rest, rfl⟩ := d v hv
        simp only [need_ok, startsWithC, String.toList_ofList, List.isPrefixOf_iff_prefix]
        exact ⟨rest, rfl⟩
    · have ht : dget s3 "token_endpoint_auth_signing_alg" = dget st "token_endpoint_auth_signing_alg" := by
        rw [b3, b2, b2, b2, b1, b1, b1, b1, b1]; simp
      unfold authSigningAlg
      rw [ht]
      cases hv : dget st "token_endpoint_auth_signing_alg" with
      | none => rfl
      | some v =>
        simp only [need_ok, Bool.not_eq_true', ← Bool.not_eq_true]
        intro he
        rw [eq_str_iff] at he
        exact c (by rw [hv, he])

example : (∃ st', registrationRequestVerify [("redirect_uris", .list [.str "https://rp/cb"]),
      ("userinfo_encrypted_response_alg", .str "RSA-OAEP"), ("token_endpoint_auth_signing_alg", .str "RS256")] = .ok st') ∧
    registrationRequestVerify [("redirect_uris", .list [.str "https://rp/cb"]),
      ("token_endpoint_auth_signing_alg", .str "none")] = .error .valueError :=
  ⟨⟨_, rfl⟩, by decide +kernel⟩

/-! ## C32 -/

/-- **C32, without a hint.**  The outcome is then decided by the redirection address alone: the result is `True`
exactly without one, and nothing but the three verified slots is removed. -/
theorem C32_without_hint (C : Crypto) (now : Int) (st : Dict) (jar : JarArg C) (kw : Dict)
    (h : dget st "id_token_hint" = none) (ha : Acceptable session_EndSessionRequest st) :
    ∃ b st', endSessionVerify C now st jar kw = .ok (b, st') ∧
      (b = true ↔ dget st "post_logout_redirect_uri" = none) ∧
      ∀ k, dget st' k = if k ∈ ["__verified_id_token", "__verified_id_token_hint", "__verified_request"] then none
        else dget st k := by
  obtain ⟨c1, c2, c3⟩ := clear_slots st
  have hk : ∀ k, dget (clearVerifiedClaims st) k =
      if k ∈ ["__verified_id_token", "__verified_id_token_hint", "__verified_request"] then none else dget st k := by
    intro k
    split
    · rename_i hm
      simp only [List.mem_cons, List.not_mem_nil, or_false] at hm
      rcases hm with rfl | rfl | rfl <;> assumption
    · rename_i hm
      simp only [List.mem_cons, List.not_mem_nil, or_false, not_or] at hm
      exact clear_dget st k hm.1 hm.2.1 hm.2.2
  have hh : dhas (clearVerifiedClaims st) "id_token_hint" = false := by
    rw [dhas_eq_false_iff, hk]; simpa using h
  have hp : dhas (clearVerifiedClaims st) "post_logout_redirect_uri" = dhas st "post_logout_redirect_uri" := by
    unfold dhas; rw [hk]; simp
  refine ⟨!dhas st "post_logout_redirect_uri", clearVerifiedClaims st, ?_, ?_, hk⟩
  · unfold endSessionVerify
    simp only [bind_ok]
    refine ⟨(), (C04_verify_iff _ _).2 ha, ?_⟩
    unfold endSessionRest
    rw [hh, hp]
    cases dhas st "post_logout_redirect_uri" <;> rfl
  · rw [Bool.not_eq_true', dhas_eq_false_iff]

example : Acceptable session_EndSessionRequest [("post_logout_redirect_uri", .str "https://rp/out"), ("__verified_id_token", .str "x")] ∧
    endSessionVerify toy 0 [("post_logout_redirect_uri", .str "https://rp/out"), ("__verified_id_token", .str "x")] (some none) []
      = .ok (false, [("post_logout_redirect_uri", .str "https://rp/out")]) :=
  ⟨(C04_verify_iff _ _).1 (by decide +kernel), by decide +kernel⟩

end Verif
