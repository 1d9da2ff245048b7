import Verif.Props.Arguments

/-!
# C154: expecting less refuses less
-/

namespace Verif

/-- what is accepted on the left is accepted on the right, with the same result -/
def Permits (x y : Res α) : Prop := ∀ a, x = .ok a → y = .ok a

theorem permits_rfl (x : Res α) : Permits x x := fun _ h => h

theorem permits_eq {x y : Res α} (h : y = x) : Permits x y := fun _ hx => h.trans hx

theorem permits_bind {x y : Res α} {f g : α → Res β} (h : Permits x y) (hf : ∀ a, Permits (f a) (g a)) : Permits (x >>= f) (y >>= g) := by
  intro b hb
  cases hx : x with
  | error e => rw [hx] at hb; cases hb
  | ok a =>
    rw [h a hx]
    rw [hx] at hb
    exact hf a b hb

theorem permits_map {x y : Res α} (f : α → β) (h : Permits x y) : Permits (x.map f) (y.map f) := by
  intro b hb
  cases hx : x with
  | error e => rw [hx] at hb; cases hb
  | ok a =>
    rw [h a hx]
    rw [hx] at hb
    exact hb

/-! ## what it means to ask for less -/

/-- the expectation is the same, or left out -/
def LeftOut (kw kw' : Dict) (n : String) : Prop := dget kw' n = dget kw n ∨ dget kw' n = none

/-- the number is the same, or larger -/
def LargerArg (kw kw' : Dict) (n : String) (dflt : Rat) : Prop :=
  dget kw' n = dget kw n ∨ ∃ s s', NumArg kw n dflt s ∧ NumArg kw' n dflt s' ∧ s ≤ s'

/-- the arguments that may differ below -/
def mildArgs : List String :=
  ["iss", "client_id", "nonce", "aud", "allowed_sign_alg", "skew", "nonce_storage_time", "allow_sign_alg_none", "allow_http"]

/-- `kw'` asks for less than `kw`: expectations are left out, tolerances are larger, permissions are added; all else is the same. -/
structure Milder (kw kw' : Dict) : Prop where
  expect : ∀ n ∈ ["iss", "client_id", "nonce", "aud", "allowed_sign_alg"], LeftOut kw kw' n
  skew : LargerArg kw kw' "skew" 0
  storage : LargerArg kw kw' "nonce_storage_time" 14400
  unsigned : dget kw' "allow_sign_alg_none" = dget kw "allow_sign_alg_none" ∨ dget kw' "allow_sign_alg_none" = some (.bool true)
  http : dget kw' "allow_http" = dget kw "allow_http" ∨ dhas kw' "allow_http" = true
  rest : ∀ n, n ∉ mildArgs → dget kw' n = dget kw n

/-- the key jar does not look at those arguments -/
def KeysIgnoreMild (C : Crypto) : Prop :=
  ∀ kj j d d', (∀ m, m ∉ mildArgs → dget d m = dget d' m) → C.keys kj j d = C.keys kj j d'

theorem larger_num {kw kw' : Dict} {n : String} {dflt s : Rat} (h : LargerArg kw kw' n dflt) (hs : numArg kw n dflt = .ok s) :
    ∃ s', numArg kw' n dflt = .ok s' ∧ s ≤ s' := by
  rcases h with h | ⟨q, q', hq, hq', hle⟩
  · exact ⟨s, by unfold numArg at hs ⊢; rw [h]; exact hs, Rat.le_refl⟩
  · rw [← numArg_ok] at hq hq'
    rw [hq] at hs; cases hs
    exact ⟨q', hq', hle⟩

theorem matchArg_milder {kw kw' : Dict} {n : String} (h : LeftOut kw kw' n) (st : Dict) (e : Exc) :
    Permits (matchArg st kw n e) (matchArg st kw' n e) := by
  intro _ hx
  rcases h with h | h
  · unfold matchArg at hx ⊢; rw [h]; exact hx
  · unfold matchArg; rw [h]; cases dget st n <;> rfl

theorem leftOut_some {kw kw' : Dict} {n : String} (h : LeftOut kw kw' n) {v : Val} (hv : dget kw' n = some v) : dget kw n = some v := by
  rcases h with h | h
  · rw [← h, hv]
  · rw [h] at hv; cases hv

theorem larger_arg {kw kw' : Dict} {n : String} {dflt s : Rat} (h : LargerArg kw kw' n dflt) (hs : NumArg kw n dflt s) :
    ∃ s', NumArg kw' n dflt s' ∧ s ≤ s' := by
  obtain ⟨s', h1, h2⟩ := larger_num h (numArg_ok.2 hs)
  exact ⟨s', numArg_ok.1 h1, h2⟩

theorem timeCheck_milder {kw kw' : Dict} (h : LargerArg kw kw' "skew" 0) (st : Dict) (k : String) (ok : Rat → Rat → Bool) (e : Exc)
    (hok : ∀ s s' x, s ≤ s' → ok s x = true → ok s' x = true) : Permits (timeCheck st kw k ok e) (timeCheck st kw' k ok e) := by
  unfold timeCheck
  split
  · exact permits_rfl _
  · next v _ =>
    intro u hu
    cases hs : numArg kw "skew" 0 with
    | error e => rw [hs] at hu; cases hu
    | ok s =>
      obtain ⟨s', hs', hle⟩ := larger_num h hs
      rw [hs] at hu
      rw [hs']
      cases hx : numR v with
      | error e' => rw [hx] at hu; cases hu
      | ok x =>
        rw [hx] at hu
        have hb : ok s x = true := by
          cases hb : ok s x with
          | true => rfl
          | false =>
            simp only [bind, Except.bind, hb, need] at hu
            cases hu
        simp [bind, Except.bind, need, hok s s' x hle hb]

theorem audArg_milder {kw kw' : Dict} (h : LeftOut kw kw' "aud") (st : Dict) : Permits (audArg st kw) (audArg st kw') := by
  intro u hu
  rw [audArg_iff] at hu ⊢
  exact fun aud a ha hk => hu aud a ha (leftOut_some h hk)

/-! ## C154 -/

/-- **C154**, OAuth2 authorization responses -/
theorem C154_oauth2_authz_response {kw kw' : Dict} (h : Milder kw kw') (sch : Schema) (st : Dict) :
    Permits (oauth2AuthzResponseVerify sch st kw) (oauth2AuthzResponseVerify sch st kw') := by
  unfold oauth2AuthzResponseVerify
  exact permits_bind (permits_rfl _) fun _ => permits_bind (matchArg_milder (h.expect _ (by simp)) _ _) fun _ =>
    matchArg_milder (h.expect _ (by simp)) _ _

/-- **C154**, ID tokens -/
theorem C154_id_token {kw kw' : Dict} (h : Milder kw kw') (now : Int) (st : Dict) :
    Permits (idTokenVerify now st kw) (idTokenVerify now st kw') := by
  intro u hu
  rw [C24_iff] at hu ⊢
  obtain ⟨h1, h2, h3, h4, h5, h6, ⟨skew, e, i, s, h7, h8, h9, h10, h11, h12⟩, h13⟩ := hu
  have hc := h.expect "client_id" (by simp)
  obtain ⟨skew', k1, k2⟩ := larger_arg h.skew h7
  obtain ⟨s', k3, k4⟩ := larger_arg h.storage h10
  refine ⟨h1, h2, h3, fun a b ha hb => h4 a b ha (leftOut_some (h.expect "iss" (by simp)) hb), ?_, ?_,
    ⟨skew', e, i, s', k1, h8, h9, k3, by grind, by grind⟩,
    fun a b ha hb => h13 a b ha (leftOut_some (h.expect "nonce" (by simp)) hb)⟩
  · intro aud ha
    obtain ⟨g1, g2⟩ := h5 aud ha
    exact ⟨fun c hk => g1 c (leftOut_some hc hk), g2⟩
  · exact fun azp c ha hk => h6 azp c ha (leftOut_some hc hk)

/-- **C154**, tokens with `JsonWebToken.verify`, without `nbf` (of which C29 says that a larger skew refuses more) -/
theorem C154_json_web_token_partial {kw kw' : Dict} (h : Milder kw kw') (now : Int) (sch : Schema) (st : Dict)
    (hn : dget st "nbf" = none ∨ dget kw' "skew" = dget kw "skew") :
    Permits (jsonWebTokenVerify now sch st kw) (jsonWebTokenVerify now sch st kw') := by
  unfold jsonWebTokenVerify
  refine permits_bind (permits_rfl _) fun _ => permits_bind (timeCheck_milder h.skew _ _ _ _ ?_) fun _ =>
    permits_bind (timeCheck_milder h.skew _ _ _ _ ?_) fun _ => permits_bind ?_ fun _ =>
    permits_bind (audArg_milder (h.expect _ (by simp)) _) fun _ => matchArg_milder (h.expect _ (by simp)) _ _
  · intro s s' x hle hx
    simp only [decide_eq_true_eq] at hx ⊢
    grind
  · intro s s' x hle hx
    simp only [decide_eq_true_eq] at hx ⊢
    grind
  · rcases hn with hn | hn
    · unfold timeCheck; rw [hn]; exact permits_rfl _
    · exact permits_eq (same_time hn _ _ _ _)

/-- **C154**, logout tokens -/
theorem C154_logout_token {kw kw' : Dict} (h : Milder kw kw') (now : Int) (st : Dict) (hdr : Option Dict) :
    Permits (logoutTokenVerify now st hdr kw) (logoutTokenVerify now st hdr kw') := by
  unfold logoutTokenVerify
  refine permits_bind (permits_rfl _) fun _ => permits_bind (permits_rfl _) fun _ => permits_bind (permits_rfl _) fun _ =>
    permits_bind (permits_rfl _) fun _ => permits_bind (audArg_milder (h.expect _ (by simp)) _) fun _ =>
    permits_bind (matchArg_milder (h.expect _ (by simp)) _ _) fun _ => permits_bind (timeCheck_milder h.skew _ _ _ _ ?_) fun _ => ?_
  · intro s s' x hle hx
    simp only [decide_eq_true_eq] at hx ⊢
    grind
  · unfold logoutAlg
    rcases h.expect "allowed_sign_alg" (by simp) with h | h
    · rw [h]; exact permits_rfl _
    · rw [h]; intro _ _; rfl

/-- **C154**, provider configurations -/
theorem C154_provider_config {kw kw' : Dict} (h : Milder kw kw') (netlocOk : List Char → Bool) (st : Dict) :
    Permits (providerConfigVerify netlocOk st kw) (providerConfigVerify netlocOk st kw') := by
  unfold providerConfigVerify
  refine permits_bind (permits_rfl _) fun _ => permits_bind (permits_rfl _) fun _ => permits_bind (permits_rfl _) fun _ =>
    permits_bind ?_ fun _ => permits_rfl _
  rcases h.http with h | h
  · unfold dhas; rw [h]; exact permits_rfl _
  · rw [h]; intro _ _; rfl

/-! ### messages with tokens -/

theorem algCheck_milder {kw kw' : Dict} (h : Milder kw kw') (alg : Val) : Permits (algCheck alg kw) (algCheck alg kw') := by
  have hs : sigalgNone kw' = sigalgNone kw := by unfold sigalgNone; rw [h.rest "sigalg" (by decide)]
  unfold algCheck
  rw [hs]
  split
  · split
    · exact permits_rfl _
    · rcases h.unsigned with hu | hu
      · unfold noneForbidden; rw [hu]; exact permits_rfl _
      · have : noneForbidden kw' = false := by unfold noneForbidden; rw [hu]
        rw [this]
        intro b hb
        split at hb
        · cases hb
        · exact hb
  · rcases h.expect "allowed_sign_alg" (by simp) with hu | hu
    · rw [hu]; exact permits_rfl _
    · rw [hu]
      intro b hb
      split at hb
      · exact hb
      · split at hb
        · exact hb
        · cases hb

theorem fromJwt_milder {C : Crypto} (hC : KeysIgnoreMild C) {kw kw' : Dict} (h : Milder kw kw') (sch : Schema) (txt : String) (jar : JarArg C) :
    fromJwt C sch txt jar (pick idTokenVerifyArgs kw') = fromJwt C sch txt jar (pick idTokenVerifyArgs kw) := by
  refine fromJwt_args ?_ ?_ ?_ ?_ ?_ _ _ _
  · rw [dget_pick, dget_pick, h.rest "encalg" (by decide)]
  · rw [dget_pick, dget_pick, h.rest "encenc" (by decide)]
  · rw [dget_pick, dget_pick, h.rest "sigalg" (by decide)]
  · unfold verifyArg
    rw [dget_pick, dget_pick, h.rest "verify" (by decide)]
  · intro kj j
    refine hC kj j _ _ fun m hm => ?_
    rw [dget_ddel, dget_ddel, dget_pick, dget_pick, h.rest m hm]

/-- **C154**, `verify_id_token` -/
theorem C154_verify_id_token {C : Crypto} (hC : KeysIgnoreMild C) {kw kw' : Dict} (h : Milder kw kw') (now : Int) (st : Dict) (claim : String)
    (b : Bool) (jar : JarArg C) : Permits (verifyIdToken C now st claim b jar kw) (verifyIdToken C now st claim b jar kw') := by
  unfold verifyIdToken verifyIdTokenCore
  refine permits_bind (permits_rfl _) fun v => permits_bind ?_ fun m => permits_rfl _
  refine permits_bind (permits_rfl _) fun j => permits_bind (permits_rfl _) fun alg => permits_bind (algCheck_milder h alg) fun signed =>
    permits_bind (permits_rfl _) fun body => permits_bind (permits_rfl _) fun _ => ?_
  rw [fromJwt_milder hC h]
  exact permits_bind (permits_rfl _) fun m => permits_bind (C154_id_token h now _) fun _ => permits_rfl _

theorem ifPresent_milder {C : Crypto} (hC : KeysIgnoreMild C) {kw kw' : Dict} (h : Milder kw kw') (now : Int) (st : Dict) (claim : String)
    (b : Bool) (jar : JarArg C) : Permits (verifyIfPresent C now st claim b jar kw) (verifyIfPresent C now st claim b jar kw') := by
  unfold verifyIfPresent
  split
  · exact C154_verify_id_token hC h _ _ _ _ _
  · exact permits_rfl _

/-- **C154**, token responses -/
theorem C154_token_response {C : Crypto} (hC : KeysIgnoreMild C) {kw kw' : Dict} (h : Milder kw kw') (now : Int) (st : Dict) (jar : JarArg C) :
    Permits (accessTokenResponseVerify C now st jar kw) (accessTokenResponseVerify C now st jar kw') :=
  permits_bind (permits_rfl _) fun _ => ifPresent_milder hC h _ _ _ _ _

/-- **C154**, messages with an ID token -/
theorem C154_message_with_id_token {C : Crypto} (hC : KeysIgnoreMild C) {kw kw' : Dict} (h : Milder kw kw') (now : Int) (sch : Schema) (st : Dict)
    (jar : JarArg C) : Permits (messageWithIdTokenVerify C now sch st jar kw) (messageWithIdTokenVerify C now sch st jar kw') :=
  permits_bind (permits_rfl _) fun _ => ifPresent_milder hC h _ _ _ _ _

/-- **C154**, authorization responses that are accepted: with the result `True` -/
theorem C154_authz_response {C : Crypto} (hC : KeysIgnoreMild C) {kw kw' : Dict} (h : Milder kw kw') (now : Int) (st r : Dict) (jar : JarArg C)
    (ha : authzResponseVerify C now st jar kw = .ok (true, r)) : authzResponseVerify C now st jar kw' = .ok (true, r) := by
  unfold authzResponseVerify at ha ⊢
  cases h1 : oauth2AuthzResponseVerify oidc_AuthorizationResponse st kw with
  | error e => rw [h1] at ha; cases ha
  | ok _ =>
    rw [C154_oauth2_authz_response h _ _ _ h1]
    rw [h1] at ha
    cases h2 : forMe (clearVerifiedClaims st) kw with
    | error e =>
      simp only [bind, Except.bind, h2] at ha
      cases ha
    | ok mine =>
      simp only [bind, Except.bind, h2] at ha ⊢
      cases mine with
      | false => cases ha
      | true =>
        have h3 : forMe (clearVerifiedClaims st) kw' = .ok true := by
          rcases h.expect "client_id" (by simp) with hc | hc
          · unfold forMe at h2 ⊢; rw [hc]; exact h2
          · unfold forMe; rw [hc]; cases dget (clearVerifiedClaims st) "aud" <;> rfl
        rw [h3]
        exact permits_map (fun s => (true, s)) (ifPresent_milder hC h _ _ _ _ _) _ ha

/-- **C154**, end session requests -/
theorem C154_end_session {C : Crypto} (hC : KeysIgnoreMild C) {kw kw' : Dict} (h : Milder kw kw') (now : Int) (st : Dict) (jar : JarArg C) :
    Permits (endSessionVerify C now st jar kw) (endSessionVerify C now st jar kw') := by
  unfold endSessionVerify
  refine permits_bind (permits_rfl _) fun _ => ?_
  unfold endSessionRest
  split
  · refine permits_map _ ?_
    unfold hintVerify
    refine permits_bind (permits_rfl _) fun t => ?_
    rw [fromJwt_milder hC h]
    exact permits_bind (permits_rfl _) fun m => permits_bind (C154_verify_id_token hC h _ _ _ _ _) fun _ => permits_rfl _
  · exact permits_rfl _

/-- **C154**, back-channel logout requests -/
theorem C154_back_channel {C : Crypto} (hC : KeysIgnoreMild C) {kw kw' : Dict} (h : Milder kw kw') (now : Int) (st : Dict) (jar : JarArg C) :
    Permits (backChannelVerify C now st jar kw) (backChannelVerify C now st jar kw') := by
  unfold backChannelVerify
  refine permits_bind (permits_rfl _) fun _ => permits_bind (permits_rfl _) fun t => ?_
  rw [fromJwt_milder hC h]
  exact permits_bind (permits_rfl _) fun m => permits_bind (C154_logout_token h _ _ _) fun _ => permits_rfl _

/-! ### where it fails -/


/-- **C154, counterexample.**  A token which is valid from now on is accepted without a skew, and refused with any. -/
theorem C154_counterexample_nbf (now skew : Int) (hs : 0 < skew) :
    Milder [] [("skew", .int skew)] ∧ jsonWebTokenVerify now oidc_JsonWebToken [("nbf", .int now)] [] = .ok () ∧
    jsonWebTokenVerify now oidc_JsonWebToken [("nbf", .int now)] [("skew", .int skew)] ≠ .ok () := by
  refine ⟨⟨?_, .inr ⟨0, skew, .inl ⟨rfl, rfl⟩, .inr ⟨.int skew, rfl, rfl⟩, ?_⟩, .inl rfl, .inl rfl, .inl rfl, ?_⟩, C29_nbf_counterexample now skew hs⟩
  · intro n hn
    left
    simp only [List.mem_cons, List.not_mem_nil, or_false] at hn
    rcases hn with rfl | rfl | rfl | rfl | rfl <;> rfl
  · exact_mod_cast Int.le_of_lt hs
  · intro n hn
    have : "skew" ≠ n := by rintro rfl; exact hn (by decide)
    simp [dget, this]

/-- the toy key jar looks at no argument, and a client that does not tell who it is asks for less -/
example : KeysIgnoreMild toy ∧
    Milder [("client_id", .str "c"), ("iss", .str "https://op")] [("iss", .str "https://op"), ("allow_sign_alg_none", .bool true)] := by
  refine ⟨fun _ _ _ _ _ => rfl, ?_, .inl rfl, .inl rfl, .inr rfl, .inl rfl, ?_⟩
  · intro n hn
    simp only [List.mem_cons, List.not_mem_nil, or_false] at hn
    rcases hn with rfl | rfl | rfl | rfl | rfl
    · exact .inl rfl
    · exact .inr rfl
    · exact .inl rfl
    · exact .inl rfl
    · exact .inl rfl
  · intro n hn
    have h1 : "client_id" ≠ n := by rintro rfl; exact hn (by decide)
    have h2 : "iss" ≠ n := by rintro rfl; exact hn (by decide)
    have h3 : "allow_sign_alg_none" ≠ n := by rintro rfl; exact hn (by decide)
    simp [dget, h1, h2, h3]

end Verif
