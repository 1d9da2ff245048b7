import Verif.Props.Requests

/-!
# C162: the clock decides about expiry and about nothing else
-/

namespace Verif

/-- The outcome at a later moment: the same, or that it is too late. -/
def TooLateAtMost (x y : Res α) : Prop := y = x ∨ y = .error .expError ∨ y = .error .iatError

theorem tooLate_rfl (x : Res α) : TooLateAtMost x x := .inl rfl

theorem tooLate_bind {x y : Res α} {f g : α → Res β} (h : TooLateAtMost x y) (hf : ∀ a, TooLateAtMost (f a) (g a)) :
    TooLateAtMost (x >>= f) (y >>= g) := by
  rcases h with rfl | rfl | rfl
  · cases y with
    | error e => exact .inl rfl
    | ok a => exact hf a
  · exact .inr (.inl rfl)
  · exact .inr (.inr rfl)

theorem tooLate_map {x y : Res α} (f : α → β) (h : TooLateAtMost x y) : TooLateAtMost (x.map f) (y.map f) := by
  rcases h with rfl | rfl | rfl
  · exact .inl rfl
  · exact .inr (.inl rfl)
  · exact .inr (.inr rfl)

theorem need_tooLate {b c : Bool} (h : c = true → b = true) {e : Exc} (he : e = .expError ∨ e = .iatError) :
    TooLateAtMost (need b e) (need c e) := by
  cases c with
  | true => rw [h rfl]; exact .inl rfl
  | false =>
    rcases he with rfl | rfl
    · exact .inr (.inl rfl)
    · exact .inr (.inr rfl)

/-- **C162**, ID tokens: at a later moment the outcome is the same, or `EXPError`, or `IATError`. -/
theorem C162_id_token {now now' : Int} (hle : now ≤ now') (st kw : Dict) :
    TooLateAtMost (idTokenVerify now st kw) (idTokenVerify now' st kw) := by
  have hq : (now : Rat) ≤ now' := Rat.intCast_le_intCast.2 hle
  unfold idTokenVerify
  refine tooLate_bind (tooLate_rfl _) fun _ => tooLate_bind (tooLate_rfl _) fun _ => tooLate_bind (tooLate_rfl _) fun _ =>
    tooLate_bind (tooLate_rfl _) fun _ => tooLate_bind (tooLate_rfl _) fun skew => tooLate_bind ?_ fun _ =>
    tooLate_bind ?_ fun _ => tooLate_rfl _
  · unfold expCheck
    refine tooLate_bind (tooLate_rfl _) fun v => tooLate_bind (tooLate_rfl _) fun e => need_tooLate ?_ (.inl rfl)
    simp only [decide_eq_true_eq]
    intro h
    grind
  · unfold iatCheck
    refine tooLate_bind (tooLate_rfl _) fun v => tooLate_bind (tooLate_rfl _) fun e => tooLate_bind (tooLate_rfl _) fun s =>
      need_tooLate ?_ (.inr rfl)
    simp only [decide_eq_true_eq]
    intro h
    grind

/-- **C162**, `verify_id_token` -/
theorem C162_verify_id_token (C : Crypto) {now now' : Int} (hle : now ≤ now') (st : Dict) (claim : String) (b : Bool) (jar : JarArg C)
    (kw : Dict) : TooLateAtMost (verifyIdToken C now st claim b jar kw) (verifyIdToken C now' st claim b jar kw) := by
  unfold verifyIdToken verifyIdTokenCore
  refine tooLate_bind (tooLate_rfl _) fun v => tooLate_bind ?_ fun m => tooLate_rfl _
  exact tooLate_bind (tooLate_rfl _) fun j => tooLate_bind (tooLate_rfl _) fun alg => tooLate_bind (tooLate_rfl _) fun signed =>
    tooLate_bind (tooLate_rfl _) fun body => tooLate_bind (tooLate_rfl _) fun _ => tooLate_bind (tooLate_rfl _) fun m =>
    tooLate_bind (C162_id_token hle _ _) fun _ => tooLate_rfl _

theorem ifPresent_tooLate (C : Crypto) {now now' : Int} (hle : now ≤ now') (st : Dict) (claim : String) (b : Bool) (jar : JarArg C)
    (kw : Dict) : TooLateAtMost (verifyIfPresent C now st claim b jar kw) (verifyIfPresent C now' st claim b jar kw) := by
  unfold verifyIfPresent
  split
  · exact C162_verify_id_token C hle _ _ _ _ _
  · exact tooLate_rfl _

/-- **C162**, token responses: the result includes the message afterwards -/
theorem C162_token_response (C : Crypto) {now now' : Int} (hle : now ≤ now') (st : Dict) (jar : JarArg C) (kw : Dict) :
    TooLateAtMost (accessTokenResponseVerify C now st jar kw) (accessTokenResponseVerify C now' st jar kw) :=
  tooLate_bind (tooLate_rfl _) fun _ => ifPresent_tooLate C hle _ _ _ _ _

/-- **C162**, messages with an ID token -/
theorem C162_message (C : Crypto) {now now' : Int} (hle : now ≤ now') (sch : Schema) (st : Dict) (jar : JarArg C) (kw : Dict) :
    TooLateAtMost (messageWithIdTokenVerify C now sch st jar kw) (messageWithIdTokenVerify C now' sch st jar kw) :=
  tooLate_bind (tooLate_rfl _) fun _ => ifPresent_tooLate C hle _ _ _ _ _

/-- **C162**, authorization responses -/
theorem C162_authz_response (C : Crypto) {now now' : Int} (hle : now ≤ now') (st : Dict) (jar : JarArg C) (kw : Dict) :
    TooLateAtMost (authzResponseVerify C now st jar kw) (authzResponseVerify C now' st jar kw) := by
  unfold authzResponseVerify
  refine tooLate_bind (tooLate_rfl _) fun _ => tooLate_bind (tooLate_rfl _) fun mine => ?_
  unfold authzResponseRest
  split
  · exact tooLate_map _ (ifPresent_tooLate C hle _ _ _ _ _)
  · exact tooLate_rfl _

/-- **C162**, end session requests -/
theorem C162_end_session (C : Crypto) {now now' : Int} (hle : now ≤ now') (st : Dict) (jar : JarArg C) (kw : Dict) :
    TooLateAtMost (endSessionVerify C now st jar kw) (endSessionVerify C now' st jar kw) := by
  unfold endSessionVerify
  refine tooLate_bind (tooLate_rfl _) fun _ => ?_
  unfold endSessionRest
  split
  · refine tooLate_map _ ?_
    unfold hintVerify
    exact tooLate_bind (tooLate_rfl _) fun t => tooLate_bind (tooLate_rfl _) fun m =>
      tooLate_bind (C162_verify_id_token C hle _ _ _ _ _) fun _ => tooLate_rfl _
  · exact tooLate_rfl _

/-- The outcomes at two moments are the same, unless it is too early or too late at one of them (`EXPError` is the
exception of `JsonWebToken.verify` for both). -/
def TimelyAlike (x y : Res α) : Prop := y = x ∨ x = .error .expError ∨ y = .error .expError

theorem timely_bind {x y : Res α} {f g : α → Res β} (h : TimelyAlike x y) (hf : ∀ a, TimelyAlike (f a) (g a)) :
    TimelyAlike (x >>= f) (y >>= g) := by
  rcases h with rfl | rfl | rfl
  · cases y with
    | error e => exact .inl rfl
    | ok a => exact hf a
  · exact .inr (.inl rfl)
  · exact .inr (.inr rfl)

theorem timeCheck_timely (st kw : Dict) (k : String) (p q : Rat → Rat → Bool) :
    TimelyAlike (timeCheck st kw k p .expError) (timeCheck st kw k q .expError) := by
  unfold timeCheck
  split
  · exact .inl rfl
  · refine timely_bind (.inl rfl) fun skew => timely_bind (.inl rfl) fun x => ?_
    cases p skew x <;> cases q skew x
    · exact .inl rfl
    · exact .inr (.inl rfl)
    · exact .inr (.inr rfl)
    · exact .inl rfl

/-- **C162**, tokens with `JsonWebToken.verify`, at any two moments -/
theorem C162_json_web_token (now now' : Int) (sch : Schema) (st kw : Dict) :
    TimelyAlike (jsonWebTokenVerify now sch st kw) (jsonWebTokenVerify now' sch st kw) := by
  unfold jsonWebTokenVerify
  exact timely_bind (.inl rfl) fun _ => timely_bind (timeCheck_timely ..) fun _ => timely_bind (timeCheck_timely ..) fun _ =>
    timely_bind (timeCheck_timely ..) fun _ => .inl rfl

/-- The outcome at an earlier moment: the same, or `ValueError`. -/
def TooEarlyAtMost (x y : Res α) : Prop := y = x ∨ y = .error .valueError

theorem tooEarly_bind {x y : Res α} {f g : α → Res β} (h : TooEarlyAtMost x y) (hf : ∀ a, TooEarlyAtMost (f a) (g a)) :
    TooEarlyAtMost (x >>= f) (y >>= g) := by
  rcases h with rfl | rfl
  · cases y with
    | error e => exact .inl rfl
    | ok a => exact hf a
  · exact .inr rfl

/-- **C162**, logout tokens (`_partial`: too early a token is refused with a `ValueError` like one with wrong events,
`C162_counterexample_logout`): at an earlier moment the outcome is the same, or `ValueError`. -/
theorem C162_logout_token_partial {now now' : Int} (hle : now' ≤ now) (st : Dict) (hdr : Option Dict) (kw : Dict) :
    TooEarlyAtMost (logoutTokenVerify now st hdr kw) (logoutTokenVerify now' st hdr kw) := by
  have hq : (now' : Rat) ≤ now := Rat.intCast_le_intCast.2 hle
  unfold logoutTokenVerify
  refine tooEarly_bind (.inl rfl) fun _ => tooEarly_bind (.inl rfl) fun _ => tooEarly_bind (.inl rfl) fun _ =>
    tooEarly_bind (.inl rfl) fun _ => tooEarly_bind (.inl rfl) fun _ => tooEarly_bind (.inl rfl) fun _ =>
    tooEarly_bind ?_ fun _ => .inl rfl
  unfold timeCheck
  split
  · exact .inl rfl
  · refine tooEarly_bind (.inl rfl) fun skew => tooEarly_bind (.inl rfl) fun x => ?_
    by_cases h : x ≤ (now' : Rat) + skew
    · have h' : x ≤ (now : Rat) + skew := by grind
      simp only [h, h']
      exact .inl rfl
    · simp only [h]
      exact .inr rfl

/-- **C162**, back-channel logout requests -/
theorem C162_back_channel_partial (C : Crypto) {now now' : Int} (hle : now' ≤ now) (st : Dict) (jar : JarArg C) (kw : Dict) :
    TooEarlyAtMost (backChannelVerify C now st jar kw) (backChannelVerify C now' st jar kw) := by
  unfold backChannelVerify
  exact tooEarly_bind (.inl rfl) fun _ => tooEarly_bind (.inl rfl) fun t => tooEarly_bind (.inl rfl) fun m =>
    tooEarly_bind (C162_logout_token_partial hle _ _ _) fun _ => .inl rfl

/-- What a logout token says. -/
def clockLogout (event : String) : Dict :=
  [("iss", .str "https://op"), ("aud", .list [.str "c"]), ("iat", .int 1000), ("jti", .str "j"), ("sub", .str "s"),
   ("events", .dict [(event, .dict [])])]

/-- **C162** is false for logout tokens: the one that came early is refused with the exception of one that is wrong. -/
theorem C162_counterexample_logout :
    logoutTokenVerify 999 (clockLogout "http://schemas.openid.net/event/backchannel-logout") none [] = .error .valueError ∧
    logoutTokenVerify 1000 (clockLogout "http://schemas.openid.net/event/backchannel-logout") none [] = .ok () ∧
    ∀ now, logoutTokenVerify now (clockLogout "urn:other") none [] = .error .valueError := by
  refine ⟨by decide +kernel, by decide +kernel, fun now => ?_⟩
  have h1 : verifyBase session_LogoutToken (clockLogout "urn:other") = .ok () := by decide +kernel
  have h2 : need (!dhas (clockLogout "urn:other") "nonce") .messageException = .ok () := by decide +kernel
  have h3 : eventsCheck (clockLogout "urn:other") = .error .valueError := by decide +kernel
  simp only [logoutTokenVerify, h1, h2, h3, bind, Except.bind]

/-- What an ID token says. -/
def clockToken : Dict :=
  [("iss", .str "https://op"), ("sub", .str "s"), ("aud", .list [.str "c"]), ("exp", .int 2000), ("iat", .int 1000)]

/-- all three outcomes occur -/
example : idTokenVerify 1500 clockToken [] = .ok () ∧ idTokenVerify 2001 clockToken [] = .error .expError ∧
    idTokenVerify 1500 clockToken [("nonce_storage_time", .int 100)] = .error .iatError := by decide +kernel

end Verif
