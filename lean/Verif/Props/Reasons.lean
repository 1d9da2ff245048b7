import Verif.Props.IdTokens
import Verif.Props.Logout

/-!
# The exception tells why a token was refused: C170
-/

namespace Verif

theorem bind_err {α β : Type} {x : Res α} {f : α → Res β} {e : Exc} :
    (x >>= f) = .error e ↔ x = .error e ∨ ∃ a, x = .ok a ∧ f a = .error e := by
  cases x with
  | error e' => simp [bind, Except.bind]
  | ok a => simp [bind, Except.bind]

theorem need_err {b : Bool} {e e' : Exc} : need b e = .error e' ↔ b = false ∧ e' = e := by
  unfold need; cases b <;> simp [eq_comm]

theorem matchArg_err {st kw : Dict} {k : String} {e e' : Exc} :
    matchArg st kw k e = .error e' ↔
      e' = e ∧ ∃ a b, dget st k = some a ∧ dget kw k = some b ∧ a.eq b = false := by
  unfold matchArg
  cases dget st k <;> cases dget kw k <;> simp [need_err, and_comm]

theorem contains_err {x c : Val} {e : Exc} (h : x.contains c = .error e) : e = .typeError := by
  unfold Val.contains at h
  split at h
  · cases h
  · split at h <;> cases h; rfl
  · split at h
    · cases h
    · split at h <;> cases h; rfl
  · split at h
    · cases h
    · split at h <;> cases h; rfl
  · cases h; rfl

theorem numR_err {v : Val} {e : Exc} (h : numR v = .error e) : e = .typeError := by
  unfold numR at h; split at h <;> cases h; rfl

theorem numArg_err {kw : Dict} {k : String} {d : Rat} {e : Exc} (h : numArg kw k d = .error e) : e = .typeError := by
  unfold numArg at h
  split at h
  · exact numR_err h
  · cases h

theorem errorDescription_err {st : Dict} {e : Exc} (h : errorDescription st = .error e) : e = .valueError ∨ e = .typeError := by
  have hall : ∀ l e, allErrorChars l = .error e → e = .typeError := by
    intro l
    induction l with
    | nil => intro e h; cases h
    | cons x xs ih =>
      intro e h
      unfold allErrorChars at h
      have hx : ∀ e, inErrorChars x = .error e → e = .typeError := by
        intro e h
        unfold inErrorChars at h
        split at h
        · split at h <;> cases h
        · split at h <;> cases h; rfl
      split at h
      · exact ih e h
      · exact hx e h
  unfold errorDescription at h
  split at h
  · cases h
  · rename_i v _
    split at h
    · rename_i e' he
      cases h
      unfold Val.iter at he
      split at he <;> cases he
      exact .inr rfl
    · split at h
      · rename_i e' he
        cases h
        exact .inr (hall _ _ he)
      · exact .inl (need_err.1 h).2

/-- a parameter the class insists on is absent, or holds nothing that counts as given -/
def RequiredLacking (sch : Schema) (st : Dict) : Prop :=
  ∃ a sp, (a, sp) ∈ sch.params ∧ a ≠ "*" ∧ sp.required = true ∧ ∀ v, dget st a = some v → ¬ Given sp v

theorem verifyBase_err {sch : Schema} {st : Dict} {e : Exc} (h : verifyBase sch st = .error e) :
    (e = .missingRequiredAttribute ∧ RequiredLacking sch st) ∨ e = .notAllowedValue := by
  rcases C04_verify_errors sch st e h with ⟨h1, h2⟩ | ⟨h1, _⟩
  · exact .inl ⟨h1, h2⟩
  · exact .inr h1

/-- the two values are there and differ -/
def Differ (st kw : Dict) (k : String) : Prop :=
  ∃ a b, dget st k = some a ∧ dget kw k = some b ∧ a.eq b = false

/-- the caller's client is not among the audiences, or another client is the authorized one -/
def OtherClient (st kw : Dict) : Prop :=
  ∃ c, dget kw "client_id" = some c ∧ ((∃ aud, dget st "aud" = some aud ∧ c.contains aud = .ok false) ∨
    ∃ azp, dget st "azp" = some azp ∧ c.eq azp = false)

theorem openId_err {st : Dict} {e : Exc} (h : openIdSchemaVerify oidc_IdToken st = .error e) :
    (e = .missingRequiredAttribute ∧ RequiredLacking oidc_IdToken st) ∨
      e = .notAllowedValue ∨ e = .typeError ∨ (e = .valueError ∧ ¬ DescriptionOk st) ∨
      (e = .verificationError ∧ ¬ BirthdateOk st) := by
  unfold openIdSchemaVerify responseVerify at h
  simp only [bind_err] at h
  rcases h with (h | ⟨_, _, h⟩) | ⟨_, _, h | ⟨_, _, h⟩⟩
  · rcases verifyBase_err h with h | rfl
    · exact .inl h
    · exact .inr (.inl rfl)
  · rcases errorDescription_err h with rfl | rfl
    · refine .inr (.inr (.inr (.inl ⟨rfl, fun hd => ?_⟩)))
      rw [(errorDescription_iff st).2 hd] at h; cases h
    · exact .inr (.inr (.inl rfl))
  · have hb : ¬ BirthdateOk st := fun hb => by rw [(birthdateCheck_iff st).2 hb] at h; cases h
    unfold birthdateCheck at h
    split at h
    · cases h
    · rw [(need_err.1 h).2]; exact .inr (.inr (.inr (.inr ⟨rfl, hb⟩)))
    · cases h; exact .inr (.inr (.inl rfl))
  · cases h

theorem audCheck_err {st kw : Dict} {e : Exc} (h : audCheck st kw = .error e) :
    (e = .notForMe ∧ OtherClient st kw) ∨ e = .typeError ∨ e = .verificationError := by
  unfold audCheck at h
  split at h
  · cases h
  · rename_i aud ha
    rw [bind_err] at h
    rcases h with h | ⟨_, _, h⟩
    · unfold clientInAud at h
      split at h
      · cases h
      · rename_i c hc
        split at h
        · rename_i b hb
          obtain ⟨rfl, rfl⟩ := need_err.1 h
          exact .inl ⟨rfl, c, hc, .inl ⟨aud, ha, hb⟩⟩
        · rename_i e' he
          cases h; exact .inr (.inl (contains_err he))
    · unfold severalAud at h
      split at h
      · rename_i e' he
        cases h
        unfold Val.len at he
        split at he <;> cases he
        exact .inr (.inl rfl)
      · split at h
        · split at h
          · cases h; exact .inr (.inr rfl)
          · split at h
            · exact .inr (.inr (need_err.1 h).2)
            · rename_i e' he
              cases h; exact .inr (.inl (contains_err he))
        · cases h

theorem azpCheck_err {st kw : Dict} {e : Exc} (h : azpCheck st kw = .error e) : e = .notForMe ∧ OtherClient st kw := by
  unfold azpCheck at h
  split at h
  · rename_i azp c ha hc
    obtain ⟨hb, rfl⟩ := need_err.1 h
    exact ⟨rfl, c, hc, .inr ⟨azp, ha, hb⟩⟩
  · cases h

theorem numR_iff {v : Val} {q : Rat} : numR v = .ok q ↔ v.num? = some q := numR_ok

theorem numArg_of_ok {kw : Dict} {k : String} {d q : Rat} (h : numArg kw k d = .ok q) : NumArg kw k d q := by
  unfold numArg at h
  split at h
  · rename_i v hv; exact .inr ⟨v, hv, numR_ok.1 h⟩
  · rename_i hv; cases h; exact .inl ⟨hv, rfl⟩

/-- every way an ID token can be refused, with the exception and what was found before -/
theorem idToken_err {now : Int} {st kw : Dict} {e : Exc} (h : idTokenVerify now st kw = .error e) :
    (e = .missingRequiredAttribute ∧ RequiredLacking oidc_IdToken st) ∨
    (e = .issuerMismatch ∧ Differ st kw "iss") ∨
    (e = .notForMe ∧ OtherClient st kw ∧ SameIfBoth st kw "iss") ∨
    (e = .expError ∧ (∃ skew x, NumArg kw "skew" 0 skew ∧ NumAt st "exp" x ∧ x < (now : Rat) - skew) ∧
      SameIfBoth st kw "iss" ∧ AudienceOk st kw ∧
      (∀ azp c, dget st "azp" = some azp → dget kw "client_id" = some c → c.eq azp = true)) ∨
    (e = .iatError ∧ (∃ skew x s, NumArg kw "skew" 0 skew ∧ NumAt st "iat" x ∧ NumArg kw "nonce_storage_time" 14400 s ∧
        x + s < (now : Rat) - skew) ∧
      SameIfBoth st kw "iss" ∧ AudienceOk st kw ∧
      (∀ azp c, dget st "azp" = some azp → dget kw "client_id" = some c → c.eq azp = true)) ∨
    (e = .valueError ∧ (¬ DescriptionOk st ∨ Differ st kw "nonce")) ∨
    (e = .verificationError ∧ (¬ BirthdateOk st ∨ ¬ AudienceOk st kw)) ∨
    e = .notAllowedValue ∨ e = .typeError := by
  have req : ∀ k sp, (k, sp) ∈ oidc_IdToken.params → k ≠ "*" → sp.required = true → dget st k = none →
      RequiredLacking oidc_IdToken st :=
    fun k sp h1 h2 h3 h4 => ⟨k, sp, h1, h2, h3, fun v hv => by rw [h4] at hv; cases hv⟩
  unfold idTokenVerify at h
  simp only [bind_err] at h
  rcases h with h | ⟨_, _, h | ⟨_, hiss, h | ⟨_, haud, h | ⟨_, hazp, h | ⟨skew, hskew, h | ⟨_, _, h | ⟨_, _, h⟩⟩⟩⟩⟩⟩⟩
  · rcases openId_err h with h | h
    · exact .inl h
    · rcases h with rfl | rfl | ⟨rfl, h'⟩ | ⟨rfl, h'⟩
      · exact .inr (.inr (.inr (.inr (.inr (.inr (.inr (.inl rfl)))))))
      · exact .inr (.inr (.inr (.inr (.inr (.inr (.inr (.inr rfl)))))))
      · exact .inr (.inr (.inr (.inr (.inr (.inl ⟨rfl, .inl h'⟩)))))
      · exact .inr (.inr (.inr (.inr (.inr (.inr (.inl ⟨rfl, .inl h'⟩))))))
  · exact .inr (.inl (matchArg_err.1 h))
  · rcases audCheck_err h with ⟨rfl, h'⟩ | rfl | rfl
    · exact .inr (.inr (.inl ⟨rfl, h', (matchArg_iff _ _ _ _).1 hiss⟩))
    · exact .inr (.inr (.inr (.inr (.inr (.inr (.inr (.inr rfl)))))))
    · refine .inr (.inr (.inr (.inr (.inr (.inr (.inl ⟨rfl, .inr fun ha => ?_⟩))))))
      rw [(audCheck_iff st kw).2 ha] at h; cases h
  · obtain ⟨rfl, h'⟩ := azpCheck_err h
    exact .inr (.inr (.inl ⟨rfl, h', (matchArg_iff _ _ _ _).1 hiss⟩))
  · rw [numArg_err h]; exact .inr (.inr (.inr (.inr (.inr (.inr (.inr (.inr rfl)))))))
  · unfold expCheck getReq at h
    simp only [bind_err] at h
    rcases h with h | ⟨v, hv, h | ⟨q, hq, h⟩⟩
    · split at h
      · cases h
      · rename_i hn
        cases h
        exact .inl ⟨rfl, req "exp" singleRequiredInt (by simp [oidc_IdToken]) (by decide) rfl hn⟩
    · rw [numR_err h]; exact .inr (.inr (.inr (.inr (.inr (.inr (.inr (.inr rfl)))))))
    · split at hv
      · rename_i v' hv'
        cases hv
        obtain ⟨hb, rfl⟩ := need_err.1 h
        simp only [decide_eq_false_iff_not, Rat.not_le] at hb
        exact .inr (.inr (.inr (.inl ⟨rfl, ⟨skew, q, numArg_of_ok hskew, ⟨v, hv', numR_ok.1 hq⟩, hb⟩,
          (matchArg_iff _ _ _ _).1 hiss, (audCheck_iff _ _).1 haud, (azpCheck_iff _ _).1 hazp⟩)))
      · cases hv
  · unfold iatCheck getReq at h
    simp only [bind_err] at h
    rcases h with h | ⟨v, hv, h | ⟨q, hq, h | ⟨s, hs, h⟩⟩⟩
    · split at h
      · cases h
      · rename_i hn
        cases h
        exact .inl ⟨rfl, req "iat" singleRequiredInt (by simp [oidc_IdToken]) (by decide) rfl hn⟩
    · rw [numR_err h]; exact .inr (.inr (.inr (.inr (.inr (.inr (.inr (.inr rfl)))))))
    · rw [numArg_err h]; exact .inr (.inr (.inr (.inr (.inr (.inr (.inr (.inr rfl)))))))
    · split at hv
      · rename_i v' hv'
        cases hv
        obtain ⟨hb, rfl⟩ := need_err.1 h
        simp only [decide_eq_false_iff_not, Rat.not_le] at hb
        exact .inr (.inr (.inr (.inr (.inl ⟨rfl, ⟨skew, q, s, numArg_of_ok hskew, ⟨v, hv', numR_ok.1 hq⟩, numArg_of_ok hs, hb⟩,
          (matchArg_iff _ _ _ _).1 hiss, (audCheck_iff _ _).1 haud, (azpCheck_iff _ _).1 hazp⟩))))
      · cases hv
  · obtain ⟨rfl, h'⟩ := matchArg_err.1 h
    exact .inr (.inr (.inr (.inr (.inr (.inl ⟨rfl, .inr h'⟩)))))

/-- **C170, ID tokens.**  What the exception says about a refused token holds of it: its issuer is another one than the
expected; it is for another client; it has expired; it was issued too long ago; a required claim is missing; nonce or
error description are wrong; birthdate or the list of audiences are wrong.  Moreover a token is only called expired
or too old after its issuer and audience were found right, and only called somebody else's after its issuer was. -/
theorem C170_id_token (now : Int) (st kw : Dict) :
    (idTokenVerify now st kw = .error .issuerMismatch → Differ st kw "iss") ∧
    (idTokenVerify now st kw = .error .notForMe → OtherClient st kw ∧ SameIfBoth st kw "iss") ∧
    (idTokenVerify now st kw = .error .expError →
      (∃ skew x, NumArg kw "skew" 0 skew ∧ NumAt st "exp" x ∧ x < (now : Rat) - skew) ∧
      SameIfBoth st kw "iss" ∧ AudienceOk st kw ∧
      (∀ azp c, dget st "azp" = some azp → dget kw "client_id" = some c → c.eq azp = true)) ∧
    (idTokenVerify now st kw = .error .iatError →
      (∃ skew x s, NumArg kw "skew" 0 skew ∧ NumAt st "iat" x ∧ NumArg kw "nonce_storage_time" 14400 s ∧
        x + s < (now : Rat) - skew) ∧
      SameIfBoth st kw "iss" ∧ AudienceOk st kw ∧
      (∀ azp c, dget st "azp" = some azp → dget kw "client_id" = some c → c.eq azp = true)) ∧
    (idTokenVerify now st kw = .error .missingRequiredAttribute → RequiredLacking oidc_IdToken st) ∧
    (idTokenVerify now st kw = .error .valueError → ¬ DescriptionOk st ∨ Differ st kw "nonce") ∧
    (idTokenVerify now st kw = .error .verificationError → ¬ BirthdateOk st ∨ ¬ AudienceOk st kw) := by
  refine ⟨fun h => ?_, fun h => ?_, fun h => ?_, fun h => ?_, fun h => ?_, fun h => ?_, fun h => ?_⟩ <;>
    have := idToken_err h <;> simpa using this

/-- **C170, the other direction.**  A token that is right otherwise is refused with the exception for what is wrong with it: first
the issuer, then the client, then the expiry, then the age. -/
theorem C170_named (now : Int) (st kw : Dict) (h1 : Acceptable oidc_IdToken st) (h2 : DescriptionOk st)
    (h3 : BirthdateOk st) :
    (Differ st kw "iss" → idTokenVerify now st kw = .error .issuerMismatch) ∧
    (SameIfBoth st kw "iss" → ∀ c aud, dget kw "client_id" = some c → dget st "aud" = some aud →
      c.contains aud = .ok false → idTokenVerify now st kw = .error .notForMe) ∧
    (SameIfBoth st kw "iss" → AudienceOk st kw →
      (∀ azp c, dget st "azp" = some azp → dget kw "client_id" = some c → c.eq azp = true) →
      ∀ skew x, NumArg kw "skew" 0 skew → NumAt st "exp" x →
        (x < (now : Rat) - skew → idTokenVerify now st kw = .error .expError) ∧
        ((now : Rat) - skew ≤ x → ∀ i s, NumAt st "iat" i → NumArg kw "nonce_storage_time" 14400 s →
          i + s < (now : Rat) - skew → idTokenVerify now st kw = .error .iatError)) := by
  have hs : openIdSchemaVerify oidc_IdToken st = .ok (!(st.any (fun p => p.2.isNone))) := by
    unfold openIdSchemaVerify
    simp only [bind_ok, ok_ok]
    exact ⟨(), (C36_iff _ _).2 ⟨h1, h2⟩, (), (birthdateCheck_iff _).2 h3, trivial⟩
  have num : ∀ {d : Dict} {k : String} {q : Rat}, NumAt d k q → ∃ v, dget d k = some v ∧ numR v = .ok q := by
    rintro d k q ⟨v, a, b⟩; exact ⟨v, a, numR_ok.2 b⟩
  refine ⟨fun hd => ?_, fun hi c aud hc ha hn => ?_, fun hi ha hz skew x hk hx => ⟨fun hlt => ?_, fun hle i s hi' hs' hlt => ?_⟩⟩
  · unfold idTokenVerify
    simp only [bind_err]
    exact .inr ⟨_, hs, .inl (matchArg_err.2 ⟨rfl, hd⟩)⟩
  · unfold idTokenVerify
    simp only [bind_err]
    refine .inr ⟨_, hs, .inr ⟨(), (matchArg_iff _ _ _ _).2 hi, .inl ?_⟩⟩
    unfold audCheck clientInAud
    rw [ha, hc, bind_err]
    left
    simp only [hn]
    rfl
  · obtain ⟨v, hv, hq⟩ := num hx
    unfold idTokenVerify
    simp only [bind_err]
    refine .inr ⟨_, hs, .inr ⟨(), (matchArg_iff _ _ _ _).2 hi, .inr ⟨(), (audCheck_iff _ _).2 ha, .inr ⟨(),
      (azpCheck_iff _ _).2 hz, .inr ⟨skew, numArg_ok.2 hk, .inl ?_⟩⟩⟩⟩⟩
    unfold expCheck getReq
    simp only [bind_err, hv]
    exact .inr ⟨v, rfl, .inr ⟨x, hq, need_err.2 ⟨by simpa using Rat.not_le.2 hlt, rfl⟩⟩⟩
  · obtain ⟨v, hv, hq⟩ := num hi'
    unfold idTokenVerify
    simp only [bind_err]
    refine .inr ⟨_, hs, .inr ⟨(), (matchArg_iff _ _ _ _).2 hi, .inr ⟨(), (audCheck_iff _ _).2 ha, .inr ⟨(),
      (azpCheck_iff _ _).2 hz, .inr ⟨skew, numArg_ok.2 hk, .inr ⟨(), (expCheck_iff _ _ _).2 ⟨x, hx, hle⟩, .inl ?_⟩⟩⟩⟩⟩⟩
    unfold iatCheck getReq
    simp only [bind_err, hv]
    exact .inr ⟨v, rfl, .inr ⟨i, hq, .inr ⟨s, numArg_ok.2 hs', need_err.2 ⟨by simpa using Rat.not_le.2 hlt, rfl⟩⟩⟩⟩

/-! ## JSON Web Tokens and logout tokens -/

theorem timeCheck_err {st kw : Dict} {k : String} {ok : Rat → Rat → Bool} {e e' : Exc}
    (h : timeCheck st kw k ok e = .error e') :
    e' = .typeError ∨ e' = e ∧ ∃ skew x, NumArg kw "skew" 0 skew ∧ NumAt st k x ∧ ok skew x = false := by
  unfold timeCheck at h
  split at h
  · cases h
  · rename_i v hv
    simp only [bind_err] at h
    rcases h with h | ⟨skew, hs, h | ⟨x, hx, h⟩⟩
    · exact .inl (numArg_err h)
    · exact .inl (numR_err h)
    · obtain ⟨hb, rfl⟩ := need_err.1 h
      exact .inr ⟨rfl, skew, x, numArg_of_ok hs, ⟨v, hv, numR_ok.1 hx⟩, hb⟩

/-- the expected audience is not among those of the token -/
def OtherAudience (st kw : Dict) : Prop :=
  ∃ a aud, dget kw "aud" = some a ∧ dget st "aud" = some aud ∧ a.contains aud = .ok false

theorem audArg_err {st kw : Dict} {e : Exc} (h : audArg st kw = .error e) :
    e = .typeError ∨ e = .notForMe ∧ OtherAudience st kw := by
  unfold audArg at h
  split at h
  · rename_i aud a h1 h2
    split at h
    · rename_i b hb
      obtain ⟨rfl, rfl⟩ := need_err.1 h
      exact .inr ⟨rfl, a, aud, h2, h1, hb⟩
    · rename_i e' he
      cases h; exact .inl (contains_err he)
  · cases h

/-- **C170, JSON Web Tokens.**  `EXPError` means that the token has expired, or was issued in the future, or is not valid yet;
`NotForMe` that it is for another audience; `ValueError` that it is from another issuer. -/
theorem C170_json_web_token (now : Int) (sch : Schema) (st kw : Dict) :
    (jsonWebTokenVerify now sch st kw = .error .expError → ∃ skew x, NumArg kw "skew" 0 skew ∧
      ((NumAt st "exp" x ∧ x < (now : Rat) - skew) ∨ (NumAt st "iat" x ∧ (now : Rat) + skew < x) ∨
        (NumAt st "nbf" x ∧ (now : Rat) - skew < x))) ∧
    (jsonWebTokenVerify now sch st kw = .error .notForMe → OtherAudience st kw) ∧
    (jsonWebTokenVerify now sch st kw = .error .valueError → Differ st kw "iss") ∧
    (jsonWebTokenVerify now sch st kw = .error .missingRequiredAttribute → RequiredLacking sch st) := by
  have key : ∀ e, jsonWebTokenVerify now sch st kw = .error e →
      (e = .missingRequiredAttribute ∧ RequiredLacking sch st) ∨ e = .notAllowedValue ∨ e = .typeError ∨
      (e = .expError ∧ ∃ skew x, NumArg kw "skew" 0 skew ∧
        ((NumAt st "exp" x ∧ x < (now : Rat) - skew) ∨ (NumAt st "iat" x ∧ (now : Rat) + skew < x) ∨
          (NumAt st "nbf" x ∧ (now : Rat) - skew < x))) ∨
      (e = .notForMe ∧ OtherAudience st kw) ∨ (e = .valueError ∧ Differ st kw "iss") := by
    intro e h
    unfold jsonWebTokenVerify at h
    simp only [bind_err] at h
    rcases h with h | ⟨_, _, h | ⟨_, _, h | ⟨_, _, h | ⟨_, _, h | ⟨_, _, h⟩⟩⟩⟩⟩
    · rcases verifyBase_err h with h | h
      · exact .inl h
      · exact .inr (.inl h)
    · rcases timeCheck_err h with h | ⟨he, skew, x, a, b, c⟩
      · exact .inr (.inr (.inl h))
      · simp only [decide_eq_false_iff_not, Rat.not_le] at c
        exact .inr (.inr (.inr (.inl ⟨he, skew, x, a, .inl ⟨b, c⟩⟩)))
    · rcases timeCheck_err h with h | ⟨he, skew, x, a, b, c⟩
      · exact .inr (.inr (.inl h))
      · simp only [decide_eq_false_iff_not, Rat.not_le] at c
        exact .inr (.inr (.inr (.inl ⟨he, skew, x, a, .inr (.inl ⟨b, c⟩)⟩)))
    · rcases timeCheck_err h with h | ⟨he, skew, x, a, b, c⟩
      · exact .inr (.inr (.inl h))
      · simp only [decide_eq_false_iff_not, Rat.not_le] at c
        exact .inr (.inr (.inr (.inl ⟨he, skew, x, a, .inr (.inr ⟨b, c⟩)⟩)))
    · rcases audArg_err h with h | h
      · exact .inr (.inr (.inl h))
      · exact .inr (.inr (.inr (.inr (.inl h))))
    · exact .inr (.inr (.inr (.inr (.inr (matchArg_err.1 h)))))
  refine ⟨fun h => ?_, fun h => ?_, fun h => ?_, fun h => ?_⟩ <;> have := key _ h <;> simpa using this

/-- C170 is false of JSON Web Tokens: one that is not valid yet is called expired, though it has not expired. -/
theorem C170_counterexample_not_yet :
    jsonWebTokenVerify 100 oidc_JsonWebToken [("exp", .int 1000), ("nbf", .int 200)] [] = .error .expError ∧
    jsonWebTokenVerify 300 oidc_JsonWebToken [("exp", .int 1000), ("nbf", .int 200)] [] = .ok () := by decide +kernel

theorem eventsCheck_err {st : Dict} {e : Exc} (h : eventsCheck st = .error e) :
    e = .valueError ∨ e = .attributeError ∨ e = .keyError := by
  unfold eventsCheck at h
  split at h
  · simp only [bind_err] at h
    rcases h with h | ⟨_, _, h⟩ <;> exact .inl (need_err.1 h).2
  · cases h; exact .inl rfl
  · simp only [bind_err] at h
    rcases h with h | ⟨_, _, h⟩ <;> exact .inl (need_err.1 h).2
  · cases h; exact .inl rfl
  · cases h; exact .inr (.inl rfl)
  · cases h; exact .inr (.inr rfl)

/-- **C170, logout tokens.**  `NotForMe` means another audience or another issuer; `UnsupportedAlgorithm` that the token was
signed with another algorithm than the expected one; `MessageException` that it has a nonce; `ValueError` that it
is no logout event, names neither subject nor session, or was issued in the future. -/
theorem C170_logout_token (now : Int) (st : Dict) (hdr : Option Dict) (kw : Dict) :
    (logoutTokenVerify now st hdr kw = .error .notForMe → OtherAudience st kw ∨ Differ st kw "iss") ∧
    (logoutTokenVerify now st hdr kw = .error .unsupportedAlgorithm →
      ∃ a h alg, dget kw "allowed_sign_alg" = some a ∧ hdr = some h ∧ dget h "alg" = some alg ∧ alg.eq a = false) ∧
    (logoutTokenVerify now st hdr kw = .error .messageException → dget st "nonce" ≠ none) ∧
    (logoutTokenVerify now st hdr kw = .error .valueError → ¬ EventsOk st ∨
      (dget st "sub" = none ∧ dget st "sid" = none) ∨
      ∃ skew x, NumArg kw "skew" 0 skew ∧ NumAt st "iat" x ∧ (now : Rat) + skew < x) := by
  have key : ∀ e, logoutTokenVerify now st hdr kw = .error e →
      e = .missingRequiredAttribute ∨ e = .notAllowedValue ∨ e = .typeError ∨ e = .attributeError ∨ e = .keyError ∨
      (e = .messageException ∧ dget st "nonce" ≠ none) ∨
      (e = .valueError ∧ (¬ EventsOk st ∨ (dget st "sub" = none ∧ dget st "sid" = none) ∨
        ∃ skew x, NumArg kw "skew" 0 skew ∧ NumAt st "iat" x ∧ (now : Rat) + skew < x)) ∨
      (e = .notForMe ∧ (OtherAudience st kw ∨ Differ st kw "iss")) ∨
      (e = .unsupportedAlgorithm ∧ ∃ a h alg, dget kw "allowed_sign_alg" = some a ∧ hdr = some h ∧
        dget h "alg" = some alg ∧ alg.eq a = false) := by
    intro e h
    unfold logoutTokenVerify at h
    simp only [bind_err] at h
    rcases h with h | ⟨_, _, h | ⟨_, _, h | ⟨_, _, h | ⟨_, _, h | ⟨_, _, h | ⟨_, _, h | ⟨_, _, h⟩⟩⟩⟩⟩⟩⟩
    · rcases verifyBase_err h with ⟨h, _⟩ | h
      · exact .inl h
      · exact .inr (.inl h)
    · obtain ⟨hb, rfl⟩ := need_err.1 h
      refine .inr (.inr (.inr (.inr (.inr (.inl ⟨rfl, fun hn => ?_⟩)))))
      simp [dhas, hn] at hb
    · rcases eventsCheck_err h with rfl | rfl | rfl
      · refine .inr (.inr (.inr (.inr (.inr (.inr (.inl ⟨rfl, .inl fun he => ?_⟩))))))
        rw [(eventsCheck_iff st).2 he] at h; cases h
      · exact .inr (.inr (.inr (.inl rfl)))
      · exact .inr (.inr (.inr (.inr (.inl rfl))))
    · obtain ⟨hb, rfl⟩ := need_err.1 h
      refine .inr (.inr (.inr (.inr (.inr (.inr (.inl ⟨rfl, .inr (.inl ?_)⟩))))))
      simpa [dhas] using hb
    · rcases audArg_err h with h | ⟨h, h'⟩
      · exact .inr (.inr (.inl h))
      · exact .inr (.inr (.inr (.inr (.inr (.inr (.inr (.inl ⟨h, .inl h'⟩)))))))
    · obtain ⟨h, h'⟩ := matchArg_err.1 h
      exact .inr (.inr (.inr (.inr (.inr (.inr (.inr (.inl ⟨h, .inr h'⟩)))))))
    · rcases timeCheck_err h with h | ⟨he, skew, x, a, b, c⟩
      · exact .inr (.inr (.inl h))
      · simp only [decide_eq_false_iff_not, Rat.not_le] at c
        exact .inr (.inr (.inr (.inr (.inr (.inr (.inl ⟨he, .inr (.inr ⟨skew, x, a, b, c⟩)⟩))))))
    · unfold logoutAlg at h
      split at h
      · cases h
      · rename_i a ha
        split at h
        · split at h
          · cases h; exact .inr (.inr (.inl rfl))
          · rename_i hd
            split at h
            · cases h; exact .inr (.inr (.inr (.inr (.inl rfl))))
            · rename_i alg halg
              obtain ⟨hb, rfl⟩ := need_err.1 h
              exact .inr (.inr (.inr (.inr (.inr (.inr (.inr (.inr ⟨rfl, a, hd, alg, ha, rfl, halg, hb⟩)))))))
        · cases h
  refine ⟨fun h => ?_, fun h => ?_, fun h => ?_, fun h => ?_⟩ <;> have := key _ h <;> simpa using this

/-- C170 is false across the classes: for the same wrong issuer the three kinds of token are refused with three different
exceptions. -/
theorem C170_counterexample_issuer (now : Int) :
    idTokenVerify 100 toyClaims [("iss", .str "https://other")] = .error .issuerMismatch ∧
    jsonWebTokenVerify now oidc_JsonWebToken [("iss", .str "https://op")] [("iss", .str "https://other")] = .error .valueError ∧
    logoutTokenVerify 100 toyLogout none [("iss", .str "https://other")] = .error .notForMe :=
  ⟨by decide +kernel, rfl, by decide +kernel⟩

/-- the exceptions occur, and the hypotheses of `C170_named` are met -/
example : idTokenVerify 10000 toyClaims [("client_id", .str "nobody")] = .error .notForMe ∧
    idTokenVerify 1000000 toyClaims [] = .error .expError ∧
    Acceptable oidc_IdToken toyClaims ∧ DescriptionOk toyClaims ∧ BirthdateOk toyClaims := by
  refine ⟨by decide +kernel, by decide +kernel, (C04_verify_iff _ _).1 (by decide +kernel), ?_, ?_⟩
  · rw [← errorDescription_iff]; decide +kernel
  · rw [← birthdateCheck_iff]; decide +kernel

end Verif
