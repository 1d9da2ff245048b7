import Verif.Props.RefusedTokens

/-!
# C133 for the messages of a logout: end session and back-channel requests
-/

namespace Verif

/-- a text is what comes out of decrypting `t`, or `t` itself -/
def Opened (C : Crypto) (t t' : String) : Prop := t' = t ∨ ∃ a w ks, C.jwe t a = .ok (some w) ∧ C.decrypt w t ks = .ok t'

/-- the claims of whatever is inside the text are an object: of a token, or, when it is no token, of a JSON document -/
def ObjectInside (C : Crypto) (t : String) : Prop :=
  ∀ t', Opened C t t' → ObjectToken C t' ∧ ∀ v, loads t' = .ok v → ∃ d, v = .dict d

/-- the same, of plain data, without a word about the members -/
def PlainInside (C : Crypto) (t : String) : Prop :=
  ∀ t', Opened C t t' → (∀ a j v, C.jws (.str t') a = .ok (some j) → j.payload = .ok v → ∃ d, v = .dict d ∧ noMsgDict d = true) ∧
    ∀ v, loads t' = .ok v → ∃ d, v = .dict d

theorem ObjectInside.plain {C : Crypto} {t : String} (h : ObjectInside C t) : PlainInside C t := fun t' ht =>
  ⟨fun a j v hj hp => by obtain ⟨d, h1, h2, -⟩ := (h t' ht).1 a j v hj hp; exact ⟨d, h1, h2⟩, (h t' ht).2⟩

section
variable {C : Crypto} (hC : Polite C)
include hC

theorem decryptStep_tolerable (t : String) (kj : C.KeyJar) (kw : Dict) : Tolerable (decryptStep C t (some kj) kw) := by
  unfold decryptStep
  split
  · rename_i he; exact (hC.jwe _ _).tolerable.same he
  · exact tolerable_ok _
  · simp only
    split
    · rename_i he; exact (hC.decryptKeys _).tolerable.same he
    · exact (hC.decrypt _ _ _).tolerable

omit hC in
theorem decryptStep_opened {t t' : String} {jar : Option C.KeyJar} {kw : Dict} (h : decryptStep C t jar kw = .ok t') : Opened C t t' := by
  unfold decryptStep at h
  split at h
  · cases h
  · cases h; exact .inl rfl
  · rename_i w hw
    split at h
    · cases h
    · split at h
      · cases h
      · exact .inr ⟨_, _, _, hw, h⟩

theorem openStep_tolerable (t : String) (jar : Option C.KeyJar) (verify : Bool) (kw : Dict) : Tolerable (openStep C t jar verify kw) := by
  unfold openStep
  split
  · rename_i he; exact (hC.jws _ _).tolerable.same he
  · split
    · exact tolerable_ok _
    · rename_i e he
      intro e' h'
      cases h'
      rcases loads_error he with rfl | rfl
      · exact .inl rfl
      · exact .inr rfl
  · rename_i j hj
    split
    · rename_i he; exact (hC.payload _ _ _ hj).tolerable.same he
    · obtain ⟨s, hs⟩ := hC.alg _ _ _ hj
      have : Tolerable (sigStep C j t jar verify kw) := by
        unfold sigStep
        rw [hs]
        simp only
        split
        · exact tolerable_ok _
        · split
          · exact checkSig_tolerable hC _ _ _ _
          · exact tolerable_ok _
      split
      · exact tolerable_ok _
      · rename_i he; exact this.same he

omit hC in
theorem openStep_dict {t : String} {jar jar' : Option C.KeyJar} {verify : Bool} {kw : Dict} {v : Val} {hdr : Option Dict}
    (ho : ∀ a j v, C.jws (.str t) a = .ok (some j) → j.payload = .ok v → ∃ d, v = .dict d ∧ noMsgDict d = true)
    (hl : ∀ v, loads t = .ok v → ∃ d, v = .dict d) (h : openStep C t jar verify kw = .ok (v, hdr, jar')) :
    ∃ d, v = .dict d ∧ noMsgDict d = true := by
  unfold openStep at h
  split at h
  · cases h
  · split at h
    · rename_i w hw
      cases h
      obtain ⟨d, rfl⟩ := hl _ hw
      have := loads_plain hw
      exact ⟨d, rfl, by simpa only [noMsg] using this⟩
    · cases h
  · rename_i j hj
    split at h
    · cases h
    · rename_i jso hp
      split at h
      · cases h
        exact ho _ j _ hj hp
      · cases h

omit hC in
/-- what is read from a text is made from plain data -/
theorem fromJwt_plain {sch : Schema} {t : String} (ho : PlainInside C t) {jar : JarArg C} {args : Dict} {m : JwtMsg C}
    (h : fromJwt C sch t jar args = .ok m) : ∃ d, noMsgDict d = true ∧ fromDictR sch sch.default d = .ok m.st := by
  unfold fromJwt at h
  split at h
  · cases h
  · split at h
    · cases h
    · rename_i t' ht
      obtain ⟨h1, h2⟩ := ho t' (decryptStep_opened ht)
      split at h
      · cases h
      · rename_i v hdr jar' hop
        obtain ⟨d, rfl, hd⟩ := openStep_dict h1 h2 hop
        simp only [Val.itemsOf] at h
        split at h
        · rename_i st hst
          cases h
          exact ⟨d, hd, hst⟩
        · cases h

/-- reading a text as a token, whatever it is -/
theorem fromJwt_any {sch : Schema} (hs : sch ∈ allSchemas) {t : String} (ho : PlainInside C t) (kj : C.KeyJar) (args : Dict) :
    Tolerable (fromJwt C sch t (some (some kj)) args) := by
  unfold fromJwt
  simp only
  split
  · rename_i he; exact (decryptStep_tolerable hC _ _ _).same he
  · rename_i t' ht
    obtain ⟨h1, h2⟩ := ho t' (decryptStep_opened ht)
    split
    · rename_i he; exact (openStep_tolerable hC _ _ _ _).same he
    · rename_i v hdr jar' hop
      obtain ⟨d, rfl, -⟩ := openStep_dict h1 h2 hop
      simp only [Val.itemsOf]
      split
      · exact tolerable_ok _
      · rename_i he; exact (read_tolerable hs _ _).same he

omit hC in
theorem checkSig_jar {j : Jws} {t : String} {kj : C.KeyJar} {kw : Dict} {jar : Option C.KeyJar}
    (h : checkSig C j t (some kj) kw = .ok jar) : jar ≠ none := by
  unfold checkSig at h
  have hk : ∀ ks jar', jarKeys C j (some kj) kw = .ok (ks, jar') → jar' ≠ none := by
    intro ks jar' h
    unfold jarKeys at h
    simp only at h
    split at h
    · split at h
      · cases h; simp
      · cases h
    · cases h; simp
  split at h
  · cases h
  · cases h
  · rename_i jar' hj
    have hn := hk _ _ hj
    split at h
    · cases h; exact hn
    · unfold retryVerify at h
      split at h
      · exact absurd rfl hn
      · split at h
        · split at h
          · cases h
          · split at h
            · cases h
            · split at h
              · cases h; simp
              · cases h
        · cases h; simp
    · cases h

omit hC in
/-- who gives a key jar gets one back -/
theorem fromJwt_jar {sch : Schema} {t : String} {kj : C.KeyJar} {args : Dict} {m : JwtMsg C}
    (h : fromJwt C sch t (some (some kj)) args = .ok m) : m.jar ≠ none := by
  unfold fromJwt at h
  simp only at h
  split at h
  · cases h
  · split at h
    · cases h
    · rename_i v hdr jar' hop
      have hj : jar' ≠ none := by
        unfold openStep at hop
        split at hop
        · cases hop
        · split at hop
          · cases hop; simp
          · cases hop
        · split at hop
          · cases hop
          · split at hop
            · rename_i jar'' hsg
              cases hop
              unfold sigStep at hsg
              split at hsg
              · cases hsg
              · split at hsg
                · cases hsg; simp
                · split at hsg
                  · exact checkSig_jar hsg
                  · cases hsg; simp
            · cases hop
      split at h
      · cases h
      · split at h
        · cases h; exact hj
        · cases h

/-- **C133**, end session requests: a key jar is given, and the hint is a text whose inside is an object -/
theorem C133_end_session_partial {now : Int} {st kw : Dict} {kj : C.KeyJar} (hkw : ArgsOk kw) (ht : TextAt st "id_token_hint")
    (ho : ∀ t, dget st "id_token_hint" = some (.str t) → ObjectInside C t) :
    Tolerable (endSessionVerify C now st (some (some kj)) kw) := by
  refine tolerable_bind (verifyBase_refuses _ _).tolerable fun _ _ => ?_
  have hc : dget (clearVerifiedClaims st) "id_token_hint" = dget st "id_token_hint" := by
    unfold clearVerifiedClaims
    rw [dget_ddel_ne _ (by decide), dget_ddel_ne _ (by decide), dget_ddel_ne _ (by decide)]
  unfold endSessionRest
  split
  · rename_i hd
    refine Tolerable.map ?_ _
    cases hv : dget st "id_token_hint" with
    | none => simp [dhas, hc, hv] at hd
    | some v =>
      obtain ⟨t, rfl⟩ := ht v hv
      rw [hv] at hc
      unfold hintVerify
      refine tolerable_bind (by unfold getR; rw [hc]; exact tolerable_ok _) fun v' hv' => ?_
      obtain rfl : v' = .str t := by
        unfold getR at hv'
        rw [hc] at hv'
        cases hv'; rfl
      refine tolerable_bind (fromJwt_any hC (by simp [allSchemas]) (ho t hv).plain kj _) fun m hm => ?_
      refine tolerable_bind (verifyIdToken_tolerable hC hc false (fromJwt_jar hm) (ho t hv t (.inl rfl)).1 hkw (fun h => by cases h))
        fun _ _ => tolerable_ok _
  · split <;> exact tolerable_ok _

/-- **C133**, responses to session refreshing: when the error description is not null and the ID token is a text -/
theorem C133_refresh_session_partial {now : Int} {st kw : Dict} {kj : C.KeyJar} (h : Received session_RefreshSessionResponse st)
    (h0 : dget st "error_description" ≠ some .none) (hkw : ArgsOk kw) (hi : TextAt st "id_token")
    (ho : ∀ t, dget st "id_token" = some (.str t) → ObjectToken C t) :
    Tolerable (messageWithIdTokenVerify C now session_RefreshSessionResponse st (some (some kj)) kw) := by
  refine tolerable_bind ?_ fun _ _ => ifPresent_tolerable hC hi false ho hkw (fun h => by cases h)
  exact (C133_responses_partial (sch := session_RefreshSessionResponse) (by simp [responseClasses]) h h0).tolerable

end

/-! ### Back-channel logout -/

theorem addValue_json_dict {st st' : Dict} {k : String} {v : Val} (hv : v.isDict = true)
    (h : addValue singleRequiredJson st k v = .ok st') : st' = st ∨ st' = dset st k v := by
  cases v <;> simp [Val.isDict] at hv
  simp [addValue, ignoredList, singleRequiredJson, singleValue, Ty.isInst] at h
  exact .inr h.symm

/-- when the events in the claims are an object, so are those of the logout token -/
theorem events_dict : ∀ (d : List (String × Val)) (st st' : Dict), fromDictR session_LogoutToken st d = .ok st' →
    (∀ v, ("events", v) ∈ d → v.isDict = true) → (∀ v, dget st "events" = some v → v.isDict = true) →
    ∀ v, dget st' "events" = some v → v.isDict = true
  | [], st, st', h, _, hst => by cases h; exact hst
  | (k', v) :: d, st, st', h, hd, hst => by
    unfold fromDictR fromDict at h
    cases ha : addItem session_LogoutToken st k' v with
    | error e => rw [ha] at h; cases h
    | ok st₁ =>
      rw [ha] at h
      refine events_dict d st₁ st' h (fun w hw => hd w (List.mem_cons_of_mem _ hw)) ?_
      by_cases e : k' = "events"
      · subst e
        unfold addItem at ha
        split at ha
        · cases ha; exact hst
        · have hk : dget session_LogoutToken.params "events" = some singleRequiredJson := rfl
          simp only [lookupSpec_declared hk, Bool.false_and] at ha
          have hv := hd v (List.mem_cons_self ..)
          rcases addValue_json_dict hv ha with rfl | rfl
          · exact hst
          · intro x hx
            rw [dget_dset_same] at hx
            cases hx
            exact hv
      · rcases addItem_frame ha with rfl | ⟨w, rfl⟩
        · exact hst
        · intro x hx
          rw [dget_dset_ne _ _ (fun h => e h)] at hx
          exact hst x hx

theorem listDeser_plain {fmt : Fmt} {v w : Val} (hv : noMsg v = true) (h : listDeser v fmt = .ok w) : noMsg w = true := by
  unfold listDeser at h
  split at h
  · split at h
    · cases h; simp only [noMsg]; exact noMsgList_strs _
    · unfold splitItem at h
      split at h
      · cases h; simp only [noMsg]; exact noMsgList_strs _
      · cases h
    · cases h; rfl
  · cases h; exact hv

theorem logout_makes : Makes (noMsg · = true) session_LogoutToken := by
  intro q hq
  have hq' : q.2 = singleRequiredString ∨ q.2 = singleOptionalString ∨ q.2 = requiredListOfStrings ∨ q.2 = singleRequiredInt ∨
      q.2 = singleRequiredJson := by
    simp only [session_LogoutToken, List.mem_cons, List.not_mem_nil, or_false] at hq
    rcases hq with rfl | rfl | rfl | rfl | rfl | rfl | rfl <;> simp
  rcases hq' with e | e | e | e | e <;> rw [e]
  · refine ⟨fun _ _ _ h => ?_, fun _ _ _ _ h => ?_⟩ <;> cases h
  · refine ⟨fun _ _ _ h => ?_, fun _ _ _ _ h => ?_⟩ <;> cases h
  · refine ⟨fun _ _ _ h => ?_, fun f fmt v w h => ?_⟩ <;> cases h
    exact listDeser_plain
  · refine ⟨fun _ _ _ h => ?_, fun _ _ _ _ h => ?_⟩ <;> cases h
  · refine ⟨fun _ _ _ h => (by cases h), fun f fmt v w h hv hw => ?_⟩
    cases h
    unfold jsonDeser at hw
    cases v <;> simp [loadsVal] at hw
    exact loads_plain hw

theorem logout_ser (k : String) : libEnv session_LogoutToken.cls k = none ∨ libEnv session_LogoutToken.cls k = some .list ∨
    libEnv session_LogoutToken.cls k = some .json := by
  unfold SerEnv.ser serFor
  have hp : libEnv.params session_LogoutToken.cls = session_LogoutToken.params := rfl
  rw [hp]
  cases hl : lookupSpec session_LogoutToken.params k with
  | none => exact .inl rfl
  | some p =>
    obtain ⟨b, sp⟩ := p
    obtain ⟨n, hn⟩ := lookupSpec_mem hl
    have : ∀ q ∈ session_LogoutToken.params, q.2.ser = none ∨ q.2.ser = some .list ∨ q.2.ser = some .json := by decide +kernel
    exact this _ hn

theorem serDict_logout {s : Option Ser} (hs : s = none ∨ s = some .list ∨ s = some .json) {v : Val} (hv : noMsg v = true) :
    Tolerable (serDict libEnv s v) := by
  have hd : Tolerable ((dumps v).map Val.str) := by
    refine Tolerable.map (Tolerable.map ?_ _) _
    exact fun e he => .inr (dumpsC_noMsg v hv e he)
  rcases hs with rfl | rfl | rfl
  · exact (serDict_refuses (.inl rfl) (.inl hv)).tolerable
  · exact (serDict_refuses (.inr (.inl rfl)) (.inl hv)).tolerable
  · cases v with
    | msg c d => cases hv
    | list l => simp only [serDict]; exact hd
    | _ => simp only [serDict, serPlain]; exact hd

theorem toDict_logout : ∀ {d : Dict}, Every (noMsg · = true) d → Tolerable (toDict libEnv session_LogoutToken.cls d)
  | [], _ => by simp only [toDict]; exact tolerable_ok _
  | (k, v) :: d, h => by
    simp only [toDict]
    exact tolerable_bind (serDict_logout (logout_ser k) (h _ (List.mem_cons_self ..))) fun _ _ =>
      tolerable_bind (toDict_logout (fun p hp => h p (List.mem_cons_of_mem _ hp))) fun _ _ => tolerable_ok _

/-- the claims of the token are an object of plain data whose events are an object -/
def LogoutClaims (C : Crypto) (t : String) : Prop :=
  ∀ a j v, C.jws (.str t) a = .ok (some j) → j.payload = .ok v →
    ∃ d, v = .dict d ∧ noMsgDict d = true ∧ ∀ w, ("events", w) ∈ d → w.isDict = true

section
variable {C : Crypto} (hC : Polite C)
include hC

/-- **C133**, back-channel logout requests: a key jar is given, the logout token is a signed JWT, its claims are an object, and the
events are an object -/
theorem C133_back_channel_partial {now : Int} {st kw : Dict} {kj : C.KeyJar} (h : Received session_BackChannelLogoutRequest st)
    (hkw : ArgsOk kw) {j : Jws} {a : Option Val}
    (hj : ∀ t, dget st "logout_token" = some (.str t) → C.jws (.str t) a = .ok (some j))
    (hl : ∀ t, dget st "logout_token" = some (.str t) → LogoutClaims C t) :
    Tolerable (backChannelVerify C now st (some (some kj)) kw) := by
  refine tolerable_bind (verifyBase_refuses _ _).tolerable fun _ hv => ?_
  obtain ⟨h1, h2⟩ := required_there (k := "logout_token") (sp := singleRequiredString) rfl rfl rfl (by decide) hv
  have ht := received_text (sch := session_BackChannelLogoutRequest) (k := "logout_token") (sp := singleRequiredString) rfl rfl rfl rfl
    h h2
  cases hd : dget st "logout_token" with
  | none => exact absurd hd h1
  | some v =>
    obtain ⟨t, rfl⟩ := ht v hd
    have hj := hj t hd
    have hl := hl t hd
    refine tolerable_bind (by unfold getR; rw [hd]; exact tolerable_ok _) fun v' hv' => ?_
    obtain rfl : v' = .str t := by
      unfold getR at hv'
      rw [hd] at hv'
      cases hv'; rfl
    have hp := hC.parsed t a
    have key : ∀ r, fromJwt C session_LogoutToken t (some (some kj)) (pick idTokenVerifyArgs kw) = r →
        Tolerable r ∧ ∀ m, r = .ok m → m.header = some j.headers ∧ ∃ d, noMsgDict d = true ∧
          (∀ w, ("events", w) ∈ d → w.isDict = true) ∧ fromDictR session_LogoutToken [] d = .ok m.st := by
      intro r hr
      unfold fromJwt decryptStep at hr
      simp only [(hp none j hj).1] at hr
      split at hr
      · rename_i e he
        subst hr
        exact ⟨(openStep_tolerable hC _ _ _ _).same he, fun _ h => by cases h⟩
      · rename_i jso hdr jar' he
        unfold openStep at he
        simp only [(hp _ j hj).2] at he
        split at he
        · cases he
        · rename_i v hpl
          split at he
          · cases he
            obtain ⟨d, rfl, hn, hev⟩ := hl a j _ hj hpl
            simp only [Val.itemsOf] at hr
            split at hr
            · rename_i st' hst
              subst hr
              refine ⟨tolerable_ok _, fun m hm => ?_⟩
              cases hm
              exact ⟨rfl, d, hn, hev, hst⟩
            · rename_i e he
              subst hr
              exact ⟨(read_tolerable (by simp [allSchemas]) _ _).same he, fun _ h => by cases h⟩
          · cases he
    obtain ⟨k1, k2⟩ := key _ rfl
    refine tolerable_bind k1 fun m hm => ?_
    obtain ⟨hh, d, hn, hev, hst⟩ := k2 m hm
    obtain ⟨s, hs⟩ := hC.alg t a j hj
    refine tolerable_bind ?_ fun _ _ => tolerable_bind ?_ fun _ _ => tolerable_ok _
    · rw [hh]
      exact (C133_logout_token_partial ⟨d, .inr hst⟩ hkw (events_dict d _ _ hst hev (fun v h => by cases h)) (by rw [hs]; simp)).tolerable
    · have := toDict_logout (fromDict_every (fun w hw => hw) logout_makes d [] _ hn (fun p hp => by cases hp) hst)
      unfold formatOk
      simp only
      split
      · exact tolerable_ok _
      · rename_i he; exact this.same he

end

/-! ### Where it fails, and honest cases -/

/-- the claims of an honest logout token -/
def logoutClaims : Dict := [("iss", .str "https://op"), ("aud", .list [.str "client"]), ("iat", .int 1000), ("jti", .str "j"),
  ("sub", .str "s"), ("events", .dict [(backchannelEvent, .dict [])])]

/-- **C133** fails for an end session request whose hint is a JSON document but not an object (`AttributeError`), for a logout token
like that, and for a logout token that is not signed when a signing algorithm is demanded (`TypeError`). -/
theorem C133_counterexamples_logout :
    (fromUrlencoded session_EndSessionRequest [] "id_token_hint=5" >>=
      (endSessionVerify (claimsToy .none) 1500 · (some (some ())) [])).map Prod.fst = .error .attributeError ∧
    ReadThen session_BackChannelLogoutRequest [("logout_token", .str "5")]
      (backChannelVerify (claimsToy .none) 1500 · (some (some ())) []) .attributeError ∧
    ReadThen session_BackChannelLogoutRequest [("logout_token", .str
        "{\"iss\": \"https://op\", \"aud\": [\"client\"], \"iat\": 1000, \"jti\": \"j\", \"sub\": \"s\", \"events\": {\"http://schemas.openid.net/event/backchannel-logout\": {}}}")]
      (backChannelVerify (claimsToy .none) 1500 · (some (some ())) [("allowed_sign_alg", .str "RS256")]) .typeError := by
  refine ⟨by decide +kernel, ⟨by decide +kernel, by decide +kernel⟩, ⟨by decide +kernel, by decide +kernel⟩⟩

/-- a hint that is an honest token has an object inside, and the request is accepted -/
example : ObjectInside (claimsToy (.dict toyClaims)) "T" ∧
    (fromUrlencoded session_EndSessionRequest [] "id_token_hint=T" >>=
      (endSessionVerify (claimsToy (.dict toyClaims)) 1500 · (some (some ())) [("client_id", .str "client")])).isOk = true := by
  refine ⟨?_, by decide +kernel⟩
  intro t' h
  rcases h with rfl | ⟨a, w, -⟩
  · refine ⟨toy_polite.2 _, fun v hv => ?_⟩
    have : (loads "T").isOk = false := by decide +kernel
    rw [hv] at this
    cases this
  · exact nomatch w

/-- so is an honest logout token; one for somebody else is refused -/
example : LogoutClaims (claimsToy (.dict logoutClaims)) "T" ∧
    (construct session_BackChannelLogoutRequest [("logout_token", .str "T")] >>=
      (backChannelVerify (claimsToy (.dict logoutClaims)) 1500 · (some (some ())) [("aud", .str "client")])).isOk = true ∧
    (construct session_BackChannelLogoutRequest [("logout_token", .str "T")] >>=
      (backChannelVerify (claimsToy (.dict logoutClaims)) 1500 · (some (some ())) [("aud", .str "other")])) = .error .notForMe := by
  refine ⟨?_, by decide +kernel, by decide +kernel⟩
  intro a j v h hp
  have hj : j = ⟨[("alg", .str "RS256")], .ok (.dict logoutClaims)⟩ := by
    have h := Except.ok.inj h
    simp only [dget] at h
    cases h; rfl
  rw [hj] at hp
  cases hp
  refine ⟨_, rfl, by decide +kernel, fun w hw => ?_⟩
  simp [logoutClaims] at hw
  subst hw; rfl

end Verif
