import Verif.Props.PassedOn

/-!
# C164: texts are read alike from a form and from a JSON object
-/

namespace Verif

/-- Kinds of parameters for which a text is understood the same way in both formats. -/
inductive AlikeSpec : Spec → Prop
  /-- texts without conversion -/
  | text {req ser na} : AlikeSpec ⟨.single .str, req, ser, none, na⟩
  /-- signed tokens, which are texts until they are verified -/
  | token {req ser na} : AlikeSpec ⟨.single messageTy, req, ser, none, na⟩
  /-- lists of texts, separated by spaces -/
  | list {req ser f na} : AlikeSpec ⟨.list .str, req, ser, some f, na⟩
  /-- JSON objects -/
  | json {req ser na} : AlikeSpec ⟨.single .dict, req, ser, some jsonDeser, na⟩
  | dict {req ser na} : AlikeSpec ⟨.single .dict, req, ser, some dictDeser, na⟩
  /-- claims requests -/
  | claims {t req ser sch na} : (∀ s, t.isInst (.str s) = false) → AlikeSpec ⟨.single t, req, ser, some (jsonMsgDeser sch), na⟩

/-- A name that the class does not know, or that is a parameter of such a kind. -/
def AlikeName (sch : Schema) (k : String) : Prop :=
  ∀ b sp, lookupSpec sch.params k = some (b, sp) → AlikeSpec sp

theorem jsonMsgDeser_alike (sch : Schema) (s : String) :
    jsonMsgDeser sch (.str s) .urlencoded = jsonMsgDeser sch (.str s) .dict := by
  simp only [jsonMsgDeser, textOf, Val.isStr, if_true, deserializeMsg, deserialize, loadsVal]
  cases loads s <;> rfl

theorem single_alike {sp : Spec} {t : Ty} {f : Val → Fmt → Res Val} (ht : sp.vtyp = .single t) (hd : sp.deser = some f)
    (hi : ∀ s, t.isInst (.str s) = false) (ha : ∀ s, f (.str s) .urlencoded = f (.str s) .dict) (st : Dict) (k v : String)
    (r : Dict) :
    ((f (.str v) .urlencoded).bind fun x => .ok (dset st k x)) = .ok r ↔ addValue sp st k (.str v) = .ok r := by
  simp only [addValue, ignoredList, ht, singleValue, hi, hd, ha, Bool.false_eq_true, if_false]
  cases hf : f (.str v) .dict with
  | ok x => simp [orDecodeError, Except.bind]
  | error e => cases e <;> simp [orDecodeError, Except.bind]

theorem one_alike {sch : Schema} {k v : String} (hk : AlikeName sch k) (hv : v ≠ "") (st r : Dict) :
    addUrl sch st k [v] = .ok r ↔ addItem sch st k (.str v) = .ok r := by
  have hb : isBlank (.str v) = false := by simp [isBlank, hv]
  unfold addUrl addItem
  rw [hb]
  cases hl : lookupSpec sch.params k with
  | none => simp
  | some q =>
    obtain ⟨b, sp⟩ := q
    have hs := hk b sp hl
    simp only [Val.isNone, Bool.and_false, Bool.false_eq_true, if_false]
    cases hs with
    | text => simp [addValue, ignoredList, singleValue, Ty.isInst]
    | token => simp [addValue, ignoredList, singleValue, Ty.isInst, messageTy, coerceSingle, messageSchema]
    | @list req ser f na =>
      simp only [addValue, ignoredList, addToList, Val.isNone, Ty.isInst, Bool.false_eq_true, if_false, if_true]
      cases hf : f (.str v) .urlencoded with
      | ok x => simp [orDecodeError, bind, Except.bind]
      | error e => cases e <;> simp [orDecodeError, bind, Except.bind]
    | json => exact single_alike rfl rfl (fun _ => rfl) (fun _ => rfl) st k v r
    | dict => exact single_alike rfl rfl (fun _ => rfl) (fun _ => rfl) st k v r
    | claims ht => exact single_alike rfl rfl ht (jsonMsgDeser_alike _) st k v r

theorem parseQs_single (ps : List (String × String)) (hn : (ps.map Prod.fst).Nodup) (hv : ∀ p ∈ ps, p.2 ≠ "") :
    parseQs (urlencode ps) = ps.map fun p => (p.1, [p.2]) := by
  unfold parseQs
  rw [C10_parse_qsl ps hv]
  have : ∀ (l : List (String × String)) (d : Assoc (List String)), (l.map Prod.fst).Nodup → (∀ p ∈ l, p.1 ∉ dkeys d) →
      l.foldl qsAdd d = d ++ l.map fun p => (p.1, [p.2]) := by
    intro l
    induction l with
    | nil => intro d _ _; simp
    | cons p l ih =>
      intro d hn hd
      simp only [List.map_cons, List.nodup_cons] at hn
      have h1 := foldl_qsAdd_block d p.1 [p.2] (hd p (by simp)) (by simp)
      simp only [List.map_cons, List.map_nil, List.foldl_cons, List.foldl_nil] at h1
      rw [List.foldl_cons, h1, ih _ hn.2]
      · simp
      · intro q hq
        simp only [dkeys, List.map_append, List.mem_append, List.map_cons, List.map_nil, List.mem_singleton]
        rintro (h | h)
        · exact hd q (by simp [hq]) h
        · exact hn.1 (h ▸ List.mem_map_of_mem hq)
  simpa using this ps [] hn (by simp [dkeys])

theorem all_alike {sch : Schema} : ∀ (ps : List (String × String)) (st r : Dict), (∀ p ∈ ps, AlikeName sch p.1) →
    (∀ p ∈ ps, p.2 ≠ "") →
    (addUrls sch st (ps.map fun p => (p.1, [p.2])) = .ok r ↔ fromDictR sch st (ps.map fun p => (p.1, .str p.2)) = .ok r)
  | [], st, r, _, _ => by simp [addUrls, fromDictR, fromDict]
  | p :: ps, st, r, hk, hv => by
    have h1 := one_alike (st := st) (hk p (by simp)) (hv p (by simp))
    simp only [List.map_cons, addUrls, fromDictR, fromDict]
    cases ha : addUrl sch st p.1 [p.2] with
    | ok st' =>
      rw [(h1 st').mp ha]
      have := all_alike ps st' r (fun q hq => hk q (by simp [hq])) (fun q hq => hv q (by simp [hq]))
      simpa [fromDictR] using this
    | error e =>
      cases hb : addItem sch st p.1 (.str p.2) with
      | ok st' => rw [(h1 st').mpr hb] at ha; cases ha
      | error e' => simp

/-- **C164**: texts with different names, none of them empty, are read alike from a form and from a JSON object, whatever the
instance holds: the same content, and nothing in one case if nothing in the other. -/
theorem C164_alike_partial (sch : Schema) (st r : Dict) (ps : List (String × String)) (hne : ps ≠ [])
    (hn : (ps.map Prod.fst).Nodup) (hv : ∀ p ∈ ps, p.2 ≠ "") (hk : ∀ p ∈ ps, AlikeName sch p.1) :
    ∃ txt, dumps (.dict (ps.map fun p => (p.1, .str p.2))) = .ok txt ∧
      (fromUrlencoded sch st (urlencode ps) = .ok r ↔ fromJson sch st txt = .ok r) := by
  have hj : (Val.dict (ps.map fun p => (p.1, .str p.2))).isJson = true := by
    have h1 : dkeys (ps.map fun p => (p.1, Val.str p.2)) = ps.map Prod.fst := by simp [dkeys]
    have h2 : ∀ l : List (String × String), Val.isJsonDict (l.map fun p => (p.1, Val.str p.2)) = true := by
      intro l
      induction l with
      | nil => rfl
      | cons q l ih => simp [Val.isJsonDict, Val.isJson, ih]
    simp only [Val.isJson, h1, h2, hn, decide_true, Bool.and_self]
  obtain ⟨txt, h1, h2⟩ := C06_json_roundtrip _ hj
  refine ⟨txt, h1, ?_⟩
  unfold fromUrlencoded fromJson
  rw [h2, parseQs_single ps hn hv]
  have : ¬ (urlencode ps ≠ "" ∧ (ps.map fun p => (p.1, [p.2])) = []) := by simp [hne]
  simp only [this, if_false]
  exact all_alike ps st r hk hv

/-- The classes all of whose parameters are of these kinds: the requests of OAuth2 and of the token endpoint, error responses,
authorization responses of OAuth2, logout requests, and others. -/
def alikeClasses : List Schema := [messageSchema, oidc_AddressClaim, oidc_Claims, oidc_Link, oauth2_ResponseMessage,
  oauth2_AuthorizationErrorResponse, oauth2_TokenErrorResponse, oauth2_AccessTokenRequest, oauth2_AuthorizationRequest,
  oauth2_AuthorizationResponse, oauth2_NoneResponse, oauth2_ROPCAccessTokenRequest, oauth2_CCAccessTokenRequest,
  oauth2_RefreshAccessTokenRequest, oauth2_ResourceRequest, oauth2_ASConfigurationResponse, oauth2_TokenIntrospectionRequest,
  oauth2_TokenExchangeRequest, oauth2_JWTSecuredAuthorizationRequest, oauth2_PushedAuthorizationRequest,
  oidc_RefreshAccessTokenRequest, oidc_TokenErrorResponse, oidc_UserInfoRequest, oidc_AuthorizationErrorResponse,
  oidc_AccessTokenRequest, oidc_ClientRegistrationErrorResponse, oidc_UserInfoErrorResponse, oidc_DiscoveryRequest,
  oidc_WebFingerRequest, oidc_ResourceRequest, oidc_MessageWithIdToken, device_AuthorizationRequest, device_AccessTokenRequest,
  session_RefreshSessionRequest, session_RefreshSessionResponse, session_CheckSessionRequest, session_CheckIDRequest,
  session_EndSessionRequest, session_EndSessionResponse, session_BackChannelLogoutRequest, ida_PlaceOfBirth, ida_Verifier,
  ida_Issuer, ida_Evidence, ida_Provider]

theorem alikeName_of_mem {sch : Schema} (h : ∀ p ∈ sch.params, AlikeSpec p.2) (k : String) : AlikeName sch k := by
  intro b sp hl
  unfold lookupSpec at hl
  split at hl
  · next s hs => cases hl; exact h _ (dget_mem hs)
  · split at hl
    · next s hs => cases hl; exact h _ (dget_mem hs)
    · split at hl
      · next s hs => cases hl; exact h _ (dget_mem hs)
      · cases hl

theorem alikeClasses_spec : ∀ sch ∈ alikeClasses, ∀ p ∈ sch.params, AlikeSpec p.2 := by
  unfold alikeClasses
  repeat' (first | exact List.forall_mem_nil _ | (refine List.forall_mem_cons.mpr ⟨?_, ?_⟩) |
    exact AlikeSpec.text | exact AlikeSpec.token | exact AlikeSpec.list | exact AlikeSpec.json | exact AlikeSpec.dict)

/-- **C164** for these classes: every form and every JSON object of texts with different names. -/
theorem C164_classes {sch : Schema} (hs : sch ∈ alikeClasses) (st r : Dict) (ps : List (String × String)) (hne : ps ≠ [])
    (hn : (ps.map Prod.fst).Nodup) (hv : ∀ p ∈ ps, p.2 ≠ "") :
    ∃ txt, dumps (.dict (ps.map fun p => (p.1, .str p.2))) = .ok txt ∧
      (fromUrlencoded sch st (urlencode ps) = .ok r ↔ fromJson sch st txt = .ok r) :=
  C164_alike_partial sch st r ps hne hn hv fun p _ => alikeName_of_mem (alikeClasses_spec sch hs) p.1

/-- `max_age`, or `max_age` in some language -/
def IsMaxAge (k : String) : Prop := k = "max_age" ∨ ∃ tag, k = "max_age#" ++ tag

theorem isMaxAge_of_langBase {k : String} (h : langBase k = "max_age") : IsMaxAge k := by
  unfold langBase at h
  rcases (splitFirst_spec '#' k.toList).2 with e | ⟨r, e⟩
  · left
    rw [e, String.ofList_toList] at h
    exact h
  · right
    refine ⟨String.ofList r, ?_⟩
    have h1 : (splitFirst '#' k.toList).1 = "max_age".toList := by
      rw [← h, String.toList_ofList]
    rw [h1] at e
    apply String.toList_inj.mp
    rw [e]
    simp

theorem authzRequest_alike {sch : Schema} (hs : sch = oidc_AuthorizationRequest ∨ sch = oidc_OpenIDRequest) :
    ∀ p ∈ sch.params, p.1 = "max_age" ∨ AlikeSpec p.2 := by
  rcases hs with rfl | rfl
  · unfold oidc_AuthorizationRequest
    repeat' (first | exact List.forall_mem_nil _ | (refine List.forall_mem_cons.mpr ⟨?_, ?_⟩) | exact Or.inl rfl |
      exact .inr AlikeSpec.text | exact .inr AlikeSpec.token | exact .inr AlikeSpec.list | exact .inr AlikeSpec.json |
      exact .inr (AlikeSpec.claims fun _ => rfl))
  · unfold oidc_OpenIDRequest
    repeat' (first | exact List.forall_mem_nil _ | (refine List.forall_mem_cons.mpr ⟨?_, ?_⟩) | exact Or.inl rfl |
      exact .inr AlikeSpec.text | exact .inr AlikeSpec.token | exact .inr AlikeSpec.list | exact .inr AlikeSpec.json |
      exact .inr (AlikeSpec.claims fun _ => rfl))

/-- **C164** for the authorization requests of OpenID Connect: all parameters but `max_age`, the claims request and the
registration included. -/
theorem C164_authz_request_partial {sch : Schema} (hs : sch = oidc_AuthorizationRequest ∨ sch = oidc_OpenIDRequest) (st r : Dict)
    (ps : List (String × String)) (hne : ps ≠ []) (hn : (ps.map Prod.fst).Nodup) (hv : ∀ p ∈ ps, p.2 ≠ "")
    (hm : ∀ p ∈ ps, ¬ IsMaxAge p.1) :
    ∃ txt, dumps (.dict (ps.map fun p => (p.1, .str p.2))) = .ok txt ∧
      (fromUrlencoded sch st (urlencode ps) = .ok r ↔ fromJson sch st txt = .ok r) := by
  refine C164_alike_partial sch st r ps hne hn hv fun p hp b sp hl => ?_
  have ha := authzRequest_alike hs
  have hstar : dget sch.params "*" = none := by rcases hs with rfl | rfl <;> rfl
  unfold lookupSpec at hl
  split at hl
  · next s h1 =>
    cases hl
    exact (ha _ (dget_mem h1)).resolve_left fun e => hm p hp (.inl e)
  · split at hl
    · next s h1 =>
      cases hl
      exact (ha _ (dget_mem h1)).resolve_left fun e => hm p hp (isMaxAge_of_langBase e)
    · rw [hstar] at hl
      cases hl

/-- **C164** fails for numbers: the maximal age is a text in one case and a number in the other. -/
theorem C164_counterexample_number :
    fromUrlencoded oidc_AuthorizationRequest [] (urlencode [("max_age", "60")]) = .ok [("max_age", .str "60")] ∧
    fromJson oidc_AuthorizationRequest [] "{\"max_age\": \"60\"}" = .ok [("max_age", .int 60)] ∧
    fromUrlencoded oidc_AuthorizationRequest [] (urlencode [("max_age", "soon")]) = .ok [("max_age", .str "soon")] ∧
    fromJson oidc_AuthorizationRequest [] "{\"max_age\": \"soon\"}" = .error .valueError := by
  decide +kernel

/-- **C164** fails for messages that may be given in one of several formats: a claims request with `=` in a value is taken for a
form when it arrives in a form. -/
theorem C164_counterexample_one_of :
    fromUrlencoded oidc_ClaimsRequest [] (urlencode [("userinfo", "{\"name\": \"a=b\"}")]) =
      .ok [("userinfo", .msg oidc_Claims.cls [("{\"name\": \"a", .str "b\"}")])] ∧
    fromJson oidc_ClaimsRequest [] "{\"userinfo\": \"{\\\"name\\\": \\\"a=b\\\"}\"}" =
      .ok [("userinfo", .msg oidc_Claims.cls [("name", .str "a=b")])] := by
  decide +kernel

/-- the hypotheses can be met -/
example : oauth2_AuthorizationRequest ∈ alikeClasses ∧
    fromUrlencoded oauth2_AuthorizationRequest [] (urlencode [("client_id", "c"), ("response_type", "code token"), ("x", "ü")]) =
      .ok [("client_id", .str "c"), ("response_type", .list [.str "code", .str "token"]), ("x", .str "ü")] :=
  ⟨by simp [alikeClasses], by decide +kernel⟩

example : ¬ IsMaxAge "claims" := by
  rintro (h | ⟨tag, h⟩)
  · revert h; decide
  · have := congrArg String.toList h
    simp at this

end Verif
