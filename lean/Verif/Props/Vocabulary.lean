import Verif.Props.Standards
import Verif.Props.ListParams

/-!
# C129: a parameter name stands for the same kind of value in every class

The tables of names are taken from the registries (OAuth parameters, OAuth authorization server metadata, JSON web token
claims, OAuth dynamic client registration metadata) and the standards they refer to.
-/

namespace Verif

/-- Numbers: moments in seconds, durations in seconds. -/
def numberNames : List String := [
  "auth_time", "client_id_issued_at", "client_secret_expires_at", "default_max_age", "exp", "expires_in",
  "iat", "interval", "max_age", "nbf", "toe", "updated_at"]

/-- Truth values. -/
def truthNames : List String := [
  "active", "backchannel_logout_session_supported", "backchannel_logout_supported",
  "claims_parameter_supported", "email_verified", "frontchannel_logout_session_required",
  "frontchannel_logout_session_supported", "frontchannel_logout_supported", "phone_number_verified",
  "request_parameter_supported", "request_uri_parameter_supported", "require_auth_time",
  "require_request_uri_registration"]

/-- Lists written as words with spaces between them. -/
def wordNames : List String := [
  "acr_values", "claims_locales", "prompt", "response_type", "ui_locales"]

/-- Arrays of texts. -/
def arrayNames : List String := [
  "acr_values_supported", "aliases", "amr", "aud", "audience", "claim_types_supported",
  "claims_locales_supported", "claims_supported", "contacts", "default_acr_values",
  "display_values_supported", "federation_type", "grant_types", "grant_types_supported",
  "id_token_encryption_alg_values_supported", "id_token_encryption_enc_values_supported",
  "id_token_signing_alg_values_supported", "post_logout_redirect_uris", "redirect_uris",
  "request_object_encryption_alg_values_supported", "request_object_encryption_enc_values_supported",
  "request_object_signing_alg_values_supported", "request_uris", "response_modes_supported", "response_types",
  "response_types_supported", "scopes_supported", "subject_types_supported",
  "token_endpoint_auth_methods_supported", "token_endpoint_auth_signing_alg_values_supported",
  "ui_locales_supported", "userinfo_encryption_alg_values_supported",
  "userinfo_encryption_enc_values_supported", "userinfo_signing_alg_values_supported"]

/-- Moments and dates in ISO 8601, OpenID Connect for Identity Assurance. -/
def momentNames : List String := [
  "created_at", "date", "date_of_expiry", "date_of_issuance", "time"]

/-- Objects that are not messages. -/
def objectNames : List String := [
  "events", "jwks", "place_of_birth", "properties", "registration", "titles"]

/-- Texts: identifiers, tokens, codes, URLs, names. -/
def textNames : List String := [
  "access_token", "acr", "actor_token", "actor_token_type", "application_type", "at_hash",
  "authorization_endpoint", "azp", "backchannel_logout_uri", "birth_family_name", "birth_given_name",
  "birth_middle_name", "birthdate", "c_hash", "check_session_iframe", "client_assertion",
  "client_assertion_type", "client_id", "client_name", "client_secret", "client_uri", "code", "country",
  "device_code", "display", "email", "end_session_endpoint", "error", "error_description", "error_uri",
  "family_name", "formatted", "frontchannel_logout_uri", "gender", "given_name", "grant_type", "href",
  "id_token_encrypted_response_alg", "id_token_encrypted_response_enc", "id_token_signed_response_alg",
  "initiate_login_uri", "introspection_endpoint", "iss", "issued_token_type", "jti", "jwks_uri", "locale",
  "locality", "login_hint", "logo_uri", "logout_token", "method", "middle_name", "name",
  "nickname", "nonce", "number", "op_policy_uri", "op_tos_uri", "organization", "organization_name",
  "password", "phone_number", "picture", "policy_uri", "post_logout_redirect_uri", "postal_code",
  "preferred_username", "profile", "redirect_uri", "redirect_url", "refresh_token", "region",
  "registration_access_token", "registration_client_uri", "registration_endpoint", "rel", "request",
  "request_object_encryption_alg", "request_object_encryption_enc", "request_object_signing_alg",
  "request_uri", "requested_token_type", "response_mode", "revocation_endpoint", "salutation",
  "sector_identifier_uri", "serial_number", "service_documentation", "session_state", "sid", "state",
  "street_address", "sub", "subject", "subject_token", "subject_token_type", "subject_type",
  "title", "token", "token_endpoint", "token_endpoint_auth_method", "token_endpoint_auth_signing_alg",
  "token_type", "token_type_hint", "tos_uri", "trust_framework", "txn", "txt", "type", "user_code",
  "userinfo_encrypted_response_alg", "userinfo_encrypted_response_enc", "userinfo_endpoint",
  "userinfo_signed_response_alg", "username", "verification_process", "verification_uri",
  "verification_uri_complete", "website", "zoneinfo"]

/-- Messages inside messages. -/
def messageNames : List String := [
  "_claim_names", "_claim_sources", "address", "claims", "document", "id_token", "id_token_hint", "provider", "userinfo",
  "verification", "verifier"]

/-- Lists of messages. -/
def messageListNames : List String := ["evidence", "links"]

/-- The kinds of values. -/
inductive Registered where
  | number | truth | words | array | moment | object | text | message | messages
deriving DecidableEq

/-- Names that stand for something else in a class than elsewhere.  `id_token` is a text in an access token response,
`id_token_hint` in authorization requests; the `issuer` of an identity document is an object; in a token exchange
(RFC 8693 section 2.1) `resource` may be repeated.  The `scope` of a device authorization request is a list of words (RFC 8628
section 3.1) that the library takes as a text; `sub_jwk` (OpenID Connect Core section 7.4) is an object and `nationalities`
an array (OpenID Connect for Identity Assurance section 4.1), and the library has texts for them. -/
def otherwise : List ((Cls × String) × Registered) := [
  ((oidc_AccessTokenResponse.cls, "id_token"), .text),
  ((oidc_AuthorizationRequest.cls, "id_token_hint"), .text),
  ((oidc_OpenIDRequest.cls, "id_token_hint"), .text),
  ((ida_Document.cls, "issuer"), .message),
  ((oauth2_TokenExchangeRequest.cls, "resource"), .array),
  ((device_AuthorizationRequest.cls, "scope"), .text),
  ((oidc_IdToken.cls, "sub_jwk"), .text),
  ((ida_IdentityAssuranceClaims.cls, "nationalities"), .text)]

/-- What a name stands for. -/
def meaning (c : Cls) (k : String) : Option Registered :=
  match otherwise.find? (fun e => e.1 = (c, k)) with
  | some e => some e.2
  | none =>
    if k ∈ numberNames then some .number
    else if k ∈ truthNames then some .truth
    else if k ∈ wordNames ∨ k = "scope" then some .words
    else if k ∈ arrayNames then some .array
    else if k ∈ momentNames then some .moment
    else if k ∈ objectNames then some .object
    else if k ∈ messageNames then some .message
    else if k ∈ messageListNames then some .messages
    else if k ∈ textNames ∨ k = "issuer" ∨ k = "resource" then some .text
    else none

/-- the kind of value a specification describes -/
def Spec.kind (sp : Spec) : Option Registered :=
  match sp.vtyp, sp.ser, sp.deser.isSome with
  | .single .int, none, false => some .number
  | .single .bool, none, false => some .truth
  | .single .str, none, false => some .text
  | .single .str, some .timeStamp, true => some .moment
  | .single .dict, some .json, true => some .object
  | .single .dict, some .msgJson, true => some .object
  | .list .str, some .spSep, true => if sp.nullAllowed then none else some .words
  | .list .str, some .list, true => if sp.nullAllowed then none else some .array
  | .single (.msg ..), some _, _ => some .message
  | .list (.msg ..), some _, true => some .messages
  | _, _, _ => none

theorem kinds : ∀ sch ∈ allSchemas, ∀ q ∈ sch.params, q.2.kind = meaning sch.cls q.1 ∧ q.2.kind ≠ none := by decide +kernel

/-- the specification with the deserialiser that belongs to its serialiser -/
def Spec.canon (sp : Spec) : Spec :=
  match sp.vtyp, sp.ser with
  | .list .str, some .spSep => ⟨.list .str, sp.required, some .spSep, some spSepDeser, sp.nullAllowed⟩
  | .list .str, some .list => ⟨.list .str, sp.required, some .list, some listDeser, sp.nullAllowed⟩
  | _, _ => sp

theorem canons : allSchemas.map (fun s => s.params.map (fun p => p.2.canon)) = allSchemas.map (fun s => s.params.map Prod.snd) :=
  rfl

theorem canon_eq {sch : Schema} (hs : sch ∈ allSchemas) {q : String × Spec} (hq : q ∈ sch.params) : q.2.canon = q.2 := by
  have h1 := List.map_inj_left.1 canons sch hs
  exact List.map_inj_left.1 h1 q hq

theorem kind_of {sch : Schema} (hs : sch ∈ allSchemas) {k : String} {sp : Spec} (hk : dget sch.params k = some sp)
    {r : Registered} (hm : meaning sch.cls k = some r) : sp.kind = some r ∧ sp.canon = sp :=
  ⟨(kinds sch hs _ (dget_mem hk)).1.trans hm, canon_eq hs (dget_mem hk)⟩

theorem kind_number {sp : Spec} (h : sp.kind = some .number) : sp.vtyp = .single .int ∧ sp.deser = none := by
  unfold Spec.kind at h
  split at h <;> first | cases h | skip
  all_goals simp_all

theorem kind_truth {sp : Spec} (h : sp.kind = some .truth) : sp.vtyp = .single .bool ∧ sp.deser = none := by
  unfold Spec.kind at h
  split at h <;> first | cases h | skip
  all_goals simp_all

theorem kind_text {sp : Spec} (h : sp.kind = some .text) : sp.vtyp = .single .str ∧ sp.deser = none := by
  unfold Spec.kind at h
  split at h <;> first | cases h | skip
  all_goals simp_all

theorem kind_moment {sp : Spec} (h : sp.kind = some .moment) : sp.vtyp = .single .str := by
  unfold Spec.kind at h
  split at h <;> first | cases h | skip
  all_goals simp_all

theorem kind_object {sp : Spec} (h : sp.kind = some .object) : sp.vtyp = .single .dict := by
  unfold Spec.kind at h
  split at h <;> first | cases h | skip
  all_goals simp_all

theorem kind_words {sp : Spec} (h : sp.kind = some .words) (hc : sp.canon = sp) :
    sp = ⟨.list .str, sp.required, some .spSep, some spSepDeser, false⟩ := by
  unfold Spec.kind at h
  split at h <;> first | cases h | skip
  all_goals first | (split at h <;> cases h) | skip
  all_goals simp_all [Spec.canon]

theorem kind_array {sp : Spec} (h : sp.kind = some .array) (hc : sp.canon = sp) :
    sp = ⟨.list .str, sp.required, some .list, some listDeser, false⟩ := by
  unfold Spec.kind at h
  split at h <;> first | cases h | skip
  all_goals first | (split at h <;> cases h) | skip
  all_goals simp_all [Spec.canon]

theorem dhas_elim {α : Type} {d : Assoc α} {k : String} (h : dhas d k = true) : ∃ v, dget d k = some v := by
  cases hd : dget d k with
  | none => rw [(dhas_eq_false_iff _ k).2 hd] at h; cases h
  | some v => exact ⟨v, rfl⟩

theorem setItem_declared {sch : Schema} {st : Dict} {k : String} {sp : Spec} (hk : dget sch.params k = some sp) (v : Val) :
    setItem sch st k v = addValue sp st k v := by
  unfold setItem
  rw [hk]

/-- `v` is stored under `k`, the rest of the message stays as it is. -/
def Stores (sch : Schema) (k : String) (v w : Val) : Prop := ∀ st, setItem sch st k v = .ok (dset st k w)

/-- An assignment to `k` that succeeds stores `None` or a value with the property, or changes nothing. -/
def OnlyStores (sch : Schema) (k : String) (P : Val → Prop) : Prop := ∀ st st' v, setItem sch st k v = .ok st' →
  st' = st ∨ ∃ w, st' = dset st k w ∧ (w = .none ∨ P w)

/-- C129, numbers: in every class a parameter whose name stands for a number holds integers and nothing else; a text is
taken if it spells an integer. -/
theorem C129_number : ∀ sch ∈ allSchemas, ∀ k, dhas sch.params k = true → meaning sch.cls k = some .number →
    (∀ i, Stores sch k (.int i) (.int i)) ∧
    (∀ s i, pyIntOfString s = some i → Stores sch k (.str s) (.int i)) ∧
    (∀ s st, pyIntOfString s = none → setItem sch st k (.str s) = .error .valueError) ∧
    OnlyStores sch k (fun w => ∃ i, w = .int i) := by
  intro sch hs k hk hm
  obtain ⟨sp, hd⟩ := dhas_elim hk
  obtain ⟨hv, hn⟩ := kind_number (kind_of hs hd hm).1
  refine ⟨fun i st => ?_, fun s i h st => ?_, fun s st h => ?_, fun st st' v h => ?_⟩ <;> rw [setItem_declared hd] at *
  · simp [addValue, hv, ignoredList, singleValue, Ty.isInst]
  · simp [addValue, hv, ignoredList, singleValue, Ty.isInst, hn, coerceSingle, pyInt, h]
  · simp [addValue, hv, ignoredList, singleValue, Ty.isInst, hn, coerceSingle, pyInt, h]
  · unfold addValue at h
    split at h
    · cases h; exact .inl rfl
    · right
      rw [hv] at h
      simp only at h
      split at h
      · rename_i w hw
        cases h
        refine ⟨w, rfl, ?_⟩
        unfold singleValue at hw
        split at hw
        · cases hw; exact .inl rfl
        · cases hw
        · right
          split at hw
          · rename_i x h1 h2 h3
            cases hw
            cases v <;> simp [Ty.isInst] at h3
            · exact absurd rfl (h2 _)
            · exact ⟨_, rfl⟩
          · rw [hn] at hw
            simp only [coerceSingle] at hw
            split at hw
            · cases hw; exact ⟨_, rfl⟩
            · cases hw
      · cases h

/-- C129, truth values: only `True` and `False`, no texts and no numbers. -/
theorem C129_truth : ∀ sch ∈ allSchemas, ∀ k, dhas sch.params k = true → meaning sch.cls k = some .truth →
    (∀ b, Stores sch k (.bool b) (.bool b)) ∧ OnlyStores sch k (fun w => ∃ b, w = .bool b) := by
  intro sch hs k hk hm
  obtain ⟨sp, hd⟩ := dhas_elim hk
  obtain ⟨hv, hn⟩ := kind_truth (kind_of hs hd hm).1
  refine ⟨fun b st => ?_, fun st st' v h => ?_⟩ <;> rw [setItem_declared hd] at *
  · simp [addValue, hv, ignoredList, singleValue]
  · unfold addValue at h
    split at h
    · cases h; exact .inl rfl
    · right
      rw [hv] at h
      simp only at h
      split at h
      · rename_i w hw
        cases h
        refine ⟨w, rfl, ?_⟩
        unfold singleValue at hw
        split at hw
        · cases hw; exact .inl rfl
        · cases hw; exact .inr ⟨_, rfl⟩
        · right
          split at hw
          · rename_i h3
            cases hw
            cases v <;> simp [Ty.isInst] at h3
            exact ⟨_, rfl⟩
          · rw [hn] at hw
            simp [coerceSingle] at hw
      · cases h

/-- C129, texts: every text, nothing else. -/
theorem C129_text : ∀ sch ∈ allSchemas, ∀ k, dhas sch.params k = true → meaning sch.cls k = some .text →
    (∀ s, Stores sch k (.str s) (.str s)) ∧ OnlyStores sch k (fun w => ∃ s, w = .str s) := by
  intro sch hs k hk hm
  obtain ⟨sp, hd⟩ := dhas_elim hk
  obtain ⟨hv, hn⟩ := kind_text (kind_of hs hd hm).1
  refine ⟨fun s st => ?_, fun st st' v h => ?_⟩ <;> rw [setItem_declared hd] at *
  · simp [addValue, hv, ignoredList, singleValue, Ty.isInst]
  · unfold addValue at h
    split at h
    · cases h; exact .inl rfl
    · right
      rw [hv] at h
      simp only at h
      split at h
      · rename_i w hw
        cases h
        refine ⟨w, rfl, ?_⟩
        unfold singleValue at hw
        split at hw
        · cases hw; exact .inl rfl
        · cases hw
        · right
          split at hw
          · rename_i h3
            cases hw
            cases v <;> simp [Ty.isInst] at h3
            exact ⟨_, rfl⟩
          · rw [hn] at hw
            simp [coerceSingle] at hw
      · cases h

/-- C129, moments and objects: every text and every dict, respectively. -/
theorem C129_moment_object : ∀ sch ∈ allSchemas, ∀ k, dhas sch.params k = true →
    (meaning sch.cls k = some .moment → ∀ s, Stores sch k (.str s) (.str s)) ∧
    (meaning sch.cls k = some .object → ∀ d, Stores sch k (.dict d) (.dict d)) := by
  intro sch hs k hk
  obtain ⟨sp, hd⟩ := dhas_elim hk
  refine ⟨fun hm s st => ?_, fun hm d st => ?_⟩ <;> rw [setItem_declared hd]
  · have hv := kind_moment (kind_of hs hd hm).1
    simp [addValue, hv, ignoredList, singleValue, Ty.isInst]
  · have hv := kind_object (kind_of hs hd hm).1
    simp [addValue, hv, ignoredList, singleValue, Ty.isInst]

theorem find_cls : (l : List Schema) → (l.map Schema.cls).Nodup → ∀ s ∈ l, l.find? (fun x => x.cls == s.cls) = some s
  | [], _, s, h => absurd h (List.not_mem_nil)
  | x :: l, hn, s, h => by
    rw [List.map_cons, List.nodup_cons] at hn
    rcases List.mem_cons.1 h with rfl | h
    · simp
    · rw [List.find?_cons_of_neg]
      · exact find_cls l hn.2 s h
      · intro e
        exact hn.1 (beq_iff_eq.1 e ▸ List.mem_map_of_mem h)

theorem libEnv_declared {sch : Schema} (hs : sch ∈ allSchemas) {k : String} {sp : Spec} (hk : dget sch.params k = some sp) :
    libEnv sch.cls k = sp.ser := by
  have : (allSchemas.map Schema.cls).Nodup := by decide +kernel
  simp only [libEnv, SerEnv.ser]
  rw [find_cls _ this sch hs]
  simp [serFor, lookupSpec_declared hk]

/-- C129, lists of words: a text is taken apart at its spaces, and written like that again; a list is kept if it is not one
string with spaces in it. -/
theorem C129_words : ∀ sch ∈ allSchemas, ∀ k, dhas sch.params k = true → meaning sch.cls k = some .words →
    ∀ ss, ss ≠ [] → (∀ s ∈ ss, ' ' ∉ s.toList) →
      Stores sch k (.str (pyJoin ' ' ss)) (.list (ss.map .str)) ∧ Stores sch k (.list (ss.map .str)) (.list (ss.map .str)) ∧
      toDict libEnv sch.cls [(k, .list (ss.map .str))] = .ok [(k, .str (pyJoin ' ' ss))] := by
  intro sch hs k hk hm ss hne hsp
  obtain ⟨sp, hd⟩ := dhas_elim hk
  obtain ⟨h1, h2⟩ := kind_of hs hd hm
  have he := kind_words h1 h2
  have hst : StrListSpec sp := he ▸ .spSep _
  refine ⟨fun st => ?_, fun st => ?_, ?_⟩
  · rw [setItem_declared hd, addValue_text hst, pySplit_pyJoin hne hsp]
  · rw [setItem_declared hd, addValue_strs hst hne (fun _ s e => hsp s (e ▸ List.mem_cons_self ..))]
  · have hl : libEnv sch.cls k = some .spSep := by rw [libEnv_declared hs hd, he]
    have h3 : serDict libEnv (some .spSep) (.list (ss.map .str)) = .ok (.str (pyJoin ' ' ss)) := by
      rw [serDict]
      simp only [spaceJoin, joinStrs_map]
    simp only [toDict, hl, h3]
    rfl

/-- C129, arrays: a list of strings is kept and written as it is, whatever the strings. -/
theorem C129_array : ∀ sch ∈ allSchemas, ∀ k, dhas sch.params k = true → meaning sch.cls k = some .array →
    ∀ ss, ss ≠ [] → Stores sch k (.list (ss.map .str)) (.list (ss.map .str)) ∧
      toDict libEnv sch.cls [(k, .list (ss.map .str))] = .ok [(k, .list (ss.map .str))] := by
  intro sch hs k hk hm ss hne
  obtain ⟨sp, hd⟩ := dhas_elim hk
  obtain ⟨h1, h2⟩ := kind_of hs hd hm
  have he := kind_array h1 h2
  have hst : StrListSpec sp := he ▸ .plain _
  refine ⟨fun st => ?_, ?_⟩
  · rw [setItem_declared hd, addValue_strs hst hne (fun e => by rw [he] at e; cases e)]
  · have hl : libEnv sch.cls k = some .list := by rw [libEnv_declared hs hd, he]
    obtain ⟨s, r, rfl⟩ := List.exists_cons_of_ne_nil hne
    simp [toDict, hl, serDict, bind, Except.bind]

/-- C129: a value that is not blank enters by `from_dict` as by an assignment. -/
theorem C129_loaded (sch : Schema) (k : String) (hk : dhas sch.params k = true) (v : Val) (hb : v ≠ .str "")
    (hb' : v ≠ .list [.str ""]) (st : Dict) : fromDictR sch st [(k, v)] = setItem sch st k v := by
  obtain ⟨sp, hd⟩ := dhas_elim hk
  have : isBlank v = false := by
    unfold isBlank
    split
    · simpa using hb
    · simpa using hb'
    · rfl
  rw [setItem_declared hd]
  simp only [fromDictR, fromDict, addItem, this, lookupSpec_declared hd, Bool.false_and, Bool.false_eq_true, if_false]
  cases addValue sp st k v <;> rfl

/-- C129: every parameter of every class has its place in the tables. -/
theorem C129_covered : ∀ sch ∈ allSchemas, ∀ k, dhas sch.params k = true → (meaning sch.cls k).isSome = true := by
  intro sch hs k hk
  obtain ⟨sp, hd⟩ := dhas_elim hk
  obtain ⟨h1, h2⟩ := kinds sch hs _ (dget_mem hd)
  rw [← h1]
  exact Option.isSome_iff_ne_none.2 h2

/-- **C129** as stated is false: the `scope` of a device authorization request is one text, a list is refused, whereas the
authorization requests take both and store a list. -/
theorem C129_counterexample_scope (st : Dict) :
    Stores device_AuthorizationRequest "scope" (.str "openid email") (.str "openid email") ∧
    setItem device_AuthorizationRequest st "scope" (.list [.str "openid"]) = .error .valueError ∧
    Stores oidc_AuthorizationRequest "scope" (.str "openid email") (.list [.str "openid", .str "email"]) ∧
    Stores oidc_AuthorizationRequest "scope" (.list [.str "openid"]) (.list [.str "openid"]) := by
  have hd : dget oidc_AuthorizationRequest.params "scope" = some requiredListOfSpSepStrings := rfl
  have hd' : dget device_AuthorizationRequest.params "scope" = some singleOptionalString := rfl
  have hsp : pySplit ' ' "openid email" = ["openid", "email"] := by decide +kernel
  refine ⟨fun st => ?_, ?_, fun st => ?_, fun st => ?_⟩
  · rw [setItem_declared hd']; rfl
  · rw [setItem_declared hd']; rfl
  · exact (setItem_declared hd _).trans ((addValue_text (.spSep true) _ st _).trans (by rw [hsp]; rfl))
  · exact (setItem_declared hd _).trans
      (addValue_strs (ss := ["openid"]) (.spSep true) (by simp) (fun _ s e => by cases e; decide +kernel) st _)

/-- **C129** as stated is false: a key given as the standard says is refused, and so is a list of nationalities. -/
theorem C129_counterexample_text (st d : Dict) (v : Val) (l : List Val) (h : v.isNone = false):
    setItem oidc_IdToken st "sub_jwk" (.dict d) = .error .valueError ∧
    setItem ida_IdentityAssuranceClaims st "nationalities" (.list (v :: l)) = .error .valueError := by
  have hd : dget oidc_IdToken.params "sub_jwk" = some singleOptionalString := rfl
  have hd' : dget ida_IdentityAssuranceClaims.params "nationalities" = some singleOptionalString := rfl
  rw [setItem_declared hd, setItem_declared hd']
  simp [addValue, singleOptionalString, ignoredList, h, singleValue, Ty.isInst, coerceSingle]

example : oidc_IdToken.cls = ⟨"oidc", "IdToken"⟩ ∧ meaning oidc_IdToken.cls "exp" = some .number ∧
    meaning oauth2_TokenIntrospectionResponse.cls "active" = some .truth ∧
    meaning oidc_AuthorizationRequest.cls "scope" = some .words ∧ meaning oidc_IdToken.cls "aud" = some .array ∧
    pyIntOfString "3600" = some 3600 ∧ pyIntOfString "soon" = none := by decide +kernel

end Verif
