import Verif.Props.Order
import Verif.Props.Encrypted
import Verif.Props.VerdictOwn
import Verif.Props.FormIn

/-!
# C153: error responses are recognised as such
-/

namespace Verif

/-! ## documents -/

theorem objectOf_nodup (l : List (String × Val)) : DNodup (objectOf l) := by
  unfold objectOf
  suffices ∀ d : Dict, DNodup d → DNodup (l.foldl (fun d p => dset d p.1 p.2) d) from this [] (by simp [DNodup])
  induction l with
  | nil => intro d h; exact h
  | cons p l ih => intro d h; exact ih _ (dset_nodup h _ _)

theorem docText_nodup {d : Dict} {s : List Char} (h : DocText (.dict d) s) : DNodup d := by
  obtain ⟨w, t, w', -, hv, -, -⟩ := h
  cases hv with
  | number hn => cases hn
  | emptyObject _ => simp [DNodup]
  | object _ _ => exact objectOf_nodup _

/-- the values that are passed over in a response -/
inductive Nothing : Val → Prop
  | text : Nothing (.str "")
  | texts : Nothing (.list [.str ""])
  | list : Nothing (.list [])
  | nulls {l : List Val} : Nothing (.list (.none :: l))

/-- the class is a response: it declares `error` as an optional text -/
def DeclaresError (sch : Schema) : Prop := lookupSpec sch.params "error" = some (false, singleOptionalString)

/-- **C153, JSON.**  A response read from a document is an error message if and only if the document has the member `error`, with something
for a value. -/
theorem C153_json {sch : Schema} (hd : dhas sch.default "error" = false) (he : DeclaresError sch) {d r : Dict} {s : List Char}
    (hs : DocText (.dict d) s) (h : fromJson sch sch.default (String.ofList s) = .ok r) :
    isErrorMessage r = true ↔ ∃ v, dget d "error" = some v ∧ ¬ Nothing v := by
  obtain ⟨d', hs', h'⟩ := (C145_from_json sch _ _ _).1 h
  have e := ((C145_grammar _ _).2 hs).symm.trans ((C145_grammar _ _).2 hs')
  cases e
  unfold fromDictR at h'
  split at h'
  · next st' hf =>
    cases h'
    unfold isErrorMessage
    have hd0 : dget sch.default "error" = none := by simpa [dhas] using hd
    cases hv : dget d "error" with
    | none =>
      have := fromDict_get_other hf ((dget_eq_none_iff _ _).1 hv)
      simp [dhas, this, hd0]
    | some v =>
      obtain ⟨st1, st2, h1, h2, h3⟩ := fromDict_get_mem (docText_nodup hs) hf hv
      rw [hd0] at h1
      simp only [dhas, h3, Option.some.injEq, exists_eq_left']
      unfold addItem at h2
      by_cases hb : isBlank v = true
      · rw [if_pos hb] at h2
        cases h2
        rw [h1]
        have : Nothing v := by
          unfold isBlank at hb
          split at hb
          · rw [beq_iff_eq] at hb; subst hb; exact .text
          · rw [beq_iff_eq] at hb; subst hb; exact .texts
          · cases hb
        simp [this]
      · rw [if_neg hb, he] at h2
        simp only [Bool.false_and, Bool.false_eq_true, if_false] at h2
        unfold addValue at h2
        by_cases hi : ignoredList singleOptionalString v = true
        · rw [if_pos hi] at h2
          cases h2
          rw [h1]
          have : Nothing v := by
            unfold ignoredList at hi
            split at hi
            · exact .list
            · next w l =>
              cases w with
              | none => exact .nulls
              | _ => simp [Val.isNone] at hi
            · cases hi
          simp [this]
        · rw [if_neg hi] at h2
          have hn : ¬ Nothing v := by
            rintro (_ | _ | _ | _)
            · exact hb rfl
            · exact hb rfl
            · exact hi rfl
            · exact hi rfl
          simp only [hn, not_false_eq_true, iff_true]
          have hsv : singleOptionalString.vtyp = .single .str := rfl
          rw [hsv] at h2
          simp only [] at h2
          split at h2
          · cases h2; rw [dget_dset_same]; rfl
          · cases h2
  · cases h'

/-- the responses of the library -/
theorem C153_classes : ∀ sch ∈ [oauth2_ResponseMessage, oauth2_AuthorizationErrorResponse, oauth2_TokenErrorResponse, oauth2_AuthorizationResponse,
    oauth2_AccessTokenResponse, oauth2_ASConfigurationResponse, oidc_TokenErrorResponse, oidc_AccessTokenResponse, oidc_AuthorizationResponse,
    oidc_AuthorizationErrorResponse, oidc_OpenIDSchema, oidc_RegistrationResponse, oidc_ClientRegistrationErrorResponse,
    oidc_ProviderConfigurationResponse, oidc_UserInfoErrorResponse, session_RefreshSessionResponse, session_EndSessionResponse],
    dhas sch.default "error" = false ∧ DeclaresError sch := by
  intro sch h
  simp only [List.mem_cons, List.not_mem_nil, or_false] at h
  rcases h with rfl | rfl | rfl | rfl | rfl | rfl | rfl | rfl | rfl | rfl | rfl | rfl | rfl | rfl | rfl | rfl | rfl <;>
    exact ⟨by decide +kernel, rfl⟩

/-- a document with an error, and one without -/
example : DocText (.dict [("error", .str "slow_down")]) "{\"error\": \"slow_down\"}".toList ∧
    (fromJson oauth2_AccessTokenResponse oauth2_AccessTokenResponse.default "{\"error\": \"slow_down\"}").toOption.map isErrorMessage = some true ∧
    (fromJson oauth2_AccessTokenResponse oauth2_AccessTokenResponse.default "{\"error\": null}").toOption.map isErrorMessage = some true ∧
    (fromJson oauth2_AccessTokenResponse oauth2_AccessTokenResponse.default "{\"error\": \"\"}").toOption.map isErrorMessage = some false :=
  ⟨(C145_grammar _ _).1 (by decide +kernel), by decide +kernel, by decide +kernel, by decide +kernel⟩

/-! ## forms -/

/-- **C153, forms.**  A message of any class read from a form is an error message if and only if the form has a pair for `error` with a value
that is not empty. -/
theorem C153_form {sch : Schema} (hd : dhas sch.default "error" = false) {ts : List ((String × String) × List Char)}
    (ht : ∀ x ∈ ts, EncodedPair x.1 x.2) {r : Dict}
    (h : fromUrlencoded sch sch.default (String.ofList (joinC '&' (ts.map (·.2)))) = .ok r) :
    isErrorMessage r = true ↔ ∃ v, ("error", v) ∈ ts.map (·.1) ∧ v ≠ "" := by
  unfold fromUrlencoded at h
  simp only [] at h
  split at h
  · cases h
  · have hg := addUrls_get (parseQs_nodup _) h "error"
    have hd0 : dget sch.default "error" = none := by simpa [dhas] using hd
    have hq := dget_parseQs (String.ofList (joinC '&' (ts.map (·.2)))) "error"
    rw [C124_pairs ts ht, valuesOf_nonblank] at hq
    have hx : (valuesOf "error" (ts.map (·.1))).filter (fun v => !decide (v = "")) = [] ↔ ¬ ∃ v, ("error", v) ∈ ts.map (·.1) ∧ v ≠ "" := by
      rw [List.filter_eq_nil_iff]
      unfold valuesOf
      constructor
      · rintro hall ⟨v, hm, hne⟩
        have := hall v (List.mem_map.2 ⟨("error", v), List.mem_filter.2 ⟨hm, by simp⟩, rfl⟩)
        simp [hne] at this
      · intro hno v hm
        obtain ⟨⟨k, v'⟩, hm', rfl⟩ := List.mem_map.1 hm
        obtain ⟨hm1, hm2⟩ := List.mem_filter.1 hm'
        simp only [decide_eq_true_eq] at hm2
        subst hm2
        by_cases he : v' = ""
        · simp [he]
        · exact absurd ⟨v', hm1, he⟩ hno
    unfold isErrorMessage dhas
    by_cases hc : (valuesOf "error" (ts.map (·.1))).filter (fun v => !decide (v = "")) = []
    · rw [if_pos hc] at hq
      rw [hq] at hg
      simp only [] at hg
      rw [hg, hd0]
      exact ⟨fun h => (nomatch h), fun h => absurd h (hx.1 hc)⟩
    · rw [if_neg hc] at hq
      rw [hq] at hg
      obtain ⟨x, hx', -⟩ := hg
      rw [hx']
      have := fun hno => hc (hx.2 hno)
      simp only [Option.isSome_some, true_iff]
      exact Classical.byContradiction this

/-- a form with an error, and one without -/
example : (fromUrlencoded oauth2_AuthorizationResponse [] "error=access_denied&state=x").toOption.map isErrorMessage = some true ∧
    (fromUrlencoded oauth2_AuthorizationResponse [] "error=&state=x").toOption.map isErrorMessage = some false := by decide +kernel

/-- **C153, between parties.**  What the sender takes for an error message the receiver does, too, and nothing else. -/
theorem C153_sent {sch : Schema} {st r : Dict} (h : Sent sch st r) : isErrorMessage r = isErrorMessage st := by
  unfold isErrorMessage dhas
  rw [h.same]

/-! ## verification -/

theorem verifyBase_without {sch : Schema} {name : String} {v : Val} (ha : dget sch.allowed name = none)
    (hr : ∀ sp, (name, sp) ∈ sch.params → sp.required = false) (st : Dict) :
    verifyBase sch (dset st name v) = verifyBase sch st := by
  unfold verifyBase
  generalize sch.params = ps at hr
  induction ps with
  | nil => rfl
  | cons p ps ih =>
    obtain ⟨a, sp⟩ := p
    have e : verifyParam sch.allowed (dset st name v) a sp = verifyParam sch.allowed st a sp := by
      unfold verifyParam
      by_cases hn : name = a
      · subst hn
        rw [dget_dset_same]
        have hq := hr sp (by simp)
        simp only [ha, hq]
        cases dget st name with
        | none => simp
        | some w => simp
      · rw [dget_dset_ne _ _ hn]
    simp only [verifyParams, e, ih fun sp' hm => hr sp' (by simp [hm])]

theorem responseVerify_without {sch : Schema} {v : Val} (ha : dget sch.allowed "error" = none)
    (hr : ∀ p ∈ sch.params, p.1 = "error" → p.2.required = false) (st : Dict) :
    responseVerify sch (dset st "error" v) = responseVerify sch st := by
  unfold responseVerify errorDescription
  rw [verifyBase_without ha (fun sp hm => hr _ hm rfl), dget_dset_ne _ _ (by decide)]

theorem equalAt_error_clear (st : Dict) (e : Val) :
    EqualAt (OtherThan "error") (clearVerifiedClaims st) (clearVerifiedClaims (dset st "error" e)) := by
  intro k hk
  rw [clear_dset (by rintro (h | h | h) <;> simp at h)]
  exact dget_dset_ne _ _ (fun h => hk h.symm)

/-- **C153, counterexample.**  That a response says that there was an error makes no difference to `verify`, neither for the responses
of the token endpoint … -/
theorem C153_counterexample_token (C : Crypto) (now : Int) (st : Dict) (e : Val) (jar : JarArg C) (kw : Dict) :
    isErrorMessage (dset st "error" e) = true ∧
    Alike (EqualAt (OtherThan "error")) (accessTokenResponseVerify C now st jar kw)
      (accessTokenResponseVerify C now (dset st "error" e) jar kw) := by
  refine ⟨by simp [isErrorMessage, dhas, dget_dset_same], ?_⟩
  unfold accessTokenResponseVerify
  refine alike_seq (responseVerify_without (sch := oidc_AccessTokenResponse) rfl (by decide +kernel) st) fun _ => ?_
  exact verifyIfPresent_alike (equalAt_error_clear st e) (show "id_token" ≠ "error" by decide) (by simp)

/-- … nor for those of the authorization endpoint. -/
theorem C153_counterexample_authz (C : Crypto) (now : Int) (st : Dict) (e : Val) (jar : JarArg C) (kw : Dict) :
    isErrorMessage (dset st "error" e) = true ∧
    Alike (fun a b => b.1 = a.1 ∧ EqualAt (OtherThan "error") a.2 b.2) (authzResponseVerify C now st jar kw)
      (authzResponseVerify C now (dset st "error" e) jar kw) := by
  refine ⟨by simp [isErrorMessage, dhas, dget_dset_same], ?_⟩
  have hc := equalAt_error_clear st e
  unfold authzResponseVerify
  refine alike_seq ?_ fun _ => ?_
  · unfold oauth2AuthzResponseVerify
    rw [responseVerify_without (sch := oidc_AuthorizationResponse) rfl (by decide +kernel),
      matchArg_same kw _ (dget_dset_ne _ _ (by decide)), matchArg_same kw _ (dget_dset_ne _ _ (by decide))]
  refine alike_seq ?_ fun mine => ?_
  · unfold forMe
    rw [hc "aud" (show "aud" ≠ "error" by decide)]
  unfold authzResponseRest
  cases mine with
  | false => exact ⟨rfl, hc⟩
  | true =>
    simp only [if_true]
    refine alike_map (verifyIfPresent_alike (b := true) hc (show "id_token" ≠ "error" by decide)
      fun _ => ⟨show "access_token" ≠ "error" by decide, show "code" ≠ "error" by decide⟩) ?_
    exact fun a b hab => ⟨rfl, hab⟩

/-- A response that says nothing but that the authorization was denied is accepted as an authorization response. -/
theorem C153_counterexample_denied (C : Crypto) (now : Int) (jar : JarArg C) (kw : Dict) :
    isErrorMessage [("error", .str "access_denied")] = true ∧
    authzResponseVerify C now [("error", .str "access_denied")] jar kw = .ok (true, [("error", .str "access_denied")]) := by
  refine ⟨rfl, ?_⟩
  have h : responseVerify oidc_AuthorizationResponse [("error", .str "access_denied")] = .ok () := by decide +kernel
  unfold authzResponseVerify oauth2AuthzResponseVerify
  rw [h]
  rfl

end Verif
