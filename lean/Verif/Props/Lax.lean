import Verif.Model.Lax
import Verif.Props.RoundTrip
import Verif.Props.Required

/-!
# C167: what `lax` changes
-/

namespace Verif

/-- C167: without `lax` the functions are the ones the other theorems are about. -/
theorem C167_not_lax (env : SerEnv) (sch : Schema) (st : Dict) :
    toUrlencodedWith false env sch st = toUrlencoded env sch st ∧
    ∀ loc frag, requestWith false env sch st loc frag = request env sch st loc frag :=
  ⟨rfl, fun _ _ => rfl⟩

/-- C167: a message that has everything required is treated alike, lax or not: written in the same text or refused with
the same exception. -/
theorem C167_complete (env : SerEnv) (sch : Schema) (st : Dict) (h : ¬ RequiredMissing sch st) :
    toUrlencodedWith true env sch st = toUrlencoded env sch st ∧
    ∀ loc frag, requestWith true env sch st loc frag = request env sch st loc frag := by
  have hm : ¬ sch.params.any (fun p => p.2.required && !dhas st p.1) = true := by
    rw [anyMissing_iff]; exact h
  have e : toUrlencodedWith true env sch st = toUrlencoded env sch st := by
    rw [toUrlencodedWith, if_pos rfl, toUrlencoded, urlFinish, if_neg hm]
  refine ⟨e, fun loc frag => ?_⟩
  rw [requestWith, e]
  rfl

/-- C167: `lax` never changes a text: what is written by a message that is not lax is written by a lax one. -/
theorem C167_same_text (env : SerEnv) (sch : Schema) (st : Dict) (txt : String)
    (h : toUrlencoded env sch st = .ok txt) : toUrlencodedWith true env sch st = .ok txt := by
  have hm : ¬ RequiredMissing sch st := by
    intro hm
    obtain ⟨e, he⟩ := (C11_refused env sch st hm).1
    rw [he] at h; cases h
  rw [(C167_complete env sch st hm).1, h]

/-- C167: nothing that is required of a lax message is insisted on: `MissingRequiredAttribute` is raised for an incomplete
message in one of its lists only. -/
theorem C167_not_missing (env : SerEnv) (sch : Schema) (st : Dict) (hl : ¬ ListedLacks env st) :
    toUrlencodedWith true env sch st ≠ .error .missingRequiredAttribute ∧
    ∀ loc frag, requestWith true env sch st loc frag ≠ .error .missingRequiredAttribute := by
  have key : toUrlencodedWith true env sch st ≠ .error .missingRequiredAttribute := by
    intro h
    rw [toUrlencodedWith, if_pos rfl] at h
    exact hl (urlPairsAll_missing env false sch.params st (map_missing h))
  refine ⟨key, fun loc frag h => ?_⟩
  unfold requestWith at h
  rcases bind_missing h with h | ⟨a, _, h⟩
  · exact key h
  · split at h
    · cases h
    · split at h <;> cases h

/-- C167: a lax message whose values all survive a form is read back as it was, whatever is missing from it. -/
theorem C167_roundtrip (env : SerEnv) (sch : Schema) (st : Dict) (hn : DNodup st) (hne : st ≠ [])
    (h : ∀ k v, (k, v) ∈ st → UrlReturns sch k v (some v)) :
    ∃ txt, toUrlencodedWith true env sch st = .ok txt ∧ fromUrlencoded sch [] txt = .ok st := by
  obtain ⟨ps, bl, h1, h2, h3, h4, h5⟩ :=
    url_all env sch (fun _ v => some v) st hn (fun k v hm => entry_url env sch k v _ (h k v hm))
  have hid : st.filterMap (fun p => (some p.2).map (fun x => (p.1, x))) = st := by simp
  rw [hid] at h4
  have hq : parseQs (urlencode ps) = bl := by
    have := h2 [] (by simp)
    rw [parseQs, parseQsl_urlencode, this]; rfl
  have hbl : bl ≠ [] := by rw [ne_eq, h4]; exact hne
  refine ⟨urlencode ps, ?_, ?_⟩
  · rw [toUrlencodedWith, if_pos rfl, h1]; rfl
  · simp only [fromUrlencoded, hq, hbl, and_false, if_false, h5, hid]
    rw [dupdate_nil_left hn]

/-- C167: being lax is a matter of the sender.  The receiver reads such a message, and refuses it when verifying it for
what is missing, unless another value is refused first. -/
theorem C167_receiver (env : SerEnv) (sch : Schema) (st : Dict) (hn : DNodup st) (hne : st ≠ [])
    (h : ∀ k v, (k, v) ∈ st → UrlReturns sch k v (some v)) (hreq : RequiredMissing sch st)
    (hstar : ∀ sp, ("*", sp) ∈ sch.params → sp.required = false) :
    (∃ e, toUrlencoded env sch st = .error e) ∧
    ∃ txt r e, toUrlencodedWith true env sch st = .ok txt ∧ fromUrlencoded sch [] txt = .ok r ∧
      verifyBase sch r = .error e ∧ (e = .missingRequiredAttribute ∨ e = .notAllowedValue) := by
  refine ⟨(C11_refused env sch st hreq).1, ?_⟩
  obtain ⟨txt, h1, h2⟩ := C167_roundtrip env sch st hn hne h
  have hna : ¬ Acceptable sch st := by
    intro ha
    obtain ⟨a, sp, hm, hr, hk⟩ := hreq
    have hs : a ≠ "*" := by
      rintro rfl
      rw [hstar sp hm] at hr; cases hr
    obtain ⟨v, hv, _⟩ := (ha a sp hm hs).1 hr
    exact hk ((dget_isSome_iff st a).1 (by rw [hv]; rfl))
  rw [← C04_verify_iff] at hna
  cases hv : verifyBase sch st with
  | ok u => exact absurd hv hna
  | error e =>
    refine ⟨txt, st, e, h1, h2, hv, ?_⟩
    rcases C04_verify_errors sch st e hv with ⟨he, _⟩ | ⟨he, _⟩
    · exact .inl he
    · exact .inr he

/-- an authorization request without its `client_id`: refused, or written when lax -/
example : toUrlencoded libEnv oauth2_AuthorizationRequest [("response_type", .list [.str "code"])] =
      .error .missingRequiredAttribute ∧
    toUrlencodedWith true libEnv oauth2_AuthorizationRequest [("response_type", .list [.str "code"])] =
      .ok "response_type=code" ∧
    requestWith true libEnv oauth2_AuthorizationRequest [("response_type", .list [.str "code"])] "https://a/b" false =
      .ok "https://a/b?response_type=code" := by
  decide +kernel

/-- the hypotheses of the last two theorems on it -/
example : DNodup ([("response_type", .list [.str "code"])] : Dict) ∧
    RequiredMissing oauth2_AuthorizationRequest [("response_type", .list [.str "code"])] ∧
    UrlReturns oauth2_AuthorizationRequest "response_type" (.list [.str "code"]) (some (.list [.str "code"])) ∧
    ∀ sp, ("*", sp) ∈ oauth2_AuthorizationRequest.params → sp.required = false := by
  refine ⟨by simp [DNodup, dkeys], ?_, ?_, ?_⟩
  · rw [← anyMissing_iff]; decide +kernel
  · exact .strList (ss := ["code"]) ⟨false, requiredListOfSpSepStrings, rfl, rfl, .inr ⟨rfl, rfl⟩⟩
      (by decide) (by decide) (by decide)
  · intro sp h
    simp [oauth2_AuthorizationRequest] at h

end Verif
