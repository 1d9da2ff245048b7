import Verif.Props.RefusedTokens

/-!
# C133 for the forms of all classes
-/

namespace Verif

/-- an expected exception, or the `AttributeError` for a JSON document that is not an object -/
def FormError (e : Exc) : Prop := e.expected = true ∨ e = .attributeError ∨ e = .unmodelled

/-- reading forms of the class raises nothing else -/
def FormOk (sch : Schema) : Prop := ∀ st txt e, fromUrlencoded sch st txt = .error e → FormError e

/-- reading data into the class raises nothing else -/
def DataOk (sch : Schema) : Prop := ∀ st d e, fromDictR sch st d = .error e → FormError e

/-- neither does the deserialiser on a text of a form -/
def TextOk (f : Val → Fmt → Res Val) : Prop := ∀ s e, f (.str s) .urlencoded = .error e → FormError e

theorem dataOk {sch : Schema} (hs : sch ∈ allSchemas) : DataOk sch := by
  intro st d e h
  rcases read_tolerable hs st d e h with h | h
  · exact .inl h
  · exact .inr (.inr h)

theorem dataOk_message : DataOk messageSchema := by
  intro st d e h
  exfalso
  induction d generalizing st with
  | nil => cases h
  | cons p d ih =>
    obtain ⟨k, v⟩ := p
    unfold fromDictR fromDict at h
    have : ∃ st', addItem messageSchema st k v = .ok st' := by
      unfold addItem
      split
      · exact ⟨_, rfl⟩
      · exact ⟨_, rfl⟩
    obtain ⟨st', hst⟩ := this
    rw [hst] at h
    exact ih _ h

theorem formOk_of {sch : Schema} (hd : ∀ q ∈ sch.params, ∀ f, q.2.deser = some f → TextOk f) : FormOk sch := by
  intro st txt e h
  unfold fromUrlencoded at h
  dsimp only at h
  split at h
  · cases h; exact .inl rfl
  · have hv := parseQs_values txt
    have key : ∀ (ps : List (String × List String)) (st : Dict), (∀ p ∈ ps, p.2 ≠ []) → addUrls sch st ps = .error e → FormError e := by
      intro ps
      induction ps with
      | nil => intro st _ h; cases h
      | cons p ps ih =>
        intro st hne h
        obtain ⟨k, vs⟩ := p
        unfold addUrls at h
        split at h
        · rename_i e' ha
          cases h
          unfold addUrl at ha
          dsimp only at ha
          split at ha
          · split at ha <;> cases ha
          · rename_i b sp hl
            obtain ⟨n, hn⟩ := lookupSpec_mem hl
            have hde : ∀ {f : Val → Fmt → Res Val} {v : String}, sp.deser = some f →
                (f (.str v) .urlencoded >>= fun x => (.ok (dset st k x) : Res Dict)) = .error e → FormError e := by
              intro f v hf h
              cases hx : f (.str v) .urlencoded with
              | ok x => rw [hx] at h; cases h
              | error e' =>
                rw [hx] at h
                cases h
                exact hd _ hn f hf _ _ hx
            split at ha
            · split at ha
              · rename_i f hf
                split at ha
                · exact hde hf ha
                · exact absurd rfl (hne _ (List.mem_cons_self ..))
              · cases ha
            · split at ha
              · split at ha
                · rename_i f hf
                  exact hde hf ha
                · cases ha
              · cases ha; exact .inl rfl
        · exact ih _ (fun p hp => hne p (List.mem_cons_of_mem _ hp)) h
    exact key _ _ hv h

theorem simple_text {sp : Spec} (hc : sp.simplified = sp) (hs : sp.simple = true) {f : Val → Fmt → Res Val} (hf : sp.deser = some f) :
    TextOk f := by
  intro s e h
  rcases simple_deser hc hs hf h with rfl | rfl
  · exact .inl rfl
  · exact .inr (.inr rfl)

/-- it is enough to look at the parameters that are not simple -/
theorem formOk {sch : Schema} (hs : sch ∈ allSchemas) {l : List (String × Spec)} (hl : sch.params.filter (fun q => !q.2.simple) = l)
    (h : ∀ q ∈ l, ∀ f, q.2.deser = some f → TextOk f) : FormOk sch := by
  refine formOk_of fun q hq f hf => ?_
  cases hsp : q.2.simple with
  | true => exact simple_text (simplified_eq hs hq) hsp hf
  | false => exact h q (by rw [← hl]; exact List.mem_filter.2 ⟨hq, by simp [hsp]⟩) f hf

theorem formOk_message : FormOk messageSchema := formOk_of fun q hq => by cases hq

/-! ### The deserialisers -/

theorem json_text {sch : Schema} (hd : DataOk sch) {s : String} {e : Exc} (h : deserializeMsg sch (.str s) .json = .error e) :
    FormError e := by
  unfold deserializeMsg deserialize loadsVal at h
  cases hl : loads s with
  | error e' =>
    simp only [hl] at h
    cases h
    rcases loads_error hl with rfl | rfl
    · exact .inl rfl
    · exact .inr (.inr rfl)
  | ok v =>
    simp only [hl] at h
    cases hi : v.itemsOf with
    | error e' =>
      have : e' = .attributeError := by cases v <;> simp [Val.itemsOf] at hi <;> exact hi.symm
      subst this
      simp only [bind, Except.bind, hi, Except.map] at h
      cases h; exact .inr (.inl rfl)
    | ok d =>
      cases hr : fromDictR sch sch.default d with
      | ok st => simp only [bind, Except.bind, hi, hr, Except.map] at h; cases h
      | error e' =>
        simp only [bind, Except.bind, hi, hr, Except.map] at h
        cases h; exact hd _ _ _ hr

theorem form_text {sch : Schema} (hf : FormOk sch) {s : String} {e : Exc} (h : deserializeMsg sch (.str s) .urlencoded = .error e) :
    FormError e := by
  unfold deserializeMsg deserialize at h
  cases hr : fromUrlencoded sch sch.default s with
  | ok st => simp only [hr, Except.map] at h; cases h
  | error e' =>
    simp only [hr, Except.map] at h
    cases h; exact hf _ _ _ hr

theorem oneOf_text {sch : Schema} (hf : FormOk sch) (hd : DataOk sch) : TextOk (deserializeFromOneOf sch) := by
  intro s e h
  have key : ∀ fs : List Fmt, (∀ f ∈ fs, f = .urlencoded ∨ f = .json) → tryFormats sch (.str s) fs = .error e → FormError e := by
    intro fs
    induction fs with
    | nil => intro _ h; cases h; exact .inl rfl
    | cons f fs ih =>
      intro hfs h
      unfold tryFormats at h
      split at h
      · cases h
      · exact ih (fun f hf => hfs f (List.mem_cons_of_mem _ hf)) h
      · rename_i e' _ he
        cases h
        rcases hfs f (List.mem_cons_self ..) with rfl | rfl
        · exact form_text hf he
        · exact json_text hd he
  exact key _ (by simp) h

theorem msg_text {sch : Schema} (hf : FormOk sch) : TextOk (msgDeserFor sch) := by
  intro s e h
  simp only [msgDeserFor, Val.isMsg, Bool.false_eq_true, if_false, if_true] at h
  exact form_text hf h

theorem jsonMsg_text {sch : Schema} (hd : DataOk sch) : TextOk (jsonMsgDeser sch) := by
  intro s e h
  simp only [jsonMsgDeser, textOf, Val.isStr, if_true] at h
  exact json_text hd h

theorem link_text {sch : Schema} (hf : FormOk sch) : TextOk (linkDeser sch) := by
  intro s e h
  simp only [linkDeser, lDeser] at h
  exact form_text hf h

theorem mapDeser_text {g : Val → Fmt → Res Val} (hg : TextOk g) : ∀ {l : List Val} {e : Exc}, (∀ v ∈ l, ∃ s, v = .str s) →
    mapDeser g .urlencoded l = .error e → FormError e
  | [], _, _, h => by cases h
  | v :: l, e, hl, h => by
    obtain ⟨s, rfl⟩ := hl v (List.mem_cons_self ..)
    unfold mapDeser at h
    cases hx : g (.str s) .urlencoded with
    | error e' => rw [hx] at h; cases h; exact hg _ _ hx
    | ok x =>
      rw [hx] at h
      cases hy : mapDeser g .urlencoded l with
      | error e' =>
        simp only [bind, Except.bind, hy] at h
        cases h
        exact mapDeser_text hg (fun v hv => hl v (List.mem_cons_of_mem _ hv)) hy
      | ok y => simp only [bind, Except.bind, hy] at h; cases h

theorem evidence_text {sch : Schema} (hf : FormOk sch) (hd : DataOk sch) : TextOk (evidenceListDeser sch) := by
  intro s e h
  simp only [evidenceListDeser, Val.iter] at h
  cases hm : mapDeser (deserializeFromOneOf sch) .urlencoded (s.toList.map (fun c => .str (String.ofList [c]))) with
  | ok l => simp only [hm, Except.map] at h; cases h
  | error e' =>
    simp only [hm, Except.map] at h
    cases h
    refine mapDeser_text (oneOf_text hf hd) (fun v hv => ?_) hm
    obtain ⟨c, _, rfl⟩ := List.mem_map.1 hv
    exact ⟨_, rfl⟩

theorem timeStamp_text : TextOk timeStampDeser := by
  intro s e h
  simp only [timeStampDeser, isoDeser, fromIso] at h
  split at h <;> cases h
  exact .inl rfl

/-- the deserialisers of the parameters that are not simple -/
def otherDesers : List (Option (Val → Fmt → Res Val)) :=
  [none, some (deserializeFromOneOf oidc_Claims), some (deserializeFromOneOf oidc_AddressClaim), some msgDeser,
   some (jsonMsgDeser oidc_ClaimsRequest), some (linkDeser oidc_Link), some (msgDeserFor ida_Issuer), some (msgDeserFor ida_Verifier),
   some (msgDeserFor ida_Provider), some timeStampDeser, some (evidenceListDeser ida_Evidence),
   some (deserializeFromOneOf ida_Document), some (msgDeserFor ida_VerificationElement)]

/-- where each of them is used, in the order of the classes and parameters -/
def otherUses : List Nat :=
  [1, 1, 0, 4, 2, 3, 3, 2, 3, 3, 0, 4, 5, 0, 0, 0, 0, 2, 3, 3, 6, 9, 9, 7, 9, 11, 8, 9, 9, 9, 10, 12, 3, 9, 10, 3, 3, 1, 1]

set_option maxRecDepth 4000 in
theorem otherUses_eq : (allSchemas.flatMap (fun s => (s.params.filter (fun q => !q.2.simple)).map (fun q => q.2.deser))) =
    otherUses.map (fun n => otherDesers[n]?.getD none) := rfl

theorem other_deser {sch : Schema} (hs : sch ∈ allSchemas) {q : String × Spec} (hq : q ∈ sch.params) (hn : q.2.simple = false) :
    q.2.deser ∈ otherDesers := by
  have : q.2.deser ∈ allSchemas.flatMap (fun s => (s.params.filter (fun q => !q.2.simple)).map (fun q => q.2.deser)) :=
    List.mem_flatMap.2 ⟨sch, hs, List.mem_map.2 ⟨q, List.mem_filter.2 ⟨hq, by simp [hn]⟩, rfl⟩⟩
  rw [otherUses_eq] at this
  obtain ⟨n, hn', he⟩ := List.mem_map.1 this
  have hlt : n < otherDesers.length := by
    have : ∀ n ∈ otherUses, n < 13 := by decide +kernel
    exact this n hn'
  rw [← he, List.getElem?_eq_getElem hlt]
  exact List.getElem_mem hlt

/-- **C133**, reading forms of any class: an expected exception, or the `AttributeError` for a JSON document that is not an object. -/
theorem C133_from_form_all {sch : Schema} (hs : sch ∈ allSchemas) {st : Dict} {txt : String} {e : Exc}
    (h : fromUrlencoded sch st txt = .error e) (hu : e ≠ .unmodelled) : e.expected = true ∨ e = .attributeError := by
  have leaf : ∀ {sch : Schema}, sch ∈ allSchemas → sch.params.all (fun q => q.2.simple) = true → FormOk sch := by
    intro sch hs hp
    refine formOk_of fun q hq f hf => simple_text (simplified_eq hs hq) (List.all_eq_true.1 hp q hq) hf
  have hin : ∀ {s : Schema}, s ∈ allSchemas → DataOk s := dataOk
  have claims : TextOk (deserializeFromOneOf oidc_Claims) :=
    oneOf_text (leaf (by simp [allSchemas]) (by decide +kernel)) (hin (by simp [allSchemas]))
  have address : TextOk (deserializeFromOneOf oidc_AddressClaim) :=
    oneOf_text (leaf (by simp [allSchemas]) (by decide +kernel)) (hin (by simp [allSchemas]))
  have msg : TextOk msgDeser := msg_text formOk_message
  have issuer : TextOk (msgDeserFor ida_Issuer) := msg_text (leaf (by simp [allSchemas]) (by decide +kernel))
  have verifier : TextOk (msgDeserFor ida_Verifier) := msg_text (leaf (by simp [allSchemas]) (by decide +kernel))
  have provider : TextOk (msgDeserFor ida_Provider) := msg_text (leaf (by simp [allSchemas]) (by decide +kernel))
  have links : TextOk (linkDeser oidc_Link) := link_text (leaf (by simp [allSchemas]) (by decide +kernel))
  have evidence : TextOk (evidenceListDeser ida_Evidence) :=
    evidence_text (leaf (by simp [allSchemas]) (by decide +kernel)) (hin (by simp [allSchemas]))
  have creq : TextOk (jsonMsgDeser oidc_ClaimsRequest) := jsonMsg_text (hin (by simp [allSchemas]))
  have doc : TextOk (deserializeFromOneOf ida_Document) := by
    refine oneOf_text (formOk (sch := ida_Document) (by simp [allSchemas]) rfl fun q hq f hf => ?_) (hin (by simp [allSchemas]))
    change q ∈ [("issuer", _), ("date_of_issuance", _), ("date_of_expiry", _)] at hq
    simp only [List.mem_cons, List.not_mem_nil, or_false] at hq
    rcases hq with rfl | rfl | rfl <;> cases hf
    · exact issuer
    · exact timeStamp_text
    · exact timeStamp_text
  have elem : TextOk (msgDeserFor ida_VerificationElement) := by
    refine msg_text (formOk (sch := ida_VerificationElement) (by simp [allSchemas]) rfl fun q hq f hf => ?_)
    change q ∈ [("time", _), ("evidence", _)] at hq
    simp only [List.mem_cons, List.not_mem_nil, or_false] at hq
    rcases hq with rfl | rfl <;> cases hf
    · exact timeStamp_text
    · exact evidence
  have : FormOk sch := by
    refine formOk_of fun q hq f hf => ?_
    cases hsp : q.2.simple with
    | true => exact simple_text (simplified_eq hs hq) hsp hf
    | false =>
      have hm := other_deser hs hq hsp
      rw [hf] at hm
      simp only [otherDesers, List.mem_cons, List.not_mem_nil, or_false, Option.some.injEq, reduceCtorEq, false_or] at hm
      rcases hm with rfl | rfl | rfl | rfl | rfl | rfl | rfl | rfl | rfl | rfl | rfl | rfl
      · exact claims
      · exact address
      · exact msg
      · exact creq
      · exact links
      · exact issuer
      · exact verifier
      · exact provider
      · exact timeStamp_text
      · exact evidence
      · exact doc
      · exact elem
  rcases this _ _ _ h with h | h | h
  · exact .inl h
  · exact .inr h
  · exact absurd h hu

/-- refusals of forms with nested messages and times, and the `AttributeError` -/
example : fromUrlencoded ida_QES [] "created_at=soon" = .error .valueError ∧
    fromUrlencoded oidc_AuthorizationRequest [] "claims=x" = .error .jsonDecodeError ∧
    fromUrlencoded oidc_OpenIDSchema [] "_claim_names=x" = .error .formatError ∧
    fromUrlencoded ida_IDAClaimsRequest [] "userinfo=5" = .error .attributeError := by
  refine ⟨?_, ?_, ?_, ?_⟩ <;> decide +kernel

end Verif
