import Verif.Props.NestedRoundTrip
import Verif.Props.OneOf
import Verif.Props.FormIn

/-!
# C103: messages inside messages and form encoding
-/

namespace Verif

/-- The deserialiser, handed a JSON text that came out of a form, gives the message of the class `sub` the text
describes. -/
def ReadsForm (f : Val → Fmt → Res Val) (sub : Schema) (t : String) : Prop :=
  ∀ d r, loads t = .ok (.dict d) → fromDictR sub sub.default d = .ok r → f (.str t) .urlencoded = .ok (.msg sub.cls r)

theorem splitEq_none {s : List Char} (h : '=' ∉ s) : splitEq s = none := by
  induction s with
  | nil => rfl
  | cons c s ih =>
    simp only [List.mem_cons, not_or] at h
    simp [splitEq, ih h.2, Ne.symm h.1]

theorem mem_splitC {c x : Char} : ∀ {s p : List Char}, p ∈ splitC c s → x ∈ p → x ∈ s
  | [], p, hp, hx => by
    simp only [splitC, List.mem_singleton] at hp
    subst hp
    exact hx
  | a :: s, p, hp, hx => by
    rw [splitC] at hp
    split at hp
    · rcases List.mem_cons.1 hp with rfl | hp
      · cases hx
      · exact List.mem_cons_of_mem _ (mem_splitC hp hx)
    · split at hp
      · simp only [List.mem_singleton] at hp
        subst hp
        simp only [List.mem_singleton] at hx
        subst hx
        exact List.mem_cons_self
      · rename_i q r e
        rcases List.mem_cons.1 hp with rfl | hp
        · rcases List.mem_cons.1 hx with rfl | hx
          · exact List.mem_cons_self
          · exact List.mem_cons_of_mem _ (mem_splitC (c := c) (p := q) (by rw [e]; simp) hx)
        · exact List.mem_cons_of_mem _ (mem_splitC (c := c) (p := p) (by rw [e]; simp [hp]) hx)

/-- A text without an equals sign is no form. -/
theorem parseQs_noEq {t : String} (h : '=' ∉ t.toList) : parseQs t = [] := by
  have : parseQslC t.toList = [] := by
    rw [parseQslC, List.filterMap_eq_nil_iff]
    intro p hp
    rw [parsePiece, splitEq_none (fun hx => h (mem_splitC hp hx))]
  simp [parseQs, parseQsl, this]

theorem readsForm_jsonMsg (sub : Schema) (t : String) : ReadsForm (jsonMsgDeser sub) sub t := by
  intro d r hl h
  simp [jsonMsgDeser, textOf, Val.isStr, reads_json h hl]

theorem readsForm_oneOf (sub : Schema) {t : String} (hne : t ≠ "") (h : '=' ∉ t.toList) :
    ReadsForm (deserializeFromOneOf sub) sub t := by
  intro d r hl hr
  have hf : deserializeMsg sub (.str t) .urlencoded = .error .formatError := by
    simp [deserializeMsg, deserialize, fromUrlencoded, parseQs_noEq h, hne, Except.map]
  rw [(C69_urlencoded sub (.str t)).2 hf, reads_json hr hl]

/-- The values expected to survive a form: those of C08, and messages in parameters declared for them, with values
that survive JSON inside, if the deserialiser of the parameter reads the JSON text of the message. -/
inductive FormFaithful (env : SerEnv) (sch : Schema) (k : String) : Val → Prop
  | plain {v} : UrlReturns sch k v (some v) → FormFaithful env sch k v
  | msg {b sp t f sub st} : lookupSpec sch.params k = some (b, sp) → sp.vtyp = .single t →
      sp.ser ∈ [some .msg, some .msgJson, some .claims] → sp.deser = some f →
      (∀ txt, toJson env sub.cls st = .ok txt → ReadsForm f sub txt) → sub.default = [] →
      (∀ k, env sub.cls k = serFor sub.params k) → DNodup st → (∀ k v, (k, v) ∈ st → Faithful env false sub k v) →
      FormFaithful env sch k (.msg sub.cls st)

theorem form_entry {env : SerEnv} {sch : Schema} {k : String} {v : Val} (h : FormFaithful env sch k v) :
    UrlEntry env sch k v (some v) := by
  cases h with
  | plain h => exact entry_url env sch k v _ h
  | @msg b sp t f sub st hl ht hs hf hr hd he hn hin =>
    obtain ⟨d, h1, h2, h3⟩ := inner_roundtrip he hd hn (fun k v hm => (faithful_ok (hin k v hm)).1)
    obtain ⟨txt, h4, h5⟩ := loads_dumps _ h2
    have hj : toJson env sub.cls st = .ok txt := by simp [toJson, h1, h4, bind, Except.bind]
    have hb := dumps_ne_empty h4
    have hread := hr txt hj d st h5 h3
    have hser : serDict env sp.ser (.msg sub.cls st) = .ok (.dict d) := by
      simp only [List.mem_cons, List.not_mem_nil, or_false] at hs
      rcases hs with e | e | e <;> rw [e] <;> simp [serDict, h1, Except.map]
    refine ⟨[txt], ?_, .inr ⟨by simp [hb], _, rfl, fun st0 => ?_⟩⟩
    · have hsf : serFor sch.params k = sp.ser := by simp [serFor, hl]
      simp only [List.mem_cons, List.not_mem_nil, or_false] at hs
      rcases hs with e | e | e <;> rw [e] at hser hsf <;> simp [urlPairs, urlMsg, hsf, hser, h4, Except.map]
    · simp [hb, addUrl, hl, ht, hf, hread, bind, Except.bind]

/-- C103: a message, messages inside it included, comes back from its form encoding, every message inside with its own
class. -/
theorem C103_partial (env : SerEnv) (sch : Schema) (st : Dict) (hn : DNodup st) (hne : st ≠ [])
    (h : ∀ k v, (k, v) ∈ st → FormFaithful env sch k v) (hreq : ¬ RequiredMissing sch st) :
    ∃ txt, toUrlencoded env sch st = .ok txt ∧ fromUrlencoded sch [] txt = .ok st :=
  url_same env sch st hn hne (fun k v hm => form_entry (h k v hm)) hreq

/-- C103 fails for parameters read with `deserialize_from_one_of`, for every class of messages without deserialisers of
its own: if the JSON text of the message inside reads as a form at all, reading the parameter fails for repeated names,
or it gives a message made of the pieces of that form: a name of the message read is a default of the class or the name
of a piece, and every piece is there. -/
theorem C103_misread (env : SerEnv) (sch : Schema) (k : String) (b : Bool) (sp : Spec) (t : Ty) (sub : Schema)
    (st : Dict) (txt : String) (hl : lookupSpec sch.params k = some (b, sp)) (ht : sp.vtyp = .single t)
    (hs : sp.ser ∈ [some .msg, some .msgJson, some .claims]) (hf : sp.deser = some (deserializeFromOneOf sub))
    (hsub : ∀ k' b' sp', lookupSpec sub.params k' = some (b', sp') → sp'.deser = none)
    (h1 : toJson env sub.cls st = .ok txt) (hq : parseQsl txt ≠ []) :
    urlPairs env false sch.params k (.msg sub.cls st) = .ok [(k, txt)] ∧
    ∀ st0, addUrl sch st0 k [txt] = .error .tooManyValues ∨
      ∃ m, addUrl sch st0 k [txt] = .ok (dset st0 k (.msg sub.cls m)) ∧
        (∀ n, n ∈ (parseQsl txt).map Prod.fst → dget m n ≠ none) ∧
        ∀ n, n ∉ (parseQsl txt).map Prod.fst → dget m n = dget sub.default n := by
  obtain ⟨d, h3, h2⟩ : ∃ d, toDict env sub.cls st = .ok d ∧ dumps (.dict d) = .ok txt := by
    simp only [toJson, bind, Except.bind] at h1
    split at h1
    · cases h1
    · exact ⟨_, by assumption, h1⟩
  have hser : serDict env sp.ser (.msg sub.cls st) = .ok (.dict d) := by
    simp only [List.mem_cons, List.not_mem_nil, or_false] at hs
    rcases hs with e | e | e <;> rw [e] <;> simp [serDict, h3, Except.map]
  have hsf : serFor sch.params k = sp.ser := by simp [serFor, hl]
  refine ⟨?_, fun st0 => ?_⟩
  · simp only [List.mem_cons, List.not_mem_nil, or_false] at hs
    rcases hs with e | e | e <;> rw [e] at hser hsf <;> simp [urlPairs, urlMsg, hsf, hser, h2, Except.map]
  · have hd : deserializeMsg sub (.str txt) .urlencoded = (fromUrlencoded sub sub.default txt).map (.msg sub.cls) := rfl
    have hadd : addUrl sch st0 k [txt] =
        (deserializeFromOneOf sub (.str txt) .urlencoded).bind (fun x => .ok (dset st0 k x)) := by
      simp only [addUrl, hl, ht, hf]
      rfl
    cases hu : fromUrlencoded sub sub.default txt with
    | error e =>
      have he : e = .tooManyValues := by
        rcases C100_errors hu with ⟨_, _, h⟩ | ⟨k', sp', b', h4, _, h5⟩
        · exact absurd h hq
        · rcases h5 with ⟨h, _⟩ | ⟨f, _, h, _⟩
          · exact h
          · rw [hsub k' b' sp' h4] at h; cases h
      subst he
      rw [hu] at hd
      left
      rw [hadd, (C69_urlencoded sub (.str txt)).1 (by rw [hd]; intro h; cases h), hd]
      rfl
    | ok m =>
      rw [hu] at hd
      right
      refine ⟨m, ?_, fun n hn => ?_, fun n hn => C100_absent hu hn⟩
      · rw [hadd, (C69_urlencoded sub (.str txt)).1 (by rw [hd]; intro h; cases h), hd]
        rfl
      · obtain ⟨x, hx, _⟩ := (form_get hu n).2 (fun h => (valuesOf_nil_iff n _).1 h hn)
        rw [hx]
        simp

/-- C103 fails: an address with an equals sign in it comes back as a message with one parameter of a strange name. -/
theorem C103_counterexample :
    (toUrlencoded libEnv oidc_OpenIDSchema
        [("sub", .str "diana"), ("address", .msg ⟨"oidc", "AddressClaim"⟩ [("locality", .str "a=b")])]).bind
      (fromUrlencoded oidc_OpenIDSchema []) =
    .ok [("sub", .str "diana"), ("address", .msg ⟨"oidc", "AddressClaim"⟩ [("{\"locality\": \"a", .str "b\"}")])] := by
  decide +kernel

/-- What stands in one field of the address can become another field. -/
theorem C103_counterexample_field :
    (toUrlencoded libEnv oidc_OpenIDSchema
        [("sub", .str "diana"), ("address", .msg ⟨"oidc", "AddressClaim"⟩ [("region", .str "x&country=DE&y")])]).bind
      (fromUrlencoded oidc_OpenIDSchema []) =
    .ok [("sub", .str "diana"), ("address", .msg ⟨"oidc", "AddressClaim"⟩ [("country", .str "DE")])] := by
  decide +kernel

/-- The hypotheses of `C103_misread` can be met. -/
example : ∃ txt, toJson libEnv oidc_AddressClaim.cls [("locality", .str "a=b")] = .ok txt ∧
    lookupSpec oidc_OpenIDSchema.params "address" =
      some (false, ⟨.single messageTy, false, some .msg, some (deserializeFromOneOf oidc_AddressClaim), false⟩) ∧
    parseQsl txt = [("{\"locality\": \"a", "b\"}")] :=
  ⟨"{\"locality\": \"a=b\"}", by decide +kernel, rfl, by decide +kernel⟩

example : ∀ k b sp, lookupSpec oidc_AddressClaim.params k = some (b, sp) → sp.deser = none := by
  intro k b sp h
  have hmem : ∀ {ps : Assoc Spec} {k sp}, dget ps k = some sp → (k, sp) ∈ ps := fun h => dget_mem h
  have hall : ∀ p ∈ oidc_AddressClaim.params, p.2.deser = none := by
    intro p hp
    simp only [oidc_AddressClaim, List.mem_cons, List.not_mem_nil, or_false] at hp
    rcases hp with rfl | rfl | rfl | rfl | rfl | rfl <;> rfl
  unfold lookupSpec at h
  repeat' split at h
  all_goals first
    | (cases h; done)
    | (cases h; rename_i h'; exact hall _ (hmem h'))
    | (cases h; exact hall _ (hmem ‹_›))

/-- A request with a claims request in it: an equals sign in the claims request is no problem. -/
def formRequest : Dict :=
  [("scope", .list [.str "openid"]), ("client_id", .str "c"), ("redirect_uri", .str "https://c.example.org/cb?x=1"),
   ("response_type", .list [.str "code"]),
   ("claims", .msg ⟨"oidc", "ClaimsRequest"⟩
     [("id_token", .msg ⟨"oidc", "Claims"⟩ [("acr", .dict [("value", .str "urn:a=b&c")])])])]

example : (∀ k v, (k, v) ∈ formRequest → FormFaithful libEnv oidc_AuthorizationRequest k v) ∧ DNodup formRequest ∧
    ¬ RequiredMissing oidc_AuthorizationRequest formRequest := by
  refine ⟨?_, by decide, by rw [← anyMissing_iff]; decide +kernel⟩
  intro k v h
  simp only [formRequest, List.mem_cons, Prod.mk.injEq, List.not_mem_nil, or_false] at h
  rcases h with ⟨rfl, rfl⟩ | ⟨rfl, rfl⟩ | ⟨rfl, rfl⟩ | ⟨rfl, rfl⟩ | ⟨rfl, rfl⟩
  · exact .plain (.strList (ss := ["openid"]) ⟨false, requiredListOfSpSepStrings, by rfl, rfl, .inr ⟨rfl, rfl⟩⟩
      (by decide) (by decide) (by decide))
  · exact .plain (.str (.inr ⟨false, singleRequiredString, _, by rfl, rfl, rfl, rfl⟩) (by decide))
  · exact .plain (.str (.inr ⟨false, singleRequiredString, _, by rfl, rfl, rfl, rfl⟩) (by decide))
  · exact .plain (.strList (ss := ["code"]) ⟨false, requiredListOfSpSepStrings, by rfl, rfl, .inr ⟨rfl, rfl⟩⟩
      (by decide) (by decide) (by decide))
  · refine .msg (sub := oidc_ClaimsRequest) (b := false)
      (sp := ⟨.single messageTy, false, some .msgJson, some (jsonMsgDeser oidc_ClaimsRequest), false⟩)
      (by rfl) rfl (by decide) rfl (fun _ _ => readsForm_jsonMsg _ _) rfl (fun _ => rfl) (by decide) ?_
    intro k v h
    simp only [List.mem_cons, Prod.mk.injEq, List.not_mem_nil, or_false] at h
    obtain ⟨rfl, rfl⟩ := h
    refine .msg (sub := oidc_Claims) (b := false)
      (sp := ⟨.single messageTy, false, some .claims, some (deserializeFromOneOf oidc_Claims), false⟩)
      (by rfl) rfl (by decide) rfl (reads_oneOf _) rfl rfl (fun _ => rfl) (by decide) ?_
    intro k v h
    simp only [List.mem_cons, Prod.mk.injEq, List.not_mem_nil, or_false] at h
    obtain ⟨rfl, rfl⟩ := h
    exact .plain (.undeclared (by rfl) rfl (by decide) (by decide))

/-- An address without an equals sign survives as well. -/
example : FormFaithful libEnv oidc_OpenIDSchema "address" (.msg ⟨"oidc", "AddressClaim"⟩ [("locality", .str "Umea")]) := by
  refine .msg (sub := oidc_AddressClaim) (b := false)
    (sp := ⟨.single messageTy, false, some .msg, some (deserializeFromOneOf oidc_AddressClaim), false⟩)
    (by rfl) rfl (by decide) rfl (fun txt h => ?_) rfl (fun _ => rfl) (by decide) ?_
  · have : txt = "{\"locality\": \"Umea\"}" := by
      have h' : toJson libEnv oidc_AddressClaim.cls [("locality", .str "Umea")] = .ok "{\"locality\": \"Umea\"}" := by
        decide +kernel
      rw [h'] at h
      cases h
      rfl
    subst this
    exact readsForm_oneOf _ (by decide) (by decide)
  · intro k v h
    simp only [List.mem_cons, Prod.mk.injEq, List.not_mem_nil, or_false] at h
    obtain ⟨rfl, rfl⟩ := h
    exact .plain (.str (sp := singleOptionalString) (b := false) (by rfl) rfl rfl (by decide))

end Verif
