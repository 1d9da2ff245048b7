import Verif.Props.FormIn
import Verif.Props.RoundTrip
import Verif.Model.Schemas

/-!
# C135: the verdict on a message before and after the wire, `message.py:80-146, 177-271, 284-441`
-/

namespace Verif

/-- the default of a parameter is one of its allowed values -/
def Spec.defaultAllowed (sp : Spec) : Option Val → Option (List Val) → Bool
  | some v, some av => typeCheck sp.vtyp av v sp.nullAllowed
  | _, _ => true

/-- What the table of a class has to satisfy: parameters are declared once and none under `*`, allowed values are texts and not
those of a boolean, and the class's own defaults are allowed. -/
def Schema.plainTable (sch : Schema) : Bool :=
  decide (dkeys sch.params).Nodup &&
  sch.params.all (fun p => p.1 != "*" && !(p.2.vtyp.isBool && dhas sch.allowed p.1) &&
    p.2.defaultAllowed (dget sch.default p.1) (dget sch.allowed p.1)) &&
  sch.allowed.all (fun p => p.2.all Val.isStr)

/-- All classes of the library have such a table. -/
theorem plainTables : allSchemas.all Schema.plainTable = true := by decide +kernel

theorem addUrls_start {sch : Schema} {info : Assoc (List String)} {st st' : Dict} (h : addUrls sch st info = .ok st') (st2 : Dict) :
    ∃ st2', addUrls sch st2 info = .ok st2' := by
  induction info generalizing st st2 with
  | nil => exact ⟨_, rfl⟩
  | cons p info ih =>
    obtain ⟨k, vs⟩ := p
    simp only [addUrls] at h ⊢
    cases ha : addUrl sch st k vs with
    | error e => rw [ha] at h; cases h
    | ok s1 =>
      rw [ha] at h
      obtain ⟨x, -, hx⟩ := addUrl_get ha
      rw [hx st2]
      exact ih h _

/-- Reading a form on top of earlier content: what the form gives, else what was there. -/
theorem form_start {sch : Schema} {txt : String} {r : Dict} (h : fromUrlencoded sch [] txt = .ok r) (st : Dict) :
    ∃ r', fromUrlencoded sch st txt = .ok r' ∧ ∀ k, dget r' k = (dget r k).or (dget st k) := by
  have : ∃ r', fromUrlencoded sch st txt = .ok r' := by
    unfold fromUrlencoded at h ⊢
    simp only at h ⊢
    split at h
    · cases h
    · rename_i hc
      rw [if_neg hc]
      exact addUrls_start h st
  obtain ⟨r', h'⟩ := this
  refine ⟨r', h', fun k => ?_⟩
  have g := form_get h k
  have g' := form_get h' k
  by_cases he : valuesOf k (parseQsl txt) = []
  · rw [g.1 he, g'.1 he]; rfl
  · obtain ⟨x, hx, hall⟩ := g.2 he
    obtain ⟨y, hy, hall'⟩ := g'.2 he
    have := hall []
    rw [hall' []] at this
    have e := congrArg (fun d => dget d k) (Except.ok.inj this)
    simp only [dget_dset_same] at e
    rw [hx, hy, ← e]; rfl

structure PlainTable (sch : Schema) : Prop where
  nodup : (dkeys sch.params).Nodup
  star : ∀ a sp, (a, sp) ∈ sch.params → a ≠ "*"
  boolFree : ∀ a sp, (a, sp) ∈ sch.params → sp.vtyp = .single .bool → dget sch.allowed a = none
  defaults : ∀ a sp v av, (a, sp) ∈ sch.params → dget sch.default a = some v → dget sch.allowed a = some av → RespectsAllowed sp v av
  texts : ∀ a av v, dget sch.allowed a = some av → v ∈ av → ∃ s, v = .str s

theorem plainTable_iff {sch : Schema} (h : sch.plainTable = true) : PlainTable sch := by
  simp only [Schema.plainTable, Bool.and_eq_true, decide_eq_true_eq, List.all_eq_true, bne_iff_ne, ne_eq, Bool.not_eq_true',
    Bool.and_eq_false_iff] at h
  obtain ⟨⟨hn, hp⟩, ht⟩ := h
  refine ⟨hn, fun a sp hm => (hp _ hm).1.1, fun a sp hm hb => ?_, fun a sp v av hm hd ha => ?_, fun a av v ha hv => ?_⟩
  · rcases (hp _ hm).1.2 with h | h
    · simp [hb, VTyp.isBool] at h
    · simpa [dhas] using h
  · have := (hp _ hm).2
    simp only [hd, ha, Spec.defaultAllowed] at this
    exact (typeCheck_iff sp v av).1 this
  · have := ht _ (dget_mem ha) v hv
    cases v <;> simp [Val.isStr] at this
    exact ⟨_, rfl⟩

/-- What a declared parameter becomes: it is kept, becomes a text, or is lost, and only blanks are lost. -/
theorem urlReturns_kinds {sch : Schema} {k : String} {v : Val} {o : Option Val} (h : UrlReturns sch k v o) :
    (o = some v ∧ v.truthy = true) ∨ (∃ d, v = .dict d ∧ o = some v) ∨
    (∃ s, s ≠ "" ∧ o = some (.str s) ∧ ((∃ i, v = .int i) ∨ (∃ b, v = .bool b))) ∨
    (o = none ∧ v.truthy = false ∧ ∀ b, v ≠ .bool b) ∨ lookupSpec sch.params k = none := by
  cases h with
  | str h1 h2 => exact .inl ⟨rfl, by simpa [Val.truthy] using h2⟩
  | empty => exact .inr (.inr (.inr (.inl ⟨rfl, by simp [Val.truthy], fun b h => nomatch h⟩)))
  | null _ => exact .inr (.inr (.inr (.inl ⟨rfl, by simp [Val.truthy], fun b h => nomatch h⟩)))
  | int _ => exact .inr (.inr (.inl ⟨_, intRepr_ne _, rfl, .inl ⟨_, rfl⟩⟩))
  | true _ => exact .inr (.inr (.inl ⟨_, by simp, rfl, .inr ⟨_, rfl⟩⟩))
  | false _ => exact .inr (.inr (.inl ⟨_, by simp, rfl, .inr ⟨_, rfl⟩⟩))
  | strList _ h1 _ _ => exact .inl ⟨rfl, by simpa [Val.truthy] using h1⟩
  | strListEmpty _ => exact .inr (.inr (.inr (.inl ⟨rfl, by simp [Val.truthy], fun b h => nomatch h⟩)))
  | many h _ => exact .inr (.inr (.inr (.inr h)))
  | one h _ => exact .inr (.inr (.inr (.inr h)))
  | noItems h => exact .inr (.inr (.inr (.inr h)))
  | json _ _ _ _ _ => exact .inr (.inl ⟨_, rfl, rfl⟩)

/-- **C135**, forms: what its sender verifies is written, read and verified by the receiver, who starts from the defaults of the
class. -/
theorem C135_form_partial (env : SerEnv) {sch : Schema} (hs : sch ∈ allSchemas) (ret : String → Val → Option Val) (st : Dict)
    (hn : DNodup st) (h : ∀ k v, (k, v) ∈ st → UrlReturns sch k v (ret k v))
    (hsome : ∃ k v, dget st k = some v ∧ ret k v ≠ none)
    (hb : ∀ k sp v, (k, sp) ∈ sch.params → sp.required = true → sp.vtyp = .single .bool → dget st k = some v → ∃ b, v = .bool b)
    (hi : ∀ k v, dhas sch.allowed k = true → dget st k = some v → (∀ i, v ≠ .int i) ∧ ∀ b, v ≠ .bool b)
    (hv : verifyBase sch st = .ok ()) :
    ∃ txt r, toUrlencoded env sch st = .ok txt ∧ fromUrlencoded sch sch.default txt = .ok r ∧ verifyBase sch r = .ok () := by
  have pt := plainTable_iff (List.all_eq_true.1 plainTables sch hs)
  have ha := (C04_verify_iff sch st).1 hv
  have hreq : ¬ RequiredMissing sch st := by
    rintro ⟨a, sp, hm, hr, hnone⟩
    obtain ⟨v, hv, -⟩ := (ha a sp hm (pt.star a sp hm)).1 hr
    rw [(dget_eq_none_iff st a).2 hnone] at hv; cases hv
  obtain ⟨txt, r, h1, h2, -, h4⟩ := C08_urlencoded env sch ret st hn h hreq hsome
  obtain ⟨r', h5, h6⟩ := form_start h2 sch.default
  refine ⟨txt, r', h1, h5, (C04_verify_iff sch r').2 fun a sp hm hstar => ?_⟩
  have hl := lookupSpec_declared (mem_dget pt.nodup hm)
  have hg := h6 a
  rw [h4] at hg
  obtain ⟨hr, hal⟩ := ha a sp hm hstar
  cases hst : dget st a with
  | none =>
    rw [hst] at hg hr
    simp only [Option.bind_none, Option.none_or] at hg
    refine ⟨fun hq => ?_, fun v av hv _ hav => ?_⟩
    · obtain ⟨v, hv, -⟩ := hr hq; cases hv
    · rw [hg] at hv; exact pt.defaults a sp v av hm hv hav
  | some v =>
    rw [hst] at hg hr
    simp only [Option.bind_some] at hg
    have hal' := fun av => hal v av hst
    rcases urlReturns_kinds (h a v (dget_mem hst)) with ⟨e, ht⟩ | ⟨d, rfl, e⟩ | ⟨s, hs', e, hib⟩ | ⟨e, ht, hnb⟩ | e
    · rw [e] at hg
      simp only [Option.some_or] at hg
      refine ⟨fun _ => ⟨v, hg, .inl ht⟩, fun w av hw hgv hav => ?_⟩
      rw [hg] at hw; cases hw
      exact hal' av hgv hav
    · rw [e] at hg
      simp only [Option.some_or] at hg
      rw [hg]
      refine ⟨hr, fun w av hw hgv hav => ?_⟩
      cases hw
      exact hal' av hgv hav
    · rw [e] at hg
      simp only [Option.some_or] at hg
      rw [hg]
      refine ⟨fun _ => ⟨_, rfl, .inl (by simpa [Val.truthy] using hs')⟩, fun w av hw hgv hav => ?_⟩
      cases hw
      have := hi a v (by simp [dhas, hav]) hst
      rcases hib with ⟨i, rfl⟩ | ⟨b, rfl⟩
      · exact absurd rfl (this.1 i)
      · exact absurd rfl (this.2 b)
    · rw [e] at hg
      simp only [Option.none_or] at hg
      refine ⟨fun hq => ?_, fun w av hw _ hav => ?_⟩
      · obtain ⟨w, hw, hgw⟩ := hr hq
        cases hw
        rcases hgw with hgw | hgw
        · rw [ht] at hgw; cases hgw
        · obtain ⟨b, rfl⟩ := hb a sp _ hm hq hgw hst
          exact absurd rfl (hnb b)
      · rw [hg] at hw; exact pt.defaults a sp w av hm hw hav
    · rw [hl] at e; cases e

/-- Conversely: what the receiver verifies the sender would have verified, as long as no declared parameter is 0 or (unless
it is a boolean one) `False`, and no required parameter with a default is blank. -/
theorem C135_form_back_partial (env : SerEnv) {sch : Schema} (hs : sch ∈ allSchemas) (ret : String → Val → Option Val) (st : Dict)
    (hn : DNodup st) (h : ∀ k v, (k, v) ∈ st → UrlReturns sch k v (ret k v))
    (hsome : ∃ k v, dget st k = some v ∧ ret k v ≠ none)
    (hi : ∀ k v, dhas sch.allowed k = true → dget st k = some v → (∀ i, v ≠ .int i) ∧ ∀ b, v ≠ .bool b)
    (hz : ∀ k sp v, (k, sp) ∈ sch.params → dget st k = some v → v ≠ .int 0 ∧ (v = .bool false → sp.vtyp = .single .bool))
    (hd : ∀ k sp v, (k, sp) ∈ sch.params → sp.required = true → dhas sch.default k = true → dget st k = some v → v.truthy = true)
    {txt : String} {r : Dict} (hw : toUrlencoded env sch st = .ok txt) (hrd : fromUrlencoded sch sch.default txt = .ok r)
    (hv : verifyBase sch r = .ok ()) : verifyBase sch st = .ok () := by
  have pt := plainTable_iff (List.all_eq_true.1 plainTables sch hs)
  have ha := (C04_verify_iff sch r).1 hv
  have hreq : ¬ RequiredMissing sch st := by
    intro hm
    have := (anyMissing_iff sch st).2 hm
    simp only [toUrlencoded, urlFinish, this, if_true] at hw
    unfold raiseMissing at hw
    split at hw <;> cases hw
  obtain ⟨txt', r0, h1, h2, -, h4⟩ := C08_urlencoded env sch ret st hn h hreq hsome
  rw [hw] at h1; cases h1
  obtain ⟨r', h5, h6⟩ := form_start h2 sch.default
  rw [hrd] at h5; cases h5
  refine (C04_verify_iff sch st).2 fun a sp hm hstar => ?_
  have hl := lookupSpec_declared (mem_dget pt.nodup hm)
  have hg := h6 a
  rw [h4] at hg
  obtain ⟨hr, hal⟩ := ha a sp hm hstar
  cases hst : dget st a with
  | none =>
    refine ⟨fun hq => absurd ⟨a, sp, hm, hq, ?_⟩ hreq, fun v av hv => (nomatch hv)⟩
    exact (dget_eq_none_iff st a).1 hst
  | some v =>
    rw [hst] at hg
    simp only [Option.bind_some] at hg
    rcases urlReturns_kinds (h a v (dget_mem hst)) with ⟨e, ht⟩ | ⟨d, rfl, e⟩ | ⟨s, hs', e, hib⟩ | ⟨e, ht, hnb⟩ | e
    · rw [e] at hg
      rw [hg] at hr hal
      exact ⟨hr, hal⟩
    · rw [e] at hg
      rw [hg] at hr hal
      exact ⟨hr, hal⟩
    · have hzz := hz a sp v hm hst
      have : ∀ av, dget sch.allowed a ≠ some av := by
        intro av hav
        have := hi a v (by simp [dhas, hav]) hst
        rcases hib with ⟨i, rfl⟩ | ⟨b, rfl⟩
        · exact this.1 i rfl
        · exact this.2 b rfl
      refine ⟨fun _ => ⟨v, rfl, ?_⟩, fun w av _ _ hav => absurd hav (this av)⟩
      rcases hib with ⟨i, rfl⟩ | ⟨b, rfl⟩
      · refine .inl ?_
        simp only [Val.truthy, ne_eq, decide_eq_true_eq]
        rintro rfl; exact hzz.1 rfl
      · cases b with
        | true => exact .inl rfl
        | false => exact .inr (hzz.2 rfl)
    · rw [e] at hg
      simp only [Option.none_or] at hg
      refine ⟨fun hq => ⟨v, rfl, ?_⟩, fun w av hw hgw hav => ?_⟩
      · obtain ⟨w, hw, -⟩ := hr hq
        rw [hg] at hw
        have := hd a sp v hm hq (by simp [dhas, hw]) hst
        rw [ht] at this; cases this
      · cases hw
        rcases hgw with hgw | hgw
        · rw [ht] at hgw; cases hgw
        · rw [pt.boolFree a sp hm hgw] at hav; cases hav
    · rw [hl] at e; cases e

/-- **C135**, JSON: the receiver's verdict is the sender's, exception included, if the sender's message still has a value for each
of the defaults of the class. -/
theorem C135_json (env : SerEnv) (sch : Schema) (henv : ∀ k, env sch.cls k = serFor sch.params k) (st : Dict) (hn : DNodup st)
    (h : ∀ k v, (k, v) ∈ st → JsonFaithful sch k v) (hd : ∀ k ∈ dkeys sch.default, k ∈ dkeys st) :
    ∃ txt r, toJson env sch.cls st = .ok txt ∧ fromJson sch sch.default txt = .ok r ∧ verifyBase sch r = verifyBase sch st := by
  obtain ⟨txt, h1, -, h3⟩ := C07_json_roundtrip env sch henv st hn h
  obtain ⟨r, h4, h5⟩ := h3 sch.default
  refine ⟨txt, r, h1, h4, C05_verify_declared_only sch r st fun a _ => ?_⟩
  rw [h5]
  cases hs : dget st a with
  | some v => rfl
  | none =>
    have : a ∉ dkeys sch.default := fun hm => (dget_eq_none_iff st a).1 hs (hd a hm)
    rw [(dget_eq_none_iff _ a).2 this]; rfl

/-- **C135**, JSON: whatever defaults were deleted, what the sender verifies the receiver verifies. -/
theorem C135_json_fewer (env : SerEnv) {sch : Schema} (hs : sch ∈ allSchemas) (henv : ∀ k, env sch.cls k = serFor sch.params k)
    (st : Dict) (hn : DNodup st) (h : ∀ k v, (k, v) ∈ st → JsonFaithful sch k v) (hv : verifyBase sch st = .ok ()) :
    ∃ txt r, toJson env sch.cls st = .ok txt ∧ fromJson sch sch.default txt = .ok r ∧ verifyBase sch r = .ok () := by
  have pt := plainTable_iff (List.all_eq_true.1 plainTables sch hs)
  obtain ⟨txt, h1, -, h3⟩ := C07_json_roundtrip env sch henv st hn h
  obtain ⟨r, h4, h5⟩ := h3 sch.default
  refine ⟨txt, r, h1, h4, (C04_verify_iff sch r).2 fun a sp hm hstar => ?_⟩
  obtain ⟨hr, hal⟩ := (C04_verify_iff sch st).1 hv a sp hm hstar
  have hg := h5 a
  cases hst : dget st a with
  | some v => rw [hst] at hg hr hal; rw [hg]; exact ⟨hr, hal⟩
  | none =>
    rw [hst] at hg hr
    refine ⟨fun hq => ?_, fun v av hv _ hav => ?_⟩
    · obtain ⟨v, hv, -⟩ := hr hq; cases hv
    · rw [hg] at hv; exact pt.defaults a sp v av hm hv hav

/-- a code that is at once expired -/
def expiredCode : Dict := [("device_code", .str "d"), ("user_code", .str "u"), ("verification_uri", .str "v"), ("expires_in", .int 0)]

/-- Violated: a response of the device flow whose code expires in 0 seconds is refused by its sender (`expires_in` counts as missing)
and accepted by the receiver of its form. -/
theorem C135_counterexample_zero :
    verifyBase device_AuthorizationResponse expiredCode = .error .missingRequiredAttribute ∧
    ∃ txt r, toUrlencoded libEnv device_AuthorizationResponse expiredCode = .ok txt ∧
      fromUrlencoded device_AuthorizationResponse device_AuthorizationResponse.default txt = .ok r ∧
      verifyBase device_AuthorizationResponse r = .ok () := by
  refine ⟨by decide +kernel, "device_code=d&user_code=u&verification_uri=v&expires_in=0",
    [("device_code", .str "d"), ("user_code", .str "u"), ("verification_uri", .str "v"), ("expires_in", .str "0")], ?_, ?_, ?_⟩ <;>
    decide +kernel

/-- Violated: a token request with a blank grant type is refused by its sender; the receiver of its form puts the default of the
class in its place and accepts. -/
theorem C135_counterexample_blank :
    verifyBase oauth2_CCAccessTokenRequest [("grant_type", .str ""), ("scope", .list [.str "a"])] = .error .missingRequiredAttribute ∧
    ∃ txt r, toUrlencoded libEnv oauth2_CCAccessTokenRequest [("grant_type", .str ""), ("scope", .list [.str "a"])] = .ok txt ∧
      fromUrlencoded oauth2_CCAccessTokenRequest oauth2_CCAccessTokenRequest.default txt = .ok r ∧
      dget r "grant_type" = some (.str "client_credentials") ∧ verifyBase oauth2_CCAccessTokenRequest r = .ok () := by
  refine ⟨by decide +kernel, "grant_type=&scope=a",
    [("grant_type", .str "client_credentials"), ("scope", .list [.str "a"])], ?_, ?_, ?_, ?_⟩ <;>
    decide +kernel

/-- a code that lives for five minutes -/
def liveCode : Dict := [("device_code", .str "d"), ("user_code", .str "u"), ("verification_uri", .str "v"), ("expires_in", .int 300)]

/-- how its values come back -/
def liveCodeBack (_ : String) : Val → Option Val
  | .int i => some (.str (String.ofList (intRepr i)))
  | v => some v

theorem liveCode_returns : ∀ k v, (k, v) ∈ liveCode → UrlReturns device_AuthorizationResponse k v (liveCodeBack k v) := by
  intro k v hm
  simp only [liveCode, List.mem_cons, Prod.mk.injEq, List.not_mem_nil, or_false] at hm
  rcases hm with ⟨rfl, rfl⟩ | ⟨rfl, rfl⟩ | ⟨rfl, rfl⟩ | ⟨rfl, rfl⟩
  · exact .str (.inr ⟨_, _, _, rfl, rfl, rfl, rfl⟩) (by simp)
  · exact .str (.inr ⟨_, _, _, rfl, rfl, rfl, rfl⟩) (by simp)
  · exact .str (.inr ⟨_, _, _, rfl, rfl, rfl, rfl⟩) (by simp)
  · exact .int (.inr ⟨_, _, _, rfl, rfl, rfl, rfl⟩)

theorem device_listed : device_AuthorizationResponse ∈ allSchemas := by simp [allSchemas]

theorem device_optional : ∀ p ∈ device_AuthorizationResponse.params, p.2.vtyp.isBool = false := by decide +kernel

example : ∃ txt r, toUrlencoded libEnv device_AuthorizationResponse liveCode = .ok txt ∧
    fromUrlencoded device_AuthorizationResponse device_AuthorizationResponse.default txt = .ok r ∧
    verifyBase device_AuthorizationResponse r = .ok () :=
  C135_form_partial libEnv device_listed liveCodeBack liveCode (by decide) liveCode_returns
    ⟨"device_code", .str "d", rfl, by simp [liveCodeBack]⟩
    (fun k sp v hm _ hb => by have := device_optional _ hm; simp [hb, VTyp.isBool] at this)
    (fun k v hk => by simp [device_AuthorizationResponse, dhas] at hk) (by decide +kernel)

/-- a client that is told a lifetime of 300 s: the answer goes both ways -/
example : verifyBase device_AuthorizationResponse liveCode = .ok () := by
  obtain ⟨txt, r, h1, h2, h3⟩ := C135_form_partial libEnv device_listed liveCodeBack liveCode (by decide) liveCode_returns
    ⟨"device_code", .str "d", rfl, by simp [liveCodeBack]⟩
    (fun k sp v hm _ hb => by have := device_optional _ hm; simp [hb, VTyp.isBool] at this)
    (fun k v hk => by simp [device_AuthorizationResponse, dhas] at hk) (by decide +kernel)
  refine C135_form_back_partial libEnv device_listed liveCodeBack liveCode (by decide) liveCode_returns
    ⟨"device_code", .str "d", rfl, by simp [liveCodeBack]⟩
    (fun k v hk => by simp [device_AuthorizationResponse, dhas] at hk) (fun k sp v hm hv => ?_)
    (fun k sp v hm _ hk => by simp [device_AuthorizationResponse, dhas] at hk) h1 h2 h3
  have := dget_mem hv
  simp only [liveCode, List.mem_cons, Prod.mk.injEq, List.not_mem_nil, or_false] at this
  rcases this with ⟨rfl, rfl⟩ | ⟨rfl, rfl⟩ | ⟨rfl, rfl⟩ | ⟨rfl, rfl⟩ <;> simp

/-- a request with a forbidden grant type stays refused, with the same exception, when it travels as JSON -/
example : ∃ txt r, toJson libEnv oauth2_CCAccessTokenRequest.cls [("grant_type", .str "code")] = .ok txt ∧
    fromJson oauth2_CCAccessTokenRequest oauth2_CCAccessTokenRequest.default txt = .ok r ∧
    verifyBase oauth2_CCAccessTokenRequest r = .error .notAllowedValue := by
  have := C135_json libEnv oauth2_CCAccessTokenRequest (fun k => rfl) [("grant_type", .str "code")] (by decide) (by
    intro k v hm
    simp only [List.mem_cons, Prod.mk.injEq, List.not_mem_nil, or_false] at hm
    obtain ⟨rfl, rfl⟩ := hm
    exact .str (b := false) (sp := singleRequiredString) rfl rfl rfl (by simp)) (by decide +kernel)
  rw [show verifyBase oauth2_CCAccessTokenRequest [("grant_type", .str "code")] = .error .notAllowedValue by decide +kernel] at this
  exact this

/-- without its default the request is refused by the sender, accepted by the receiver: the hypothesis of `C135_json` is needed -/
example : verifyBase oauth2_CCAccessTokenRequest [("scope", .list [.str "a"])] = .error .missingRequiredAttribute ∧
    verifyBase oauth2_CCAccessTokenRequest [("grant_type", .str "client_credentials"), ("scope", .list [.str "a"])] = .ok () ∧
    (fromJson oauth2_CCAccessTokenRequest oauth2_CCAccessTokenRequest.default "{\"scope\": \"a\"}") =
      .ok [("grant_type", .str "client_credentials"), ("scope", .list [.str "a"])] := by
  decide +kernel

/-- a registration request whose sender deleted all defaults -/
example : verifyBase oidc_RegistrationRequest [("redirect_uris", .list [.str "https://a"])] = .ok () := by decide +kernel

end Verif
