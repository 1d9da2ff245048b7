import Verif.Props.IdentityAssurance
import Verif.Props.NestedRoundTrip
import Verif.Props.ListParams
import Verif.Props.Logout

/-!
# C108: claims requests for verified claims, as they arrive
-/

namespace Verif

/-- loading into a message without declared parameters keeps the entries -/
theorem fromDictR_each {sch : Schema} (f : String → Val → Val) : ∀ (d : List (String × Val)) (st : Dict),
    (∀ p ∈ d, ∀ st, addItem sch st p.1 p.2 = .ok (dset st p.1 (f p.1 p.2))) → (dkeys (st ++ d)).Nodup →
    fromDictR sch st d = .ok (st ++ d.map (fun p => (p.1, f p.1 p.2)))
  | [], st, _, _ => by simp [fromDictR, fromDict]
  | (k, v) :: d, st, h, hn => by
    have h1 := h (k, v) (List.mem_cons_self ..) st
    have hk : dget st k = none := by
      rw [dget_eq_none_iff]
      intro hm
      simp only [dkeys, List.map_append, List.map_cons] at hn hm
      rw [List.nodup_append] at hn
      exact hn.2.2 k hm k (List.mem_cons_self ..) rfl
    have e : fromDictR sch st ((k, v) :: d) = fromDictR sch (dset st k (f k v)) d := by
      simp only [fromDictR, fromDict, h1]
    rw [e, dset_fresh hk, fromDictR_each f d _ (fun p hp => h p (List.mem_cons_of_mem _ hp))]
    · simp
    · have : dkeys (st ++ [(k, f k v)] ++ d) = dkeys (st ++ (k, v) :: d) := by simp [dkeys]
      rw [this]; exact hn

theorem message_keeps {c : Dict} (hn : DNodup c) (hb : ∀ p ∈ c, isBlank p.2 = false) :
    fromDictR messageSchema messageSchema.default c = .ok c := by
  have := fromDictR_each (sch := messageSchema) (fun _ v => v) c []
    (fun p hp st => by simp [addItem, hb p hp, messageSchema, lookupSpec, dget]) hn
  simpa [messageSchema] using this

/-- A `verified_claims` object of the usual form: `verification` and `claims` are null or JSON objects without blank
entries; the other entries are not blank and not governed by those two. -/
structure UsualRequest (d : Dict) : Prop where
  nodup : DNodup d
  noSelf : dget d "self" = none
  noDefaults : dget d "set_defaults" = none
  entries : ∀ k v, (k, v) ∈ d →
    (k = "verification" ∨ k = "claims") ∧
      (v = .none ∨ ∃ c, v = .dict c ∧ (Val.dict c).isJson = true ∧ DNodup c ∧ ∀ p ∈ c, isBlank p.2 = false) ∨
    Ungoverned ida_VerifiedClaimsRequest k ∧ isBlank v = false

/-- what is stored for an entry: the two objects become messages -/
def asMessage (k : String) (v : Val) : Val :=
  match v with
  | .dict c => if k = "verification" ∨ k = "claims" then .msg messageSchema.cls c else .dict c
  | v => v

theorem ungoverned_name {k : String} (h : Ungoverned ida_VerifiedClaimsRequest k) : ¬ (k = "verification" ∨ k = "claims") := by
  rintro (rfl | rfl)
  · exact h.1 (by decide +kernel)
  · exact h.1 (by decide +kernel)

theorem request_item {k : String} {v : Val}
    (h : (k = "verification" ∨ k = "claims") ∧
      (v = .none ∨ ∃ c, v = .dict c ∧ (Val.dict c).isJson = true ∧ DNodup c ∧ ∀ p ∈ c, isBlank p.2 = false) ∨
      Ungoverned ida_VerifiedClaimsRequest k ∧ isBlank v = false) (st : Dict) :
    addItem ida_VerifiedClaimsRequest st k v = .ok (dset st k (asMessage k v)) := by
  rcases h with ⟨hk, rfl | ⟨c, rfl, hj, hn, hb⟩⟩ | ⟨hu, hb⟩
  · rcases hk with rfl | rfl <;> rfl
  · have hr := reads_msg messageSchema c c hj (message_keeps hn hb)
    rcases hk with rfl | rfl
    · have hl : lookupSpec ida_VerifiedClaimsRequest.params "verification" = some (false, optionalMessage) := rfl
      simp only [addItem, isBlank, hl, Bool.false_eq_true, if_false, Bool.false_and, addValue, optionalMessage]
      simp [ignoredList, singleValue, messageTy, Ty.isInst, msgDeser, hr, asMessage, orDecodeError]
    · have hl : ∃ sp, lookupSpec ida_VerifiedClaimsRequest.params "claims" = some (false, sp) ∧
          sp = ⟨.single (tyOf ida_IdentityAssuranceClaims), false, some .msg, some msgDeser, false⟩ := ⟨_, rfl, rfl⟩
      obtain ⟨sp, hl, rfl⟩ := hl
      simp only [addItem, isBlank, hl, Bool.false_eq_true, if_false, Bool.false_and, addValue]
      simp [ignoredList, singleValue, tyOf, Ty.isInst, msgDeser, hr, asMessage, orDecodeError]
  · have : asMessage k v = v := by
      unfold asMessage
      split
      · rw [if_neg (ungoverned_name hu)]
      · rfl
    simp [addItem, hb, lookupSpec_ungoverned hu, this]

theorem request_construct {d : Dict} (h : UsualRequest d) :
    construct ida_VerifiedClaimsRequest d = .ok (d.map (fun p => (p.1, asMessage p.1 p.2))) := by
  have hs : dhas d "self" = false := by rw [dhas_eq_false_iff]; exact h.noSelf
  have hd : ddel d "set_defaults" = d := by
    unfold ddel
    rw [List.filter_eq_self]
    rintro ⟨k, v⟩ hp
    have := (dget_eq_none_iff _ _).1 h.noDefaults
    simp only [Bool.not_eq_true', decide_eq_false_iff_not]
    intro e
    exact this (e ▸ List.mem_map_of_mem (f := (·.1)) hp)
  simp only [construct, hs, hd, initialDict, h.noDefaults, Bool.false_eq_true, if_false]
  have := fromDictR_each (sch := ida_VerifiedClaimsRequest) asMessage d []
    (fun p hp st => request_item (h.entries p.1 p.2 hp) st) h.nodup
  simpa [show ida_VerifiedClaimsRequest.default = [] from rfl] using this

/-! ## messages and objects are judged alike -/

theorem reqOk_msg (ps : Assoc Spec) (c : Cls) (d : Dict) : ReqOk ps (.msg c d) ↔ ReqOk ps (.dict d) := by
  constructor
  · rintro ⟨_, h⟩
    refine .obj (.inr ⟨d, .inl rfl⟩) fun k sp d' v hm hd hv => ?_
    rcases hd with e | ⟨_, e⟩
    · cases e; exact h k sp d v hm (.inr ⟨c, rfl⟩) hv
    · cases e
  · rintro ⟨_, h⟩
    refine .obj (.inr ⟨d, .inr ⟨c, rfl⟩⟩) fun k sp d' v hm hd hv => ?_
    rcases hd with e | ⟨_, e⟩
    · cases e
    · cases e; exact h k sp d v hm (.inl rfl) hv

theorem itemReqOk_asMessage (c : Cls) (s : Cls → Bool) (f : Dict → Res Val) (k : String) (v : Val) :
    ItemReqOk (.msg c s f) (asMessage k v) ↔ ItemReqOk (.msg c s f) v := by
  unfold asMessage
  split
  · split
    · constructor
      · intro h; cases h with
        | msg h => exact .msg ((reqOk_msg _ _ _).1 h)
      · intro h; cases h with
        | msg h => exact .msg ((reqOk_msg _ _ _).2 h)
    · exact Iff.rfl
  · exact Iff.rfl

theorem dget_asMessage (d : Dict) (k : String) :
    dget (d.map (fun p => (p.1, asMessage p.1 p.2))) k = (dget d k).map (asMessage k) := by
  induction d with
  | nil => rfl
  | cons p d ih =>
    obtain ⟨k', v⟩ := p
    simp only [List.map_cons, dget_cons]
    by_cases h : k' = k
    · subst h; simp
    · simp [h, ih]

theorem verifiedClaims_types : ∀ k sp, (k, sp) ∈ ida_VerifiedClaims.params → ∃ c s f, sp.vtyp = .single (.msg c s f) := by
  intro k sp h
  simp only [ida_VerifiedClaims, List.mem_cons, List.not_mem_nil, or_false, Prod.mk.injEq] at h
  rcases h with ⟨_, rfl⟩ | ⟨_, rfl⟩ <;> exact ⟨_, _, _, rfl⟩

theorem reqOk_asMessage (c : Cls) (d : Dict) :
    ReqOk ida_VerifiedClaims.params (.msg c (d.map (fun p => (p.1, asMessage p.1 p.2)))) ↔
    ReqOk ida_VerifiedClaims.params (.dict d) := by
  rw [reqOk_msg]
  constructor
  · rintro ⟨_, h⟩
    refine .obj (.inr ⟨d, .inl rfl⟩) fun k sp d' v hm hd hv => ?_
    rcases hd with e | ⟨_, e⟩
    · cases e
      have := h k sp _ (asMessage k v) hm (.inl rfl) (by rw [dget_asMessage, hv]; rfl)
      obtain ⟨c, s, f, ht⟩ := verifiedClaims_types k sp hm
      rw [ht] at this ⊢
      cases this with
      | single h => exact .single ((itemReqOk_asMessage ..).1 h)
    · cases e
  · rintro ⟨_, h⟩
    refine .obj (.inr ⟨_, .inl rfl⟩) fun k sp d' v hm hd hv => ?_
    rcases hd with e | ⟨_, e⟩
    · cases e
      rw [dget_asMessage] at hv
      cases hg : dget d k with
      | none => rw [hg] at hv; cases hv
      | some w =>
        rw [hg] at hv; cases hv
        have := h k sp _ w hm (.inl rfl) hg
        obtain ⟨c, s, f, ht⟩ := verifiedClaims_types k sp hm
        rw [ht] at this ⊢
        cases this with
        | single h => exact .single ((itemReqOk_asMessage ..).2 h)
    · cases e

/-! ## C80 -/

/-- **C80**, the request for a verification element: accepted (given enough stack) exactly when it names a trust
framework and is an acceptable request for a verification element at every depth. -/
theorem C80_element (st : Dict) :
    (∃ n, verificationElementRequestVerify n st = .ok ()) ↔
      (∃ v, dget st "trust_framework" = some v ∧ v.truthy = true) ∧ ReqOk ida_VerificationElement.params (.dict st) := by
  have hb : verifyBase ida_VerificationElementRequest st = .ok () ↔
      ∃ v, dget st "trust_framework" = some v ∧ v.truthy = true := by
    rw [C04_verify_iff]
    constructor
    · intro h
      obtain ⟨v, hv, hg⟩ := (h "trust_framework" singleRequiredString (by simp [ida_VerificationElementRequest]) (by decide)).1 rfl
      rcases hg with hg | hg
      · exact ⟨v, hv, hg⟩
      · cases hg
    · rintro ⟨v, hv, ht⟩ a sp hm _
      refine ⟨fun hr => ?_, fun v av _ _ e => by simp [show ida_VerificationElementRequest.allowed = [] from rfl] at e⟩
      simp only [ida_VerificationElementRequest, List.mem_cons, List.not_mem_nil, or_false, Prod.mk.injEq] at hm
      rcases hm with ⟨rfl, rfl⟩ | ⟨rfl, rfl⟩ | ⟨rfl, rfl⟩ | ⟨rfl, rfl⟩
      · exact ⟨v, hv, .inl ht⟩
      · cases hr
      · cases hr
      · cases hr
  rw [← reqOk_msg _ ida_VerificationElementRequest.cls, ← C80_iff, ← hb]
  constructor
  · rintro ⟨n, h⟩
    unfold verificationElementRequestVerify at h
    rw [bind_ok] at h
    obtain ⟨⟨⟩, h1, h2⟩ := h
    exact ⟨h1, n, h2⟩
  · rintro ⟨h1, n, h2⟩
    refine ⟨n, ?_⟩
    unfold verificationElementRequestVerify
    rw [bind_ok]
    exact ⟨(), h1, h2⟩

/-- **C80**: the way to ask for any trust framework, a null, is refused: a required parameter must have a value. -/
theorem C80_any_framework (n : Nat) (st : Dict) (h : dget st "trust_framework" = some .none) :
    verificationElementRequestVerify n st ≠ .ok () := by
  intro hok
  obtain ⟨⟨v, hv, ht⟩, _⟩ := (C80_element st).1 ⟨n, hok⟩
  rw [h] at hv; cases hv; cases ht

example : verificationElementRequestVerify 9 [("trust_framework", .str "de_aml"),
      ("evidence", .list [.dict [("type", .dict [("essential", .bool true)])]])] = .ok () ∧
    verificationElementRequestVerify 9 [("trust_framework", .str "de_aml"),
      ("evidence", .list [.dict [("type", .dict [("essential", .str "x")])]])] = .error .valueError := by decide +kernel

/-! ## C108 -/

theorem verifiedClaimsRequest_ok (n : Nat) (st : Dict) :
    verifiedClaimsRequestVerify n st = verifyClaimsRequest n ida_VerifiedClaims.params (.msg ida_VerifiedClaimsRequest.cls st) := by
  unfold verifiedClaimsRequestVerify
  rw [(C04_verify_iff _ _).2 (acceptable_free (by decide +kernel) rfl st)]
  rfl

/-- C108: an identity assurance claims request with a `verified_claims` object of the usual form is accepted (given
enough stack) exactly when the object is an acceptable request at every depth. -/
theorem C108_partial (st d : Dict) (hv : dget st "verified_claims" = some (.dict d)) (hd : d ≠ []) (hu : UsualRequest d) :
    (∃ n st', idaClaimsRequestVerify n st = .ok st') ↔ ReqOk ida_VerifiedClaims.params (.dict d) := by
  have hb : verifyBase ida_IDAClaimsRequest st = .ok () :=
    (C04_verify_iff _ _).2 (acceptable_free (by decide +kernel) rfl st)
  have ht : (Val.dict d).truthy = true := by cases d with
    | nil => exact absurd rfl hd
    | cons p d => rfl
  have hs : ∀ v, setItem ida_IDAClaimsRequest st "verified_claims" v = .ok (dset st "verified_claims" v) := fun v => rfl
  rw [← reqOk_asMessage ida_VerifiedClaimsRequest.cls, ← C80_iff]
  simp only [idaClaimsRequestVerify, hb, hv, ht, if_true, idaVerifiedClaims, Val.kwargsOf, request_construct hu,
    verifiedClaimsRequest_ok, hs, bind, Except.bind]
  constructor
  · rintro ⟨n, st', h⟩
    refine ⟨n, ?_⟩
    split at h
    · cases h
    · assumption
  · rintro ⟨n, h⟩
    exact ⟨n, _, by rw [h]⟩

/-- C108: what is stored then. -/
theorem C108_stored (n : Nat) (st st' d : Dict) (hv : dget st "verified_claims" = some (.dict d)) (hd : d ≠ [])
    (hu : UsualRequest d) (h : idaClaimsRequestVerify n st = .ok st') :
    (∃ vci, dget st' "verified_claims" = some (.msg ida_VerifiedClaimsRequest.cls vci) ∧
      (∀ k c, dget d k = some (.dict c) → k = "verification" ∨ k = "claims" →
        dget vci k = some (.msg messageSchema.cls c)) ∧
      ∀ k v, dget d k = some v → k ≠ "verification" → k ≠ "claims" → dget vci k = some v) ∧
    ∀ k, k ≠ "verified_claims" → dget st' k = dget st k := by
  have hb : verifyBase ida_IDAClaimsRequest st = .ok () :=
    (C04_verify_iff _ _).2 (acceptable_free (by decide +kernel) rfl st)
  have ht : (Val.dict d).truthy = true := by cases d with
    | nil => exact absurd rfl hd
    | cons p d => rfl
  have hs : ∀ v, setItem ida_IDAClaimsRequest st "verified_claims" v = .ok (dset st "verified_claims" v) := fun v => rfl
  simp only [idaClaimsRequestVerify, hb, hv, ht, if_true, idaVerifiedClaims, Val.kwargsOf, request_construct hu,
    verifiedClaimsRequest_ok, hs, bind, Except.bind] at h
  split at h
  · cases h
  · cases h
    refine ⟨⟨_, dget_dset_same _ _ _, fun k c hk hn => ?_, fun k v hk h1 h2 => ?_⟩,
      fun k hk => dget_dset_ne _ _ (Ne.symm hk)⟩
    · rw [dget_asMessage, hk]; simp [asMessage, hn]
    · rw [dget_asMessage, hk]
      have : asMessage k v = v := by
        unfold asMessage
        split
        · rw [if_neg (by rintro (e | e); exacts [h1 e, h2 e])]
        · rfl
      simp [this]

/-- C108, spelled out for the claims: every single-valued claim of the request that is an object is an acceptable
request value of the claim's own type. -/
theorem C108_claims (n : Nat) (st st' d c r : Dict) (k : String) (sp : Spec) (t : Ty)
    (hv : dget st "verified_claims" = some (.dict d)) (hu : UsualRequest d)
    (h : idaClaimsRequestVerify n st = .ok st') (hc : dget d "claims" = some (.dict c))
    (hk : (k, sp) ∈ ida_IdentityAssuranceClaims.params) (ht : sp.vtyp = .single t) (hs : t.scalar)
    (hr : dget c k = some (.dict r)) : RequestValue t r := by
  have hd : d ≠ [] := by rintro rfl; cases hc
  have := (C108_partial st d hv hd hu).1 ⟨n, st', h⟩
  obtain ⟨_, h1⟩ := this
  have h2 := h1 "claims" ⟨.single (tyOf ida_IdentityAssuranceClaims), false, some .msg, some msgDeser, false⟩ d _
    (List.mem_cons_of_mem _ (List.mem_cons_self ..)) (.inl rfl) hc
  have hp : paramsOf ida_IdentityAssuranceClaims.cls = ida_IdentityAssuranceClaims.params := rfl
  simp only [tyOf] at h2
  cases h2 with
  | single h2 =>
    cases h2 with
    | msg h2 =>
      rw [hp] at h2
      obtain ⟨_, h3⟩ := h2
      have h4 := h3 k sp c _ hk (.inl rfl) hr
      rw [ht] at h4
      cases h4 with
      | single h4 =>
        cases h4 with
        | str h => exact (C39_iff hs _).1 h r rfl
        | int h => exact (C39_iff hs _).1 h r rfl
        | bool h => exact (C39_iff hs _).1 h r rfl
        | dict => exact absurd hs (by simp [Ty.scalar])
        | msg _ => exact absurd hs (by simp [Ty.scalar])

/-- C108 is false where the requests are usually found: inside `userinfo` and `id_token`.  A message without a
`verified_claims` parameter of its own is accepted and left alone, whatever it contains. -/
theorem C108_counterexample_inside (n : Nat) (st : Dict) (h : dget st "verified_claims" = none) :
    idaClaimsRequestVerify n st = .ok st := by
  have hb : verifyBase ida_IDAClaimsRequest st = .ok () :=
    (C04_verify_iff _ _).2 (acceptable_free (by decide +kernel) rfl st)
  simp only [idaClaimsRequestVerify, hb, h, bind, Except.bind]

/-- the same request, refused on the outside and accepted inside `userinfo` -/
def badVerified : Val := .dict [("claims", .dict [("given_name", .dict [("essential", .str "perhaps")])])]

theorem C108_counterexample_userinfo (n : Nat) :
    idaClaimsRequestVerify 5 [("verified_claims", badVerified)] = .error .valueError ∧
    idaClaimsRequestVerify n [("userinfo", .msg oidc_Claims.cls [("verified_claims", badVerified)])] =
      .ok [("userinfo", .msg oidc_Claims.cls [("verified_claims", badVerified)])] := by
  constructor
  · decide +kernel
  · exact C108_counterexample_inside n _ rfl

/-- C108 is false for an array of requests: `VerifiedClaimsRequest(**[..])` is a `TypeError`. -/
theorem C108_counterexample_array (n : Nat) (st : Dict) (v : Val) (vs : List Val)
    (h : dget st "verified_claims" = some (.list (v :: vs))) : idaClaimsRequestVerify n st = .error .typeError := by
  have hb : verifyBase ida_IDAClaimsRequest st = .ok () :=
    (C04_verify_iff _ _).2 (acceptable_free (by decide +kernel) rfl st)
  simp [idaClaimsRequestVerify, hb, h, idaVerifiedClaims, Val.kwargsOf, Val.truthy, bind, Except.bind]

/-- C108 is false for empty and blank values: they are dropped, not judged. -/
theorem C108_counterexample_dropped :
    idaClaimsRequestVerify 5 [("verified_claims", .dict [("claims", .list [])])] =
      .ok [("verified_claims", .msg ida_VerifiedClaimsRequest.cls [])] ∧
    idaClaimsRequestVerify 5 [("verified_claims", .dict [("claims", .dict [("address", .str "")])])] =
      .ok [("verified_claims", .msg ida_VerifiedClaimsRequest.cls [("claims", .msg messageSchema.cls [])])] ∧
    ¬ ReqOk ida_VerifiedClaims.params (.dict [("claims", .list [])]) := by
  refine ⟨by decide +kernel, by decide +kernel, fun h => ?_⟩
  obtain ⟨_, h1⟩ := h
  have h2 := h1 "claims" ⟨.single (tyOf ida_IdentityAssuranceClaims), false, some .msg, some msgDeser, false⟩ _ _
    (List.mem_cons_of_mem _ (List.mem_cons_self ..)) (.inl rfl) rfl
  simp only [tyOf] at h2
  cases h2 with
  | single h2 =>
    cases h2 with
    | msg h2 =>
      rw [show paramsOf ida_IdentityAssuranceClaims.cls = ida_IdentityAssuranceClaims.params from rfl] at h2
      obtain ⟨h3 | ⟨_, h3 | ⟨_, h3⟩⟩, _⟩ := h2
      · have : ida_IdentityAssuranceClaims.params.length = 0 := by rw [h3]; rfl
        exact absurd this (by decide +kernel)
      · cases h3
      · cases h3

/-! ## the hypotheses can be met -/

def usualVerified : Dict :=
  [("verification", .dict [("trust_framework", .dict [("value", .str "de_aml")]), ("evidence", .list [.dict [("type", .none)]])]),
   ("claims", .dict [("given_name", .none), ("birthdate", .dict [("essential", .bool true), ("purpose", .str "age check")])]),
   ("x", .int 1)]

example : UsualRequest usualVerified := by
  refine ⟨by decide +kernel, rfl, rfl, fun k v h => ?_⟩
  simp only [usualVerified, List.mem_cons, List.not_mem_nil, or_false, Prod.mk.injEq] at h
  rcases h with ⟨rfl, rfl⟩ | ⟨rfl, rfl⟩ | ⟨rfl, rfl⟩
  · exact .inl ⟨.inl rfl, .inr ⟨_, rfl, by decide +kernel, by decide +kernel, by decide +kernel⟩⟩
  · exact .inl ⟨.inr rfl, .inr ⟨_, rfl, by decide +kernel, by decide +kernel, by decide +kernel⟩⟩
  · refine .inr ⟨⟨by decide +kernel, by decide +kernel, fun name tag h => ?_⟩, rfl⟩
    have := congrArg String.toList h
    rw [String.toList_ofList] at this
    cases name with
    | nil => simp at this
    | cons c cs => cases cs <;> simp at this

example : (idaClaimsRequestVerify 5 [("verified_claims", .dict usualVerified)]).isOk = true := by decide +kernel

end Verif
