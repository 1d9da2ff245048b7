import Verif.Props.ClaimsRequest
import Verif.Props.Encoding
import Verif.Props.RequestObject

/-!
# C134: claims requests made with a `ClaimsConstructor`, `oidc/identity_assurance.py:515-555`
-/

namespace Verif

/-- The content of a `ClaimsConstructor` for a class of the library after successful assignments of JSON values and of other
such constructors. -/
inductive Made : Cls → List (String × CVal) → Prop
  | start {s : Schema} : s ∈ allSchemas → Made s.cls []
  | json {c info k v info'} : Made c info → v.isJson = true → ccSet (paramsOf c) info k (.val v) = .ok info' → Made c info'
  | con {c info k b i info'} : Made c info → Made b i → ccSet (paramsOf c) info k (.con b i) = .ok info' → Made c info'

/-- a message type of a single-valued parameter admits only its own class, or is `Message` -/
def VTyp.exactMsg (b : Cls) : VTyp → Bool
  | .single (.msg c sub _) => !sub b || (paramsOf c).isEmpty || b == c
  | _ => true

theorem exactMsgs : allSchemas.all (fun s => s.params.all (fun p => allSchemas.all (fun b => p.2.vtyp.exactMsg b.cls))) = true := by
  decide +kernel

theorem made_class {c : Cls} {info : List (String × CVal)} (h : Made c info) : ∃ s ∈ allSchemas, s.cls = c := by
  induction h with
  | start hs => exact ⟨_, hs, rfl⟩
  | json _ _ _ ih => exact ih
  | con _ _ _ ih _ => exact ih

theorem ccSet_ok {ps : Assoc Spec} {info info' : List (String × CVal)} {k : String} {v : CVal} (h : ccSet ps info k v = .ok info') :
    info' = dset info k v ∧ ∀ sp, dget ps k = some sp → Holds sp.vtyp v := ((C71_assign ps info k v).1 info').1 h

theorem made_nodup {c : Cls} {info : List (String × CVal)} (h : Made c info) : DNodup info := by
  induction h with
  | start hs => exact List.nodup_nil
  | json _ _ ha ih => rw [(ccSet_ok ha).1]; exact dset_nodup ih _ _
  | con _ _ ha ih _ => rw [(ccSet_ok ha).1]; exact dset_nodup ih _ _

theorem paramsOf_mem {c : Cls} {k : String} {sp : Spec} (h : (k, sp) ∈ paramsOf c) : ∃ s ∈ allSchemas, (k, sp) ∈ s.params := by
  unfold paramsOf at h
  split at h
  · rename_i s hs
    exact ⟨s, List.mem_of_find?_eq_some hs, h⟩
  · cases h

theorem ccToDict_keys (info : List (String × CVal)) : dkeys (ccToDict info) = dkeys info := by
  induction info with
  | nil => rfl
  | cons p info ih =>
    obtain ⟨k', v⟩ := p
    simp only [ccToDict, dkeys, List.map_cons] at ih ⊢
    rw [ih]

/-- What is known of the entries of a constructor. -/
structure Entries (c : Cls) (info : List (String × CVal)) : Prop where
  json : ∀ p ∈ info, (ccVal p.2).isJson = true
  good : ∀ k v sp, dget info k = some v → (k, sp) ∈ paramsOf c → ParamReqOk sp.vtyp (ccVal v)

theorem isJsonDict_of {d : List (String × Val)} (h : ∀ p ∈ d, p.2.isJson = true) : Val.isJsonDict d = true := by
  induction d with
  | nil => rfl
  | cons p d ih =>
    obtain ⟨k, v⟩ := p
    simp only [Val.isJsonDict, Bool.and_eq_true]
    exact ⟨h _ (List.mem_cons_self ..), ih fun q hq => h q (List.mem_cons_of_mem _ hq)⟩

theorem ccToDict_mem {info : List (String × CVal)} {p : String × Val} (h : p ∈ ccToDict info) : ∃ q ∈ info, p.2 = ccVal q.2 := by
  induction info with
  | nil => cases h
  | cons q info ih =>
    obtain ⟨k', v⟩ := q
    simp only [ccToDict, List.mem_cons] at h
    rcases h with rfl | h
    · exact ⟨_, List.mem_cons_self .., rfl⟩
    · obtain ⟨q, hq, e⟩ := ih h
      exact ⟨q, List.mem_cons_of_mem _ hq, e⟩

theorem entries_json {c : Cls} {info : List (String × CVal)} (hn : DNodup info) (h : Entries c info) :
    (Val.dict (ccToDict info)).isJson = true := by
  simp only [Val.isJson, Bool.and_eq_true, decide_eq_true_eq]
  refine ⟨by rw [ccToDict_keys]; exact hn, isJsonDict_of fun p hp => ?_⟩
  obtain ⟨q, hq, e⟩ := ccToDict_mem hp
  rw [e]; exact h.json q hq

theorem entries_ok {c : Cls} {info : List (String × CVal)} (h : Entries c info) :
    ReqOk (paramsOf c) (.dict (ccToDict info)) := by
  refine .obj (.inr ⟨_, .inl rfl⟩) fun k sp d v hm hd hg => ?_
  rcases hd with hd | ⟨_, hd⟩ <;> cases hd
  rw [ccToDict_get] at hg
  cases hi : dget info k with
  | none => rw [hi] at hg; cases hg
  | some w => rw [hi] at hg; cases hg; exact h.good k w sp hi hm

theorem params_nodup : allSchemas.all (fun s => decide (dkeys s.params).Nodup) = true := by decide +kernel

theorem paramsOf_get {c : Cls} {k : String} {sp : Spec} (h : (k, sp) ∈ paramsOf c) : dget (paramsOf c) k = some sp := by
  refine mem_dget ?_ h
  unfold paramsOf at h ⊢
  split
  · rename_i s hs
    exact of_decide_eq_true (List.all_eq_true.1 params_nodup s (List.mem_of_find?_eq_some hs))
  · exact List.nodup_nil

/-- an assignment keeps what is known -/
theorem entries_set {c : Cls} {info : List (String × CVal)} {k : String} {v : CVal} (h : Entries c info)
    (hj : (ccVal v).isJson = true) (hg : ∀ sp, (k, sp) ∈ paramsOf c → ParamReqOk sp.vtyp (ccVal v)) :
    Entries c (dset info k v) := by
  refine ⟨fun p hp => ?_, fun k' w sp hw hm => ?_⟩
  · obtain ⟨k', w⟩ := p
    rcases mem_dset_of hp with ⟨-, rfl⟩ | hp
    · exact hj
    · exact h.json _ hp
  · by_cases hk : k' = k
    · subst hk
      rw [dget_dset_same] at hw
      cases hw
      exact hg sp hm
    · rw [dget_dset_ne _ _ (by first | exact hk | exact Ne.symm hk)] at hw
      exact h.good k' w sp hw hm

theorem value_plain {t : Ty} {v : Val} (h : ∀ d, v ≠ .dict d) : verifyClaimsRequestValue v t = .ok true := by
  cases v with
  | dict d => exact absurd rfl (h d)
  | _ => rfl

theorem made_entries {c : Cls} {info : List (String × CVal)} (h : Made c info) : Entries c info := by
  induction h with
  | start hs => exact ⟨fun p hp => (nomatch hp), fun k v sp hv => (nomatch hv)⟩
  | @json c info k v info' hm hj ha ih =>
    obtain ⟨rfl, hh⟩ := ccSet_ok ha
    refine entries_set ih hj fun sp hsp => ?_
    have := hh sp (paramsOf_get hsp)
    generalize sp.vtyp = t at this
    show ParamReqOk t v
    cases this with
    | null t =>
      cases t with
      | list t => exact .listNull
      | single t =>
        refine .single ?_
        cases t with
        | str => exact .str rfl
        | int => exact .int rfl
        | bool => exact .bool rfl
        | dict => exact .dict
        | msg c s f => exact .msgNull
    | str s => exact .single (.str (value_plain fun d h => nomatch h))
    | int i => exact .single (.int (value_plain fun d h => nomatch h))
    | boolInt b => exact .single (.int (value_plain fun d h => nomatch h))
    | bool b => exact .single (.bool (value_plain fun d h => nomatch h))
    | dict d => exact .single .dict
    | msg d hb => cases hj
  | @con c info k b i info' hm hi ha ih ihi =>
    obtain ⟨rfl, hh⟩ := ccSet_ok ha
    have hj := entries_json (made_nodup hi) ihi
    refine entries_set ih hj fun sp hsp => ?_
    have h1 := hh sp (paramsOf_get hsp)
    obtain ⟨s, hs, hps⟩ := paramsOf_mem hsp
    obtain ⟨b', hb', hbc⟩ := made_class hi
    have h2 := List.all_eq_true.1 (List.all_eq_true.1 (List.all_eq_true.1 exactMsgs s hs) _ hps) b' hb'
    rw [hbc] at h2
    show ParamReqOk sp.vtyp (.dict (ccToDict i))
    cases hv : sp.vtyp with
    | list t => rw [hv] at h1; cases h1
    | single t =>
      rw [hv] at h1 h2
      cases h1 with
      | con _ hb =>
        rename_i c' sub f
        refine .single (.msg ?_)
        simp only [VTyp.exactMsg, hb, Bool.not_true, Bool.false_or, Bool.or_eq_true, List.isEmpty_iff, beq_iff_eq] at h2
        rcases h2 with h2 | rfl
        · rw [h2]
          exact .obj (.inl rfl) fun k sp d v hm => (nomatch hm)
        · exact entries_ok ihi

/-- **C134.** Whatever JSON values and constructors have been assigned to a constructor, at any depth: `to_json` gives a text, a
receiver reads the same data from it, and `verify_claims_request` for the class accepts it. -/
theorem C134_constructed_accepted {c : Cls} {info : List (String × CVal)} (h : Made c info) :
    ∃ txt, ccToJson info = .ok txt ∧ loads txt = .ok (.dict (ccToDict info)) ∧
      ∃ n, verifyClaimsRequest n (paramsOf c) (.dict (ccToDict info)) = .ok () := by
  have he := made_entries h
  obtain ⟨txt, h1, h2⟩ := C06_json_roundtrip _ (entries_json (made_nodup h) he)
  exact ⟨txt, h1, h2, (C80_iff _ _).2 (entries_ok he)⟩

/-- **C134**, end to end: an identity assurance claims request that carries the content of a constructor for `VerifiedClaims` (one
without blank values) is accepted. -/
theorem C134_request_accepted {info : List (String × CVal)} (h : Made ida_VerifiedClaims.cls info) (hi : info ≠ [])
    (hu : UsualRequest (ccToDict info)) (st : Dict) (hv : dget st "verified_claims" = some (.dict (ccToDict info))) :
    ∃ n st', idaClaimsRequestVerify n st = .ok st' := by
  have hp : paramsOf ida_VerifiedClaims.cls = ida_VerifiedClaims.params := rfl
  refine (C108_partial st _ hv (fun e => ?_) hu).2 (hp ▸ entries_ok (made_entries h))
  cases info with
  | nil => exact hi rfl
  | cons p info => obtain ⟨k, v⟩ := p; cases e

/-- the claims request of the documentation: a nested constructor for the verification element -/
def madeExample : List (String × CVal) :=
  [("verification", .con ida_VerificationElement.cls [("trust_framework", .val (.str "de_aml"))]),
   ("claims", .con ida_IdentityAssuranceClaims.cls [("given_name", .val .none)])]

example : Made ida_VerifiedClaims.cls madeExample := by
  have h1 : Made ida_VerificationElement.cls [("trust_framework", .val (.str "de_aml"))] :=
    .json (k := "trust_framework") (v := .str "de_aml") (.start (s := ida_VerificationElement) (by simp [allSchemas])) rfl (by rfl)
  have h2 : Made ida_IdentityAssuranceClaims.cls [("given_name", .val .none)] :=
    .json (k := "given_name") (v := .none) (.start (s := ida_IdentityAssuranceClaims) (by simp [allSchemas])) rfl (by rfl)
  exact .con (k := "claims") (.con (k := "verification") (.start (s := ida_VerifiedClaims) (by simp [allSchemas])) h1 (by rfl)) h2 (by rfl)

example : UsualRequest (ccToDict madeExample) ∧ madeExample ≠ [] := by
  refine ⟨⟨by decide, rfl, rfl, fun k v h => .inl ?_⟩, by simp [madeExample]⟩
  simp only [madeExample, ccToDict, ccVal, List.mem_cons, Prod.mk.injEq, List.not_mem_nil, or_false] at h
  rcases h with ⟨rfl, rfl⟩ | ⟨rfl, rfl⟩
  · exact ⟨.inl rfl, .inr ⟨_, rfl, by decide, by decide, by decide⟩⟩
  · exact ⟨.inr rfl, .inr ⟨_, rfl, by decide, by decide, by decide⟩⟩

/-- A request that was not made that way is refused. -/
example : verifyClaimsRequest 5 (paramsOf ida_VerifiedClaims.cls)
    (.dict [("verification", .dict [("trust_framework", .dict [("value", .int 7)])])]) = .error .valueError := by decide +kernel

end Verif
