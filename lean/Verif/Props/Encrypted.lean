import Verif.Props.Unknown
import Verif.Props.Authentic

/-!
# C152: encrypting a token only hides it

An encrypted token is opened with the receiver's own keys, and then treated as if what is inside had been sent.
-/

namespace Verif

/-- With these options and this key jar, the text `outer` is an encrypted token that the receiver's own keys open; inside is the text
`inner`, which is not encrypted. -/
structure Wraps (C : Crypto) (kj : C.KeyJar) (algs : Dict) (outer inner : String) : Prop where
  opens : ∃ w ks, C.jwe outer algs = .ok (some w) ∧ C.decryptKeys kj = .ok ks ∧ C.decrypt w outer ks = .ok inner
  inside : C.jwe inner algs = .ok none

/-- the options for encryption among those of the caller -/
def encOptions (kw : Dict) : Dict :=
  ((dget kw "encalg").map (fun v => ("alg", v))).toList ++ ((dget kw "encenc").map (fun v => ("enc", v))).toList

theorem algArg_encOptions (kw : Dict) : algArg kw = encOptions kw := by
  unfold algArg encOptions
  cases dget kw "encalg" <;> cases dget kw "encenc" <;> rfl

theorem encOptions_congr {kw kw' : Dict} (h1 : dget kw' "encalg" = dget kw "encalg") (h2 : dget kw' "encenc" = dget kw "encenc") :
    encOptions kw' = encOptions kw := by
  unfold encOptions; rw [h1, h2]

theorem encOptions_verify (kw : Dict) : encOptions (ddel kw "verify") = encOptions kw :=
  encOptions_congr (dget_ddel_ne _ (by decide)) (dget_ddel_ne _ (by decide))

/-- **C152, from_jwt.**  An encrypted token gives what the token inside gives. -/
theorem C152_from_jwt {C : Crypto} {kj : C.KeyJar} {args : Dict} {outer inner : String}
    (h : Wraps C kj (encOptions args) outer inner) (sch : Schema) :
    fromJwt C sch outer (some (some kj)) args = fromJwt C sch inner (some (some kj)) args := by
  obtain ⟨⟨w, ks, h1, h2, h3⟩, h4⟩ := h
  unfold fromJwt decryptStep
  simp only [algArg_encOptions, encOptions_verify, h1, h2, h3, h4]

/-- **C152, own keys.**  An encrypted token is accepted only if the keys that the key jar has for the receiver open it; nothing of it is
accepted without a key jar. -/
theorem C152_own_keys {C : Crypto} {sch : Schema} {txt : String} {jar : JarArg C} {args : Dict} {m : JwtMsg C}
    {w : C.Jwe} (hw : C.jwe txt (encOptions args) = .ok (some w)) (h : fromJwt C sch txt jar args = .ok m) :
    ∃ kj ks inner, jar = some (some kj) ∧ C.decryptKeys kj = .ok ks ∧ C.decrypt w txt ks = .ok inner := by
  unfold fromJwt decryptStep at h
  simp only [algArg_encOptions, encOptions_verify, hw] at h
  match jar with
  | none => cases h
  | some none => cases h
  | some (some kj) =>
    simp only [] at h
    cases hk : C.decryptKeys kj with
    | error e => rw [hk] at h; cases h
    | ok ks =>
      rw [hk] at h
      simp only [] at h
      cases hd : C.decrypt w txt ks with
      | error e => rw [hd] at h; cases h
      | ok inner => exact ⟨kj, ks, inner, rfl, hk, hd⟩

/-! ## request objects -/

theorem encOptions_request (kw : Dict) : encOptions (requestArgs kw) = encOptions kw :=
  encOptions_congr (by rw [requestArgs, dget_pick]; simp) (by rw [requestArgs, dget_pick]; simp)

theorem encOptions_idToken (kw : Dict) : encOptions (pick idTokenVerifyArgs kw) = encOptions kw :=
  encOptions_congr (by rw [dget_pick]; simp [idTokenVerifyArgs]) (by rw [dget_pick]; simp [idTokenVerifyArgs])

/-- the same but for one parameter -/
def OtherThan (name : String) (k : String) : Prop := k ≠ name

theorem equalAt_other (name : String) (st : Dict) (v w : Val) : EqualAt (OtherThan name) (dset st name v) (dset st name w) := by
  intro k hk
  rw [dget_dset_ne _ _ (Ne.symm hk), dget_dset_ne _ _ (Ne.symm hk)]

/-- **C152, request objects of OAuth 2.** -/
theorem C152_jwt_secured {C : Crypto} {kj : C.KeyJar} {kw : Dict} {outer inner : String}
    (h : Wraps C kj (encOptions kw) outer inner) (st : Dict) :
    Alike (EqualAt (OtherThan "request")) (jwtSecuredVerify C (dset st "request" (.str outer)) (some (some kj)) kw)
      (jwtSecuredVerify C (dset st "request" (.str inner)) (some (some kj)) kw) := by
  unfold jwtSecuredVerify requestObject
  rw [dget_dset_same, dget_dset_same]
  simp only [strOf]
  rw [C152_from_jwt (by rw [encOptions_request]; exact h)]
  cases fromJwt C oauth2_AuthorizationRequest inner (some (some kj)) (requestArgs kw) with
  | error e => exact rfl
  | ok m => exact equalAt_dset (equalAt_merge (equalAt_ddel (equalAt_other _ _ _ _) _) _ _ _) _ _

theorem C152_pushed {C : Crypto} {kj : C.KeyJar} {kw : Dict} {outer inner : String}
    (h : Wraps C kj (encOptions kw) outer inner) (st : Dict) :
    Alike (EqualAt (OtherThan "request")) (pushedVerify C (dset st "request" (.str outer)) (some (some kj)) kw)
      (pushedVerify C (dset st "request" (.str inner)) (some (some kj)) kw) := by
  unfold pushedVerify requestObject
  rw [dget_dset_same, dget_dset_same]
  simp only [strOf]
  rw [C152_from_jwt (by rw [encOptions_request]; exact h)]
  cases fromJwt C oauth2_AuthorizationRequest inner (some (some kj)) (requestArgs kw) with
  | error e => exact rfl
  | ok m => exact equalAt_dset (equalAt_merge (equalAt_ddel (equalAt_other _ _ _ _) _) _ _ _) _ _

theorem verifyBase_other {sch : Schema} {name : String} {v w : Val} (ha : dget sch.allowed name = none)
    (hr : ∀ sp, (name, sp) ∈ sch.params → sp.required = true → v.truthy = true ∧ w.truthy = true) (st : Dict) :
    verifyBase sch (dset st name w) = verifyBase sch (dset st name v) := by
  unfold verifyBase
  generalize sch.params = ps at hr
  induction ps with
  | nil => rfl
  | cons p ps ih =>
    obtain ⟨a, sp⟩ := p
    have e : verifyParam sch.allowed (dset st name w) a sp = verifyParam sch.allowed (dset st name v) a sp := by
      unfold verifyParam
      by_cases hn : name = a
      · subst hn
        rw [dget_dset_same, dget_dset_same]
        by_cases hq : sp.required = true
        · obtain ⟨h1, h2⟩ := hr sp (by simp) hq
          simp [h1, h2, ha]
        · simp only [ha, hq]
          split <;> simp
      · rw [dget_dset_ne _ _ hn, dget_dset_ne _ _ hn]
    simp only [verifyParams, e, ih fun sp' hm => hr sp' (by simp [hm])]

theorem clear_dset {st : Dict} {name : String} (h : ¬ IsSlot name) (v : Val) (k : String) :
    dget (clearVerifiedClaims (dset st name v)) k = dget (dset (clearVerifiedClaims st) name v) k := by
  have hn : ∀ k', IsSlot k' → name ≠ k' := fun k' hk' e => h (e ▸ hk')
  by_cases hk : IsSlot k
  · obtain ⟨a1, a2, a3⟩ := clear_slots (dset st name v)
    obtain ⟨b1, b2, b3⟩ := clear_slots st
    rw [dget_dset_ne _ _ (hn k hk)]
    rcases hk with rfl | rfl | rfl
    · rw [a1, b1]
    · rw [a2, b2]
    · rw [a3, b3]
  · have hk' : ∀ k', IsSlot k' → k ≠ k' := fun k' h' e => hk (e ▸ h')
    rw [clear_dget _ _ (hk' _ (.inl rfl)) (hk' _ (.inr (.inl rfl))) (hk' _ (.inr (.inr rfl)))]
    by_cases e : name = k
    · subst e; rw [dget_dset_same, dget_dset_same]
    · rw [dget_dset_ne _ _ e, dget_dset_ne _ _ e,
        clear_dget _ _ (hk' _ (.inl rfl)) (hk' _ (.inr (.inl rfl))) (hk' _ (.inr (.inr rfl)))]

/-- logging does not fail for texts -/
theorem logDifferences_text {name s s' : String} {st st' : Dict} (h : EqualAt (OtherThan name) st st')
    (h1 : dget st name = some (.str s)) (h2 : dget st' name = some (.str s')) (l : Dict) :
    logDifferences st' l = logDifferences st l := by
  induction l with
  | nil => rfl
  | cons p l ih =>
    obtain ⟨k, v⟩ := p
    unfold logDifferences
    by_cases hk : k = name
    · subst hk
      rw [h1, h2, ih]
      cases v with
      | msg c d =>
        have he : ∀ t, (Val.str t).eq (.msg c d) = false := fun t => by simp [Val.eq, Val.num?]
        simp only [he, formatOk]
      | _ => simp [formatOk]
    · rw [h k hk, ih]

/-- **C152, request objects of OpenID Connect.**  The request is verified alike, and but for the parameter itself the same is left
behind. -/
theorem C152_authz_request {C : Crypto} {kj : C.KeyJar} {kw : Dict} {outer inner : String}
    (h : Wraps C kj (encOptions kw) outer inner) (st : Dict) :
    Alike (EqualAt (OtherThan "request")) (authzRequestVerify C (dset st "request" (.str outer)) (some (some kj)) kw)
      (authzRequestVerify C (dset st "request" (.str inner)) (some (some kj)) kw) := by
  have hslot : ¬ IsSlot "request" := by rintro (h | h | h) <;> simp at h
  have hc : EqualAt (OtherThan "request") (clearVerifiedClaims (dset st "request" (.str outer)))
      (clearVerifiedClaims (dset st "request" (.str inner))) := by
    intro k hk
    rw [clear_dset hslot, clear_dset hslot]
    exact equalAt_other _ _ _ _ k hk
  unfold authzRequestVerify
  refine alike_seq (verifyBase_other rfl (fun sp hm hq => ?_) st) fun _ => ?_
  · have : ∀ p ∈ oidc_AuthorizationRequest.params, p.1 = "request" → p.2.required = false := by decide +kernel
    rw [this _ hm rfl] at hq; cases hq
  have hargs : Alike (fun a b => b = a ∧ encOptions a = encOptions kw)
      (authzArgs (clearVerifiedClaims (dset st "request" (.str outer))) kw)
      (authzArgs (clearVerifiedClaims (dset st "request" (.str inner))) kw) := by
    rw [authzArgs_agree (hc "client_id" (by simp [OtherThan]))]
    unfold authzArgs
    split
    · exact ⟨rfl, encOptions_request kw⟩
    · cases getR (clearVerifiedClaims (dset st "request" (.str outer))) "client_id" with
      | error e => exact rfl
      | ok c =>
        refine ⟨rfl, ?_⟩
        rw [← encOptions_request kw]
        exact encOptions_congr (dget_dset_ne _ _ (by decide)) (dget_dset_ne _ _ (by decide))
  refine alike_bind hargs ?_
  rintro _ args ⟨rfl, ha⟩
  have hreq : ∀ t, dget (clearVerifiedClaims (dset st "request" (.str t))) "request" = some (.str t) := fun t => by
    rw [clear_dset hslot, dget_dset_same]
  have hstep : Alike (fun a b => EqualAt (OtherThan "request") a.1 b.1 ∧ b.2 = a.2)
      (requestStep C (clearVerifiedClaims (dset st "request" (.str outer))) (some (some kj)) args)
      (requestStep C (clearVerifiedClaims (dset st "request" (.str inner))) (some (some kj)) args) := by
    unfold requestStep
    rw [hreq, hreq]
    simp only []
    rw [C152_from_jwt (by rw [ha]; exact h)]
    cases fromJwt C oidc_OpenIDRequest inner (some (some kj)) args with
    | error e => exact rfl
    | ok m =>
      simp only [logDifferences_text hc (hreq _) (hreq _)]
      cases logDifferences (clearVerifiedClaims (dset st "request" (.str outer))) m.st with
      | error e => exact rfl
      | ok u => exact ⟨equalAt_dset (equalAt_dupdate (equalAt_dropKeys hc _) _) _ _, rfl⟩
  refine alike_bind hstep ?_
  rintro ⟨a1, a2⟩ ⟨b1, b2⟩ ⟨hab, rfl⟩
  have hhint : Alike (EqualAt (OtherThan "request")) (hintStep C a1 b2 args) (hintStep C b1 b2 args) := by
    unfold hintStep
    simp only [] at hab
    rw [hab "id_token_hint" (by simp [OtherThan])]
    split
    · cases fromJwt C oidc_IdToken _ b2 args with
      | error e => exact rfl
      | ok m => exact equalAt_dset hab _ _
    · exact hab
  refine alike_bind hhint fun s s' hs => ?_
  refine alike_seq ?_ fun _ => hs
  have h1 : scopeStep s' = scopeStep s := by
    unfold scopeStep consentStep promptHas scopeOf
    rw [hs "scope" (by simp [OtherThan]), hs "prompt" (by simp [OtherThan])]
  have h2 : promptStep s' = promptStep s := by unfold promptStep; rw [hs "prompt" (by simp [OtherThan])]
  have h3 : ∀ rt, nonceStep s' kw rt = nonceStep s kw rt := by
    intro rt; unfold nonceStep; rw [hs "nonce" (by simp [OtherThan]), matchArg_same kw _ (hs "nonce" (by simp [OtherThan]))]
  unfold authzRequestConds getReq
  rw [hs "response_type" (by simp [OtherThan])]
  simp only [h1, h2, h3]

/-! ## logout tokens -/

/-- **C152, logout tokens.** -/
theorem C152_back_channel {C : Crypto} {kj : C.KeyJar} {now : Int} {kw : Dict} {outer inner : String}
    (h : Wraps C kj (encOptions kw) outer inner) (ho : outer ≠ "") (hi : inner ≠ "") (st : Dict) :
    Alike (EqualAt (OtherThan "logout_token")) (backChannelVerify C now (dset st "logout_token" (.str outer)) (some (some kj)) kw)
      (backChannelVerify C now (dset st "logout_token" (.str inner)) (some (some kj)) kw) := by
  unfold backChannelVerify
  refine alike_seq (verifyBase_other rfl (fun _ _ _ => ?_) st) fun _ => ?_
  · simp [Val.truthy, ho, hi]
  unfold getR
  rw [dget_dset_same, dget_dset_same]
  change Alike _ (fromJwt C session_LogoutToken outer _ _ >>= _) (fromJwt C session_LogoutToken inner _ _ >>= _)
  refine alike_seq (C152_from_jwt (by rw [encOptions_idToken]; exact h) _).symm fun m => ?_
  refine alike_seq rfl fun _ => ?_
  refine alike_seq rfl fun _ => ?_
  exact equalAt_dset (equalAt_other _ _ _ _) _ _

/-! ## ID tokens, and agreed encryption -/

/-- a library with a signed token `"T"`, and `"E"`, which is that token encrypted for the receiver -/
def sealing : Crypto :=
  { toy with
    Jwe := Unit
    jwe := fun t _ => .ok (if t = "E" then some () else none)
    decryptKeys := fun _ => .ok ["mine"]
    decrypt := fun _ _ (ks : List String) => if ks = ["mine"] then .ok "T" else .error (.crypto 1) }

/-- the hypotheses of the theorems above are met -/
theorem sealing_wraps (a : Dict) : Wraps sealing () a "E" "T" := ⟨⟨(), ["mine"], rfl, rfl, rfl⟩, rfl⟩

example : (fromJwt sealing oidc_IdToken "E" (some (some ())) []).map (·.st) = .ok toyClaims := by decide +kernel

/-- what the client says about itself -/
def sealedArgs : Dict := [("client_id", .str "client"), ("iss", .str "https://op")]

/-- **C152, counterexample.**  An ID token that is accepted as it is is refused when it is encrypted for the client: whether it is a signed
token is asked before it is decrypted (`C116_not_signed` says so for every library). -/
theorem C152_counterexample_id_token :
    (verifyIdToken sealing 1500 [("id_token", .str "T")] "id_token" false (some (some ())) sealedArgs).toOption.isSome = true ∧
    verifyIdToken sealing 1500 [("id_token", .str "E")] "id_token" false (some (some ())) sealedArgs = .error .valueError := by
  decide +kernel

/-- **C152, counterexample.**  Where encryption was agreed upon, tokens that are not encrypted are accepted all the same. -/
theorem C152_counterexample_unencrypted :
    (fromJwt sealing oidc_IdToken "T" (some (some ())) [("encalg", .str "RSA-OAEP"), ("encenc", .str "A128GCM")]).toOption.isSome = true ∧
    sealing.jwe "T" (encOptions [("encalg", .str "RSA-OAEP"), ("encenc", .str "A128GCM")]) = .ok none :=
  ⟨by decide +kernel, rfl⟩

end Verif
