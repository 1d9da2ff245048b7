import Verif.Props.Reasons
import Verif.Props.RefusedTokens
import Verif.Props.Repeat

/-!
# The exception tells why a message with a token was refused: C170
-/

namespace Verif

/-- the exceptions the library has for what can be wrong with an ID token -/
def Exc.ofToken : Exc → Bool
  | .issuerMismatch | .notForMe | .expError | .iatError | .atHashError | .cHashError => true
  | _ => false

/-- raises none of them -/
def Dull {α : Type} (r : Res α) : Prop := ∀ e, r = .error e → e.ofToken = false

theorem dull_ok {α : Type} (a : α) : Dull (.ok a : Res α) := fun _ h => by cases h

theorem dull_error {α : Type} {e : Exc} (h : e.ofToken = false) : Dull (.error e : Res α) := fun _ h' => by cases h'; exact h

theorem dull_bind {α β : Type} {r : Res α} {f : α → Res β} (h : Dull r) (hf : ∀ a, r = .ok a → Dull (f a)) : Dull (r >>= f) := by
  cases r with
  | error e => exact fun e' h' => by cases h'; exact h e rfl
  | ok a => exact hf a rfl

theorem dull_map {α β : Type} {r : Res α} (h : Dull r) (f : α → β) : Dull (r.map f) := by
  cases r with
  | error e => exact fun e' h' => by cases h'; exact h e rfl
  | ok a => exact dull_ok _

theorem Dull.same {α β : Type} {r : Res α} (h : Dull r) {e : Exc} (he : r = .error e) : Dull (.error e : Res β) :=
  dull_error (h e he)

mutual
theorem dumpsC_dull : (v : Val) → Dull (dumpsC v)
  | .none => by unfold dumpsC; exact dull_ok _
  | .bool true => by unfold dumpsC; exact dull_ok _
  | .bool false => by unfold dumpsC; exact dull_ok _
  | .int _ => by unfold dumpsC; exact dull_ok _
  | .flt q => by
    unfold dumpsC floatText
    split <;> first | exact dull_ok _ | exact dull_error rfl
  | .str _ => by unfold dumpsC; exact dull_ok _
  | .list [] => by unfold dumpsC; exact dull_ok _
  | .list (v :: vs) => by
    unfold dumpsC
    exact dull_bind (dumpsC_dull v) fun _ _ => dull_bind (dumpsList_dull vs) fun _ _ => dull_ok _
  | .dict [] => by unfold dumpsC; exact dull_ok _
  | .dict ((k, v) :: d) => by
    unfold dumpsC
    exact dull_bind (dumpsC_dull v) fun _ _ => dull_bind (dumpsDict_dull d) fun _ _ => dull_ok _
  | .msg _ _ => by unfold dumpsC; exact dull_error rfl
theorem dumpsList_dull : (l : List Val) → Dull (dumpsList l)
  | [] => by unfold dumpsList; exact dull_ok _
  | v :: vs => by
    unfold dumpsList
    exact dull_bind (dumpsC_dull v) fun _ _ => dull_bind (dumpsList_dull vs) fun _ _ => dull_ok _
theorem dumpsDict_dull : (d : List (String × Val)) → Dull (dumpsDict d)
  | [] => by unfold dumpsDict; exact dull_ok _
  | (k, v) :: d => by
    unfold dumpsDict
    exact dull_bind (dumpsC_dull v) fun _ _ => dull_bind (dumpsDict_dull d) fun _ _ => dull_ok _
end

theorem dumps_dull (v : Val) : Dull (dumps v) := dull_map (dumpsC_dull v) _

theorem timeStampSer_dull (v : Val) : Dull (timeStampSer v) := by
  have h1 : ∀ z i, Dull (fromTimestamp z i) := by
    intro z i
    unfold fromTimestamp
    split
    · exact dull_ok _
    · exact dull_error rfl
  have h2 : ∀ z l n f i, Dull (toIso z l n f i) := by
    intro z l n f i
    unfold toIso
    split
    · exact dull_ok _
    · rename_i he
      split at he
      · cases he
      · exact (h1 _ _).same he
  unfold timeStampSer isoSer
  repeat' split
  all_goals first | exact dull_ok _ | (rename_i he; exact (h2 _ _ _ _ _).same he) | exact dull_error rfl

theorem serPlain_dull (s : Option Ser) (v : Val) : Dull (serPlain s v) := by
  unfold serPlain
  repeat' split
  all_goals first | exact dull_ok _ | exact dull_error rfl | exact dull_map (dumps_dull _) _ | exact timeStampSer_dull _

theorem spaceJoin_dull (l : List Val) : Dull (spaceJoin l) := by
  unfold spaceJoin
  split
  · exact dull_ok _
  · exact dull_error rfl

mutual
theorem toDict_dull (env : SerEnv) (c : Cls) : (d : List (String × Val)) → Dull (toDict env c d)
  | [] => by unfold toDict; exact dull_ok _
  | (k, v) :: rest => by
    unfold toDict
    exact dull_bind (serDict_dull env _ v) fun _ _ => dull_bind (toDict_dull env c rest) fun _ _ => dull_ok _
theorem serDict_dull (env : SerEnv) : (s : Option Ser) → (v : Val) → Dull (serDict env s v)
  | s, .msg c d => by
    have ih := toDict_dull env c d
    cases s with
    | none => unfold serDict; exact dull_map ih _
    | some s =>
      cases s <;> unfold serDict <;> simp only <;>
        first | exact dull_map ih _ | exact dull_ok _ | exact dull_error rfl | skip
      · split
        · rename_i he; exact ih.same he
        · exact dull_error rfl
      · split
        · exact dull_map ih _
        · exact dull_error rfl
  | s, .list [] => by
    cases s with
    | none => unfold serDict; exact dull_ok _
    | some s =>
      cases s <;> unfold serDict <;> simp only <;>
        first | exact dull_ok _ | exact dull_error rfl | exact spaceJoin_dull _ | exact dull_map (dumps_dull _) _ |
          exact dull_map (msgSerEach_dull env []) _ | exact dull_map (linkSerEach_dull env []) _
  | s, .list (v :: rest) => by
    have i1 := toDictEach_dull env rest
    have i2 := msgSerEach_dull env (v :: rest)
    have i3 := linkSerEach_dull env (v :: rest)
    have i4 : ∀ c d, v = .msg c d → Dull (toDict env c d) := by
      intro c d hv; subst hv; exact toDict_dull env c d
    have i5 : ∀ c d, v = .msg c d → Dull (do let x ← toDict env c d
                                             let xs ← toDictEach env rest
                                             Except.ok (Val.list (.dict x :: xs))) := fun c d hv =>
      dull_bind (i4 c d hv) fun _ _ => dull_bind i1 fun _ _ => dull_ok _
    cases s with
    | none =>
      unfold serDict
      cases v <;> simp only <;> first | exact dull_ok _ | exact i5 _ _ rfl
    | some s =>
      cases s <;> unfold serDict <;> simp only <;>
        first | exact dull_error rfl | exact spaceJoin_dull _ | exact dull_map (dumps_dull _) _ |
          exact dull_map i2 _ | exact dull_map i3 _ | skip
      all_goals cases v <;> simp only <;> first | exact dull_ok _ | exact dull_error rfl | exact i5 _ _ rfl | exact dull_map (i4 _ _ rfl) _
  | s, .none => by unfold serDict; exact serPlain_dull s _
  | s, .bool _ => by unfold serDict; exact serPlain_dull s _
  | s, .int _ => by unfold serDict; exact serPlain_dull s _
  | s, .flt _ => by unfold serDict; exact serPlain_dull s _
  | s, .str _ => by unfold serDict; exact serPlain_dull s _
  | s, .dict _ => by unfold serDict; exact serPlain_dull s _
theorem toDictEach_dull (env : SerEnv) : (l : List Val) → Dull (toDictEach env l)
  | [] => by unfold toDictEach; exact dull_ok _
  | .msg c d :: rest => by
    unfold toDictEach
    exact dull_bind (toDict_dull env c d) fun _ _ => dull_bind (toDictEach_dull env rest) fun _ _ => dull_ok _
  | .none :: _ | .bool _ :: _ | .int _ :: _ | .flt _ :: _ | .str _ :: _ | .list _ :: _ | .dict _ :: _ => by
    unfold toDictEach; exact dull_error rfl
theorem msgSerEach_dull (env : SerEnv) : (l : List Val) → Dull (msgSerEach env l)
  | [] => by unfold msgSerEach; exact dull_ok _
  | .msg c d :: rest => by
    unfold msgSerEach
    exact dull_bind (toDict_dull env c d) fun _ _ => dull_bind (msgSerEach_dull env rest) fun _ _ => dull_ok _
  | .none :: rest | .bool _ :: rest | .int _ :: rest | .flt _ :: rest | .str _ :: rest | .list _ :: rest | .dict _ :: rest => by
    unfold msgSerEach
    exact dull_bind (serPlain_dull _ _) fun _ _ => dull_bind (msgSerEach_dull env rest) fun _ _ => dull_ok _
theorem linkSerEach_dull (env : SerEnv) : (l : List Val) → Dull (linkSerEach env l)
  | [] => by unfold linkSerEach; exact dull_ok _
  | .msg c d :: rest => by
    unfold linkSerEach
    split
    · exact dull_bind (toDict_dull env c d) fun _ _ => dull_bind (linkSerEach_dull env rest) fun _ _ => dull_ok _
    · exact dull_error rfl
  | .none :: rest | .bool _ :: rest | .int _ :: rest | .flt _ :: rest | .str _ :: rest | .list _ :: rest | .dict _ :: rest => by
    unfold linkSerEach
    exact dull_bind (serPlain_dull _ _) fun _ _ => dull_bind (linkSerEach_dull env rest) fun _ _ => dull_ok _
end

theorem formatOk_dull (v : Val) : Dull (formatOk v) := by
  unfold formatOk
  split
  · split
    · exact dull_ok _
    · rename_i he; exact (toDict_dull _ _ _).same he
  · exact dull_ok _

/-- the crypto library has exceptions of its own, and does not raise those that this library has for ID tokens -/
structure OwnErrors (C : Crypto) : Prop where
  jwe : ∀ t a, Dull (C.jwe t a)
  decryptKeys : ∀ kj, Dull (C.decryptKeys kj)
  decrypt : ∀ w t ks, Dull (C.decrypt w t ks)
  jws : ∀ v a, Dull (C.jws v a)
  keys : ∀ kj j kw, Dull (C.keys kj j kw)
  update : ∀ kj, Dull (C.update kj)
  verifyCompact : ∀ j t ks, Dull (C.verifyCompact j t ks)
  hasIssuer : ∀ kj v, Dull (C.hasIssuer kj v)
  leftHash : ∀ v h, Dull (C.leftHash v h)
  payload : ∀ v a j, C.jws v a = .ok (some j) → Dull j.payload

/-- the hash of the token `k` of the response, made with the hash function of the algorithm in the header of the ID token, is
another one than the claim `hk` of the ID token -/
def WrongHash (C : Crypto) (st : Dict) (m : JwtMsg C) (k hk : String) : Prop :=
  ∃ hdr alg v x h, m.header = some hdr ∧ dget hdr "alg" = some (.str alg) ∧ dget st k = some v ∧
    C.leftHash v (hashAlg alg) = .ok x ∧ dget m.st hk = some h ∧ h.eq x = false

section
variable {C : Crypto} (hC : OwnErrors C)
include hC

theorem decryptStep_dull (txt : String) (jar : Option C.KeyJar) (kw : Dict) : Dull (decryptStep C txt jar kw) := by
  unfold decryptStep
  split
  · rename_i he; exact (hC.jwe _ _).same he
  · exact dull_ok _
  · split
    · exact dull_error rfl
    · split
      · rename_i he; exact (hC.decryptKeys _).same he
      · exact hC.decrypt _ _ _

theorem retryVerify_dull (j : Jws) (txt : String) (jar : Option C.KeyJar) (kw : Dict) : Dull (retryVerify C j txt jar kw) := by
  unfold retryVerify
  repeat' split
  all_goals first
    | exact dull_ok _
    | (rename_i he; first | exact (hC.update _).same he | exact (hC.keys _ _ _).same he | exact (hC.verifyCompact _ _ _).same he)

theorem jarKeys_dull (j : Jws) (jar : Option C.KeyJar) (kw : Dict) : Dull (jarKeys C j jar kw) := by
  unfold jarKeys
  repeat' split
  all_goals first | exact dull_ok _ | (rename_i he; exact (hC.keys _ _ _).same he)

theorem checkSig_dull (j : Jws) (txt : String) (jar : Option C.KeyJar) (kw : Dict) : Dull (checkSig C j txt jar kw) := by
  unfold checkSig
  split
  · rename_i he; exact (jarKeys_dull hC _ _ _).same he
  · exact dull_error rfl
  · split
    · exact dull_ok _
    · exact retryVerify_dull hC _ _ _ _
    · rename_i he; exact (hC.verifyCompact _ _ _).same he

theorem sigStep_dull (j : Jws) (txt : String) (jar : Option C.KeyJar) (verify : Bool) (kw : Dict) :
    Dull (sigStep C j txt jar verify kw) := by
  unfold sigStep
  split
  · exact dull_error rfl
  · split
    · exact dull_ok _
    · split
      · exact checkSig_dull hC _ _ _ _
      · exact dull_ok _

theorem openStep_dull (txt : String) (jar : Option C.KeyJar) (verify : Bool) (kw : Dict) :
    Dull (openStep C txt jar verify kw) := by
  unfold openStep
  split
  · rename_i he; exact (hC.jws _ _).same he
  · split
    · exact dull_ok _
    · rename_i he
      rcases loads_error he with rfl | rfl <;> exact dull_error rfl
  · rename_i hj
    split
    · rename_i he; exact (hC.payload _ _ _ hj).same he
    · split
      · exact dull_ok _
      · rename_i he; exact (sigStep_dull hC _ _ _ _ _).same he

theorem fromJwt_dull {sch : Schema} (hs : sch ∈ allSchemas) (txt : String) (jar : JarArg C) (args : Dict) :
    Dull (fromJwt C sch txt jar args) := by
  unfold fromJwt
  split
  · exact dull_error rfl
  · split
    · rename_i he; exact (decryptStep_dull hC _ _ _).same he
    · split
      · rename_i he; exact (openStep_dull hC _ _ _ _).same he
      · split
        · rename_i he
          have : ∀ (v : Val), Dull v.itemsOf := by
            intro v; cases v <;> first | exact dull_ok _ | exact dull_error rfl
          exact (this _).same he
        · split
          · exact dull_ok _
          · rename_i e he
            by_cases hu : e = .unmodelled
            · subst hu; exact dull_error rfl
            · rcases C133_from_dict hs he hu with rfl | rfl <;> exact dull_error rfl

theorem parseClaim_dull (v : Val) : Dull (parseClaim C v) := by
  unfold parseClaim
  split
  · rename_i he; exact (hC.jws _ _).same he
  · exact dull_error rfl
  · exact dull_ok _

omit hC in
theorem algCheck_dull (alg : Val) (kw : Dict) : Dull (algCheck alg kw) := by
  unfold algCheck
  repeat' split
  all_goals first | exact dull_ok _ | exact dull_error rfl

omit hC in
theorem getR_dull (d : Dict) (k : String) : Dull (getR d k) := by
  unfold getR; split
  · exact dull_ok _
  · exact dull_error rfl

omit hC in
theorem getReq_dull (d : Dict) (k : String) : Dull (getReq d k) := by
  unfold getReq; split
  · exact dull_ok _
  · exact dull_error rfl

theorem issuerStep_dull (signed : Bool) (body : Val) (jar : JarArg C) : Dull (issuerStep C signed body jar) := by
  have hb : Dull (bodyIss body) := by
    unfold bodyIss; split
    · exact getReq_dull _ _
    · exact dull_error rfl
  unfold issuerStep issuerKnown
  split
  · split
    · exact dull_ok _
    · refine dull_bind hb fun _ _ => ?_
      split
      · exact dull_error rfl
      · split
        · unfold need; split
          · exact dull_ok _
          · exact dull_error rfl
        · rename_i he; exact (hC.hasIssuer _ _).same he
  · exact dull_ok _

omit hC in
theorem headerHash_dull (hdr : Option Dict) : Dull (headerHash hdr) := by
  unfold headerHash
  repeat' split
  all_goals first | exact dull_ok _ | exact dull_error rfl

/-- what is wrong with the ID token `idt` of the response `st` when the exception is raised -/
def WrongIn (C : Crypto) (now : Int) (st : Dict) (m : JwtMsg C) (kw : Dict) : Exc → Prop
  | .issuerMismatch => Differ m.st kw "iss"
  | .notForMe => OtherClient m.st kw
  | .expError => ∃ skew x, NumArg kw "skew" 0 skew ∧ NumAt m.st "exp" x ∧ x < (now : Rat) - skew
  | .iatError => ∃ skew x s, NumArg kw "skew" 0 skew ∧ NumAt m.st "iat" x ∧ NumArg kw "nonce_storage_time" 14400 s ∧
      x + s < (now : Rat) - skew
  | .atHashError => WrongHash C st m "access_token" "at_hash"
  | .cHashError => WrongHash C st m "code" "c_hash"
  | _ => False

theorem hashCheck_err {f : String} {st idt : Dict} {k hk : String} {e e' : Exc} (h : hashCheck C f st idt k hk e = .error e')
    (ht : e'.ofToken = true) :
    e' = e ∧ ∃ v x h, dget st k = some v ∧ C.leftHash v f = .ok x ∧ dget idt hk = some h ∧ h.eq x = false := by
  unfold hashCheck at h
  split at h
  · cases h
  · rename_i v hv
    simp only [bind_err] at h
    rcases h with h | ⟨x, hx, h | ⟨y, hy, h⟩⟩
    · rw [getReq_dull _ _ _ h] at ht; cases ht
    · rw [hC.leftHash _ _ _ h] at ht; cases ht
    · obtain ⟨h1, h2⟩ := need_err.1 h
      refine ⟨h2, v, y, x, hv, hy, ?_, h1⟩
      unfold getReq at hx
      split at hx
      · rename_i hg; cases hx; exact hg
      · cases hx

theorem hashChecks_err {st : Dict} {m : JwtMsg C} {e : Exc} (h : hashChecks C st m = .error e) (ht : e.ofToken = true) :
    (e = .atHashError ∧ WrongHash C st m "access_token" "at_hash") ∨ (e = .cHashError ∧ WrongHash C st m "code" "c_hash") := by
  unfold hashChecks at h
  simp only [bind_err] at h
  rcases h with h | ⟨f, hf, h⟩
  · rw [headerHash_dull _ _ h] at ht; cases ht
  have hform : ∃ hdr a, m.header = some hdr ∧ dget hdr "alg" = some (.str a) ∧ f = hashAlg a := by
    unfold headerHash at hf
    split at hf
    · cases hf
    · rename_i hdr hh
      split at hf
      · cases hf
      · rename_i a ha; cases hf; exact ⟨hdr, a, hh, ha, rfl⟩
      · cases hf
  obtain ⟨hdr, a, hh, ha, rfl⟩ := hform
  rcases h with h | ⟨_, _, h⟩
  · obtain ⟨h1, v, x, c, q1, q2, q3, q4⟩ := hashCheck_err hC h ht
    exact .inl ⟨h1, hdr, a, v, x, c, hh, ha, q1, q2, q3, q4⟩
  · obtain ⟨h1, v, x, c, q1, q2, q3, q4⟩ := hashCheck_err hC h ht
    exact .inr ⟨h1, hdr, a, v, x, c, hh, ha, q1, q2, q3, q4⟩

theorem core_err {now : Int} {st kw : Dict} {claim : Val} {b : Bool} {jar : JarArg C} {e : Exc}
    (h : verifyIdTokenCore C now st claim b jar kw = .error e) (ht : e.ofToken = true) :
    ∃ m, fromJwt C oidc_IdToken (strOf C claim) jar (pick idTokenVerifyArgs kw) = .ok m ∧ WrongIn C now st m kw e ∧
      ((e = .atHashError ∨ e = .cHashError) → b = true ∧ idTokenVerify now m.st kw = .ok ()) := by
  unfold verifyIdTokenCore at h
  simp only [bind_err] at h
  rcases h with h | ⟨j, hj, h | ⟨alg, _, h | ⟨signed, _, h | ⟨body, _, h | ⟨_, _, h | ⟨m, hm, h | ⟨_, hv, h | ⟨_, _, h⟩⟩⟩⟩⟩⟩⟩⟩
  · rw [parseClaim_dull hC _ _ h] at ht; cases ht
  · rw [getR_dull _ _ _ h] at ht; cases ht
  · rw [algCheck_dull _ _ _ h] at ht; cases ht
  · unfold parseClaim at hj
    split at hj <;> cases hj
    rename_i hj
    rw [hC.payload _ _ _ hj _ h] at ht; cases ht
  · rw [issuerStep_dull hC _ _ _ _ h] at ht; cases ht
  · rw [fromJwt_dull hC (by simp [allSchemas]) _ _ _ _ h] at ht; cases ht
  · refine ⟨m, hm, ?_⟩
    rcases idToken_err h with ⟨rfl, _⟩ | ⟨rfl, h'⟩ | ⟨rfl, h', _⟩ | ⟨rfl, h', _⟩ | ⟨rfl, h', _⟩ | ⟨rfl, _⟩ | ⟨rfl, _⟩ | rfl | rfl
    all_goals first | (cases ht; done) | exact ⟨h', by simp⟩
  · refine ⟨m, hm, ?_⟩
    unfold hashStep at h
    split at h
    · rename_i hb
      simp only [Bool.and_eq_true] at hb
      rcases hashChecks_err hC h ht with ⟨rfl, h'⟩ | ⟨rfl, h'⟩ <;> exact ⟨h', fun _ => ⟨hb.2, hv⟩⟩
    · cases h
  · cases h

theorem ifPresent_err {now : Int} {st kw : Dict} {claim : String} {b : Bool} {jar : JarArg C} {e : Exc}
    (h : verifyIfPresent C now st claim b jar kw = .error e) (ht : e.ofToken = true) :
    ∃ v m, dget st claim = some v ∧ fromJwt C oidc_IdToken (strOf C v) jar (pick idTokenVerifyArgs kw) = .ok m ∧
      WrongIn C now st m kw e ∧ ((e = .atHashError ∨ e = .cHashError) → b = true ∧ idTokenVerify now m.st kw = .ok ()) := by
  unfold verifyIfPresent at h
  split at h
  · unfold verifyIdToken at h
    simp only [bind_err] at h
    rcases h with h | ⟨v, hv, h | ⟨m, _, h | ⟨_, _, h⟩⟩⟩
    · rw [getR_dull _ _ _ h] at ht; cases ht
    · obtain ⟨m, h1⟩ := core_err hC h ht
      refine ⟨v, m, ?_, h1⟩
      unfold getR at hv
      split at hv
      · rename_i hg; cases hv; exact hg
      · cases hv
    · rw [formatOk_dull _ _ h] at ht; cases ht
    · cases h
  · cases h

omit hC in
theorem wrongIn_clear {now : Int} {st kw : Dict} {m : JwtMsg C} {e : Exc} (h : WrongIn C now (clearVerifiedClaims st) m kw e) :
    WrongIn C now st m kw e := by
  have hd : ∀ k, ¬ IsSlot k → dget (clearVerifiedClaims st) k = dget st k := (sameBut_clear st).2
  have ha := hd "access_token" (by simp [IsSlot])
  have hc := hd "code" (by simp [IsSlot])
  cases e <;> simp only [WrongIn, WrongHash, ha, hc] at h ⊢ <;> exact h

omit hC in
theorem response_dull (sch : Schema) (st : Dict) : Dull (responseVerify sch st) := by
  intro e h
  unfold responseVerify at h
  simp only [bind_err] at h
  rcases h with h | ⟨_, _, h⟩
  · rcases verifyBase_err h with ⟨rfl, _⟩ | rfl <;> rfl
  · rcases errorDescription_err h with rfl | rfl <;> rfl

/-- **C170, token responses.**  When one of the exceptions for ID tokens is raised then the response has an ID token that could be
opened, and what the exception says is wrong with it.  The exceptions for the hashes are not raised. -/
theorem C170_access_token_response {now : Int} {st kw : Dict} {jar : JarArg C} {e : Exc}
    (h : accessTokenResponseVerify C now st jar kw = .error e) (ht : e.ofToken = true) :
    ∃ v m, dget st "id_token" = some v ∧ fromJwt C oidc_IdToken (strOf C v) jar (pick idTokenVerifyArgs kw) = .ok m ∧
      WrongIn C now st m kw e ∧ e ≠ .atHashError ∧ e ≠ .cHashError := by
  unfold accessTokenResponseVerify at h
  simp only [bind_err] at h
  rcases h with h | ⟨_, _, h⟩
  · rw [response_dull _ _ _ h] at ht; cases ht
  · obtain ⟨v, m, h1, h2, h3, h4⟩ := ifPresent_err hC h ht
    rw [(sameBut_clear st).2 _ (by simp [IsSlot])] at h1
    exact ⟨v, m, h1, h2, wrongIn_clear h3, (fun h => nomatch (h4 (.inl h)).1), (fun h => nomatch (h4 (.inr h)).1)⟩

/-- **C170, authorization responses.**  The same, and the exceptions for the hashes say that the access token, or the code, of the
response is not the one that the ID token was issued with, while the ID token is right otherwise. -/
theorem C170_authz_response {now : Int} {st kw : Dict} {jar : JarArg C} {e : Exc}
    (h : authzResponseVerify C now st jar kw = .error e) (ht : e.ofToken = true) :
    ∃ v m, dget st "id_token" = some v ∧ fromJwt C oidc_IdToken (strOf C v) jar (pick idTokenVerifyArgs kw) = .ok m ∧
      WrongIn C now st m kw e ∧ ((e = .atHashError ∨ e = .cHashError) → idTokenVerify now m.st kw = .ok ()) := by
  unfold authzResponseVerify oauth2AuthzResponseVerify at h
  simp only [bind_err] at h
  rcases h with (h | ⟨_, _, h | ⟨_, _, h⟩⟩) | ⟨_, _, h | ⟨mine, _, h⟩⟩
  · rw [response_dull _ _ _ h] at ht; cases ht
  · rw [(matchArg_err.1 h).1] at ht; cases ht
  · rw [(matchArg_err.1 h).1] at ht; cases ht
  · unfold forMe at h
    split at h
    · rw [contains_err h] at ht; cases ht
    · cases h
  · unfold authzResponseRest at h
    split at h
    · have h' : verifyIfPresent C now (clearVerifiedClaims st) "id_token" true jar kw = .error e := by
        revert h
        cases verifyIfPresent C now (clearVerifiedClaims st) "id_token" true jar kw with
        | error e => intro h; cases h; rfl
        | ok a => intro h; cases h
      obtain ⟨v, m, h1, h2, h3, h4⟩ := ifPresent_err hC h' ht
      rw [(sameBut_clear st).2 _ (by simp [IsSlot])] at h1
      exact ⟨v, m, h1, h2, wrongIn_clear h3, fun h => (h4 h).2⟩
    · cases h

/-- **C170, the other messages with an ID token.** -/
theorem C170_message_with_id_token {now : Int} {sch : Schema} {st kw : Dict} {jar : JarArg C} {e : Exc}
    (h : messageWithIdTokenVerify C now sch st jar kw = .error e) (ht : e.ofToken = true) :
    ∃ v m, dget st "id_token" = some v ∧ fromJwt C oidc_IdToken (strOf C v) jar (pick idTokenVerifyArgs kw) = .ok m ∧
      WrongIn C now st m kw e ∧ e ≠ .atHashError ∧ e ≠ .cHashError := by
  unfold messageWithIdTokenVerify besideIdTokenVerify at h
  simp only [bind_err] at h
  rcases h with h | ⟨_, _, h⟩
  · split at h
    · rw [response_dull _ _ _ h] at ht; cases ht
    · rcases verifyBase_err h with ⟨rfl, _⟩ | rfl <;> cases ht
  · obtain ⟨v, m, h1, h2, h3, h4⟩ := ifPresent_err hC h ht
    exact ⟨v, m, h1, h2, h3, (fun h => nomatch (h4 (.inl h)).1), (fun h => nomatch (h4 (.inr h)).1)⟩

end

/-- a library that keeps to its own exceptions -/
theorem toy_ownErrors : OwnErrors toy where
  jwe _ _ := dull_ok _
  decryptKeys _ := dull_ok _
  decrypt w := nomatch w
  jws v _ := by cases v <;> first | exact dull_ok _ | exact dull_error rfl
  keys _ _ _ := dull_ok _
  update _ := dull_ok _
  verifyCompact _ t ks := by
    show Dull (if _ then _ else _)
    split
    · exact dull_ok _
    · exact dull_error rfl
  hasIssuer _ v := by cases v <;> exact dull_ok _
  leftHash v _ := by cases v <;> first | exact dull_ok _ | exact dull_error rfl
  payload v a j h := by
    cases v <;> simp only [toyCrypto] at h <;> first | (cases h; done) | skip
    have := Except.ok.inj h
    simp only [toyTokens, dget] at this
    repeat' split at this
    all_goals cases this
    all_goals exact dull_ok _

/-- a response with another access token than the one the ID token is for; one that came too late; one for another client; and one
of another provider -/
example :
    authzResponseVerify toy 1500 [("access_token", .str "other"), ("id_token", .str "T")] (some (some ())) [] =
      .error .atHashError ∧
    accessTokenResponseVerify toy 3000 [("access_token", .str "at"), ("token_type", .str "Bearer"), ("id_token", .str "T")]
      (some (some ())) [] = .error .expError ∧
    accessTokenResponseVerify toy 1500 [("access_token", .str "at"), ("token_type", .str "Bearer"), ("id_token", .str "T")]
      (some (some ())) [("client_id", .str "another")] = .error .notForMe ∧
    messageWithIdTokenVerify toy 1500 oidc_MessageWithIdToken [("id_token", .str "T")]
      (some (some ())) [("iss", .str "https://another")] = .error .issuerMismatch := by
  decide +kernel

/-! ### The algorithm -/

/-- the algorithm is not one the caller allows: unsigned without leave, or another one than the caller's -/
def AlgorithmBad (alg : Val) (kw : Dict) : Prop :=
  if alg.eq (.str "none") then
    (∀ v, dget kw "sigalg" = some v → v.eq (.str "none") = false) ∧
    (∀ v, dget kw "allow_sign_alg_none" = some v → v = .bool false)
  else ∃ a, dget kw "allowed_sign_alg" = some a ∧ alg.eq a = false

/-- **C170, algorithms.**  The algorithm is looked at first: whatever else is wrong with the token (its keys and its claims
are not looked at), one with an algorithm that is not allowed is refused with `UnsupportedAlgorithm`. -/
theorem C170_algorithm {C : Crypto} {now : Int} {st kw : Dict} {claim : String} {b : Bool} {jar : JarArg C} {v alg : Val} {j : Jws}
    (hv : dget st claim = some v) (hj : C.jws v none = .ok (some j)) (ha : dget j.headers "alg" = some alg)
    (hb : AlgorithmBad alg kw) : verifyIfPresent C now st claim b jar kw = .error .unsupportedAlgorithm := by
  have hc : algCheck alg kw = .error .unsupportedAlgorithm := by
    unfold AlgorithmBad at hb
    unfold algCheck
    split at hb
    · rename_i e
      have h1 : sigalgNone kw = false := by
        unfold sigalgNone
        split
        · rename_i w hw; exact hb.1 w hw
        · rfl
      have h2 : noneForbidden kw = true := by
        unfold noneForbidden
        split
        · rfl
        · rfl
        · rename_i w hne hw
          exact absurd (hb.2 w hw) hne
      simp [e, h1, h2]
    · rename_i e
      obtain ⟨a, h1, h2⟩ := hb
      simp [e, h1, h2]
  unfold verifyIfPresent
  have hd : dhas st claim = true := by unfold dhas; rw [hv]; rfl
  rw [if_pos hd]
  have hg : getR st claim = .ok v := by unfold getR; rw [hv]
  have hp : parseClaim C v = .ok j := by unfold parseClaim; rw [hj]
  have hg2 : getR j.headers "alg" = .ok alg := by unfold getR; rw [ha]
  simp only [verifyIdToken, hg, verifyIdTokenCore, hp, hg2, hc, bind, Except.bind]

/-- **C170, algorithms**, at the three kinds of responses: `UnsupportedAlgorithm` as soon as the response itself is right. -/
theorem C170_algorithm_responses {C : Crypto} {now : Int} {st kw : Dict} {jar : JarArg C} {v alg : Val} {j : Jws}
    (hv : dget st "id_token" = some v) (hj : C.jws v none = .ok (some j)) (ha : dget j.headers "alg" = some alg)
    (hb : AlgorithmBad alg kw) :
    (responseVerify oidc_AccessTokenResponse st = .ok () →
      accessTokenResponseVerify C now st jar kw = .error .unsupportedAlgorithm) ∧
    (oauth2AuthzResponseVerify oidc_AuthorizationResponse st kw = .ok () → dget st "aud" = none →
      authzResponseVerify C now st jar kw = .error .unsupportedAlgorithm) ∧
    (∀ sch, besideIdTokenVerify sch st = .ok () →
      messageWithIdTokenVerify C now sch st jar kw = .error .unsupportedAlgorithm) := by
  have hv' : dget (clearVerifiedClaims st) "id_token" = some v := by
    rw [(sameBut_clear st).2 _ (by simp [IsSlot])]; exact hv
  refine ⟨fun h => ?_, fun h haud => ?_, fun sch h => ?_⟩
  · unfold accessTokenResponseVerify
    rw [h]
    exact C170_algorithm hv' hj ha hb
  · have hm : forMe (clearVerifiedClaims st) kw = .ok true := by
      unfold forMe
      rw [(sameBut_clear st).2 "aud" (by simp [IsSlot]), haud]
    simp only [authzResponseVerify, h, hm, bind, Except.bind, authzResponseRest, if_true,
      C170_algorithm hv' hj ha hb, Except.map]
  · unfold messageWithIdTokenVerify
    rw [h]
    exact C170_algorithm hv hj ha hb

/-- an unsigned token, and one with another algorithm than the registered one -/
example : AlgorithmBad (.str "none") [] ∧ AlgorithmBad (.str "RS256") [("allowed_sign_alg", .str "ES256")] ∧
    accessTokenResponseVerify toy 1500 [("access_token", .str "at"), ("token_type", .str "Bearer"), ("id_token", .str "U")]
      (some (some ())) [] = .error .unsupportedAlgorithm := by
  refine ⟨?_, ?_, by decide +kernel⟩
  · unfold AlgorithmBad
    rw [if_pos (by decide +kernel)]
    exact ⟨fun v h => by simp [dget] at h, fun v h => by simp [dget] at h⟩
  · unfold AlgorithmBad
    rw [if_neg (by decide +kernel)]
    exact ⟨_, rfl, by decide +kernel⟩

end Verif
