import Verif.Props.Tokens

/-!
# Exactly which texts are read as tokens: C173
-/

namespace Verif

/-- the text is not encrypted and is taken as it is, or it is, and the keys of the jar give the text inside -/
def Decrypted (C : Crypto) (txt : String) (jar : Option C.KeyJar) (kw : Dict) (inner : String) : Prop :=
  (C.jwe txt (algArg kw) = .ok none ∧ inner = txt) ∨
  ∃ w kj ks, C.jwe txt (algArg kw) = .ok (some w) ∧ jar = some kj ∧ C.decryptKeys kj = .ok ks ∧ C.decrypt w txt ks = .ok inner

/-- The signature is right by the keys that the jar gives for the token; or none of these keys suits, and it is right by the keys
the jar gives after it was updated; or none suits and the jar has become empty by then.  `jar'` is the jar afterwards. -/
def SignedByJar (C : Crypto) (j : Jws) (txt : String) (jar : Option C.KeyJar) (kw : Dict) (jar' : Option C.KeyJar) : Prop :=
  ∃ kj k ks kj₁, jar = some kj ∧ C.truthy kj = true ∧ C.keys kj j kw = .ok (k :: ks, kj₁) ∧
    (C.verifyCompact j txt (k :: ks) = .ok () ∧ jar' = some kj₁ ∨
     C.verifyCompact j txt (k :: ks) = .error .noSuitableSigningKeys ∧
      ((∃ kj₂ ks' kj₃, C.truthy kj₁ = true ∧ C.update kj₁ = .ok kj₂ ∧ C.keys kj₂ j kw = .ok (ks', kj₃) ∧
          C.verifyCompact j txt ks' = .ok () ∧ jar' = some kj₃) ∨
       C.truthy kj₁ = false ∧ jar' = some kj₁))

/-- the value is an object with these members -/
def ObjectWith (v : Val) (d : Dict) : Prop := v = .dict d ∨ ∃ c, v = .msg c d

/-- The text holds the object `d`: it is no JWT but a JSON document of the object, or a JWT with it as its payload which is unsigned, or
signed by the jar, or of which the caller does not want the signature to be verified. -/
def HoldsObject (C : Crypto) (txt : String) (jar : Option C.KeyJar) (verify : Bool) (kw d : Dict) (hdr : Option Dict)
    (jar' : Option C.KeyJar) : Prop :=
  (C.jws (.str txt) (sigAlg kw) = .ok none ∧ (∃ v, loads txt = .ok v ∧ ObjectWith v d) ∧ hdr = none ∧ jar' = jar) ∨
  ∃ j v alg, C.jws (.str txt) (sigAlg kw) = .ok (some j) ∧ j.payload = .ok v ∧ ObjectWith v d ∧ hdr = some j.headers ∧
    dget j.headers "alg" = some alg ∧
    ((alg = .str "none" ∨ verify = false) ∧ jar' = jar ∨ alg ≠ .str "none" ∧ verify = true ∧ SignedByJar C j txt jar kw jar')

theorem decryptStep_exact (C : Crypto) (txt : String) (jar : Option C.KeyJar) (kw : Dict) (inner : String) :
    decryptStep C txt jar kw = .ok inner ↔ Decrypted C txt jar kw inner := by
  unfold decryptStep Decrypted
  cases C.jwe txt (algArg kw) with
  | error e => simp
  | ok o =>
    cases o with
    | none => simp [eq_comm]
    | some w =>
      cases jar with
      | none => simp
      | some kj => cases hk : C.decryptKeys kj <;> simp [hk]

theorem retryVerify_exact (C : Crypto) (j : Jws) (txt : String) (kj : C.KeyJar) (kw : Dict) (jar' : Option C.KeyJar) :
    retryVerify C j txt (some kj) kw = .ok jar' ↔
      (∃ kj₂ ks' kj₃, C.truthy kj = true ∧ C.update kj = .ok kj₂ ∧ C.keys kj₂ j kw = .ok (ks', kj₃) ∧
          C.verifyCompact j txt ks' = .ok () ∧ jar' = some kj₃) ∨
       C.truthy kj = false ∧ jar' = some kj := by
  constructor
  · intro h
    unfold retryVerify at h
    simp only at h
    split at h
    · next ht =>
      split at h
      · cases h
      next kj₂ hu =>
      split at h
      · cases h
      next ks' kj₃ hk =>
      split at h
      · next hv => cases h; exact .inl ⟨kj₂, ks', kj₃, ht, hu, hk, hv, rfl⟩
      · cases h
    · next ht => cases h; exact .inr ⟨by simpa using ht, rfl⟩
  · rintro (⟨kj₂, ks', kj₃, ht, hu, hk, hv, rfl⟩ | ⟨ht, rfl⟩)
    · simp only [retryVerify, ht, hu, hk, hv, if_true]
    · simp [retryVerify, ht]

theorem checkSig_exact (C : Crypto) (j : Jws) (txt : String) (jar : Option C.KeyJar) (kw : Dict) (jar' : Option C.KeyJar) :
    checkSig C j txt jar kw = .ok jar' ↔ SignedByJar C j txt jar kw jar' := by
  constructor
  · intro h
    unfold checkSig jarKeys at h
    cases jar with
    | none => cases h
    | some kj =>
      cases ht : C.truthy kj with
      | false => simp [ht] at h
      | true =>
        cases hk : C.keys kj j kw with
        | error e => simp [ht, hk] at h
        | ok p =>
          obtain ⟨ks, kj₁⟩ := p
          cases ks with
          | nil => simp [ht, hk] at h
          | cons k ks =>
            simp only [ht, hk, if_true] at h
            refine ⟨kj, k, ks, kj₁, rfl, ht, hk, ?_⟩
            split at h
            · next hv => cases h; exact .inl ⟨hv, rfl⟩
            · next hv => exact .inr ⟨hv, (retryVerify_exact ..).1 h⟩
            · cases h
  · rintro ⟨kj, k, ks, kj₁, rfl, ht, hk, h⟩
    unfold checkSig jarKeys
    simp only [ht, hk, if_true]
    rcases h with ⟨hv, rfl⟩ | ⟨hv, h⟩
    · rw [hv]
    · rw [hv]; exact (retryVerify_exact ..).2 h

theorem itemsOf_exact (v : Val) (d : Dict) : v.itemsOf = .ok d ↔ ObjectWith v d := by
  unfold ObjectWith
  cases v <;> simp [Val.itemsOf]

/-- **C173.**  `from_jwt` gives a message exactly when there is a key jar argument, the text is not encrypted or decrypts with the keys of
the jar, what is inside holds an object — a JSON document that is no JWT, or a JWT that is unsigned, or signed by the
jar, or need not be verified — and the object can be read as a message of the class.  The message is then what reading the
object gives, with the header of the token, and the jar as it is after it was asked for keys. -/
theorem C173_from_jwt (C : Crypto) (sch : Schema) (txt : String) (jar : JarArg C) (args : Dict) (m : JwtMsg C) :
    fromJwt C sch txt jar args = .ok m ↔
      ∃ jar₀ inner d, jar = some jar₀ ∧ Decrypted C txt jar₀ (ddel args "verify") inner ∧
        HoldsObject C inner jar₀ (verifyArg args) (ddel args "verify") d m.header m.jar ∧
        fromDictR sch sch.default d = .ok m.st := by
  have hopen : ∀ inner jar₀ v hdr jar', openStep C inner jar₀ (verifyArg args) (ddel args "verify") = .ok (v, hdr, jar') ↔
      (C.jws (.str inner) (sigAlg (ddel args "verify")) = .ok none ∧ loads inner = .ok v ∧ hdr = none ∧ jar' = jar₀) ∨
      ∃ j alg, C.jws (.str inner) (sigAlg (ddel args "verify")) = .ok (some j) ∧ j.payload = .ok v ∧ hdr = some j.headers ∧
        dget j.headers "alg" = some alg ∧ ((alg = .str "none" ∨ verifyArg args = false) ∧ jar' = jar₀ ∨
          alg ≠ .str "none" ∧ verifyArg args = true ∧ SignedByJar C j inner jar₀ (ddel args "verify") jar') := by
    intro inner jar₀ v hdr jar'
    unfold openStep
    cases C.jws (.str inner) (sigAlg (ddel args "verify")) with
    | error e => simp
    | ok o =>
      cases o with
      | none =>
        cases hl : loads inner with
        | error e => simp
        | ok w =>
          simp only [Except.ok.injEq, Prod.mk.injEq, true_and, reduceCtorEq, false_and, exists_false, or_false]
          exact ⟨fun ⟨a, b, c⟩ => ⟨a, b.symm, c.symm⟩, fun ⟨a, b, c⟩ => ⟨a, b.symm, c.symm⟩⟩
      | some j =>
        have hs : ∀ jar', sigStep C j inner jar₀ (verifyArg args) (ddel args "verify") = .ok jar' ↔
            ∃ alg, dget j.headers "alg" = some alg ∧ ((alg = .str "none" ∨ verifyArg args = false) ∧ jar' = jar₀ ∨
              alg ≠ .str "none" ∧ verifyArg args = true ∧ SignedByJar C j inner jar₀ (ddel args "verify") jar') := by
          intro jar'
          unfold sigStep
          cases dget j.headers "alg" with
          | none => simp
          | some alg =>
            simp only [Option.some.injEq, exists_eq_left']
            by_cases ha : alg = .str "none"
            · rw [if_pos ((eq_str_iff _ _).2 ha)]
              simp only [ok_ok, ha, true_or, true_and, ne_eq, not_true_eq_false, false_and, or_false]
              exact ⟨Eq.symm, Eq.symm⟩
            · rw [if_neg (fun h => ha ((eq_str_iff _ _).1 h)), ← checkSig_exact]
              cases verifyArg args with
              | true => simp [ha]
              | false =>
                simp only [Bool.false_eq_true, if_false, ok_ok, or_true, true_and, false_and, and_false, or_false]
                exact ⟨Eq.symm, Eq.symm⟩
        cases hp : j.payload with
        | error e =>
          simp only [hp]
          constructor
          · intro h; cases h
          · rintro (⟨h, -⟩ | ⟨j', alg, e', h, -⟩)
            · cases h
            · cases e'; rw [hp] at h; cases h
        | ok v' =>
          simp only [hp]
          constructor
          · intro h
            split at h
            · next jar'' hsig =>
              cases h
              obtain ⟨alg, h1, h2⟩ := (hs _).1 hsig
              exact .inr ⟨j, alg, rfl, hp, rfl, h1, h2⟩
            · cases h
          · rintro (⟨h, -⟩ | ⟨j', alg, e', h, rfl, h1, h2⟩)
            · cases h
            · cases e'
              rw [hp] at h; cases h
              rw [(hs jar').2 ⟨alg, h1, h2⟩]
  constructor
  · intro h
    unfold fromJwt at h
    split at h
    · cases h
    next jar₀ =>
    split at h
    · cases h
    next inner hd =>
    split at h
    · cases h
    next v hdr jar' ho =>
    split at h
    · cases h
    next d hi =>
    split at h
    · next st hf =>
      cases h
      refine ⟨jar₀, inner, d, rfl, (decryptStep_exact ..).1 hd, ?_, hf⟩
      have hi' := (itemsOf_exact _ _).1 hi
      rcases (hopen ..).1 ho with ⟨h1, h2, rfl, rfl⟩ | ⟨j, alg, h1, h2, h3, h4, h5⟩
      · exact .inl ⟨h1, ⟨v, h2, hi'⟩, rfl, rfl⟩
      · exact .inr ⟨j, v, alg, h1, h2, hi', h3, h4, h5⟩
    · cases h
  · rintro ⟨jar₀, inner, d, rfl, hd, hh, hf⟩
    obtain ⟨v, ho, hi⟩ : ∃ v, openStep C inner jar₀ (verifyArg args) (ddel args "verify") = .ok (v, m.header, m.jar) ∧
        v.itemsOf = .ok d := by
      rcases hh with ⟨h1, ⟨v, h2, hi⟩, h3, h4⟩ | ⟨j, v, alg, h1, h2, hi, h3, h4, h5⟩
      · exact ⟨v, (hopen ..).2 (.inl ⟨h1, h2, h3, h4⟩), (itemsOf_exact _ _).2 hi⟩
      · exact ⟨v, (hopen ..).2 (.inr ⟨j, alg, h1, h2, h3, h4, h5⟩), (itemsOf_exact _ _).2 hi⟩
    unfold fromJwt
    simp only [(decryptStep_exact ..).2 hd, ho, hi, hf]

/-- **C173, rotated keys.**  A signed token that no key of the jar suits is accepted, with verification on, exactly when the
jar has the right keys after it was updated (and the payload can be read): an issuer may change its keys without notice. -/
theorem C173_rotated_keys (C : Crypto) (hC : C.JarStable) (sch : Schema) (txt : String) (kj kj₁ : C.KeyJar) (args d : Dict)
    (j : Jws) (alg : Val) (k : C.Key) (ks : List C.Key)
    (hv : ∀ v, dget args "verify" = some v → v.truthy = true)
    (hjwe : C.jwe txt (algArg (ddel args "verify")) = .ok none)
    (hjws : C.jws (.str txt) (sigAlg (ddel args "verify")) = .ok (some j)) (hp : j.payload = .ok (.dict d))
    (ha : dget j.headers "alg" = some alg) (hne : alg ≠ .str "none") (ht : C.truthy kj = true)
    (hk : C.keys kj j (ddel args "verify") = .ok (k :: ks, kj₁))
    (hold : C.verifyCompact j txt (k :: ks) = .error .noSuitableSigningKeys) :
    (∃ m, fromJwt C sch txt (some (some kj)) args = .ok m) ↔
      (∃ kj₂ ks' kj₃, C.update kj₁ = .ok kj₂ ∧ C.keys kj₂ j (ddel args "verify") = .ok (ks', kj₃) ∧
        C.verifyCompact j txt ks' = .ok ()) ∧ ∃ st, fromDictR sch sch.default d = .ok st := by
  have hv' : verifyArg args = true := by
    unfold verifyArg
    cases hg : dget args "verify" with
    | none => rfl
    | some v => exact hv v hg
  have ht₁ : C.truthy kj₁ = true := hC _ _ _ _ _ _ hk
  constructor
  · rintro ⟨m, h⟩
    obtain ⟨jar₀, inner, d', e, hd, hh, hf⟩ := (C173_from_jwt ..).1 h
    cases e
    rcases hd with ⟨-, rfl⟩ | ⟨w, kj', ks', h1, -⟩
    · rcases hh with ⟨h1, -⟩ | ⟨j', v, alg', h1, h2, h3, -, h5, h6⟩
      · rw [hjws] at h1; cases h1
      · rw [hjws] at h1; cases h1
        rw [hp] at h2; cases h2
        rw [ha] at h5; cases h5
        rcases h3 with h3 | ⟨c, h3⟩
        · cases h3
          refine ⟨?_, _, hf⟩
          rcases h6 with ⟨h6 | h6, -⟩ | ⟨-, -, kj', k', ks', kj₁', e, -, hk', h6⟩
          · exact absurd h6 hne
          · rw [hv'] at h6; cases h6
          · cases e
            rw [hk] at hk'; cases hk'
            rcases h6 with ⟨h6, -⟩ | ⟨-, ⟨a, b, c, -, h7, h8, h9, -⟩ | ⟨h7, -⟩⟩
            · rw [hold] at h6; cases h6
            · exact ⟨a, b, c, h7, h8, h9⟩
            · rw [ht₁] at h7; cases h7
        · cases h3
    · rw [hjwe] at h1; cases h1
  · rintro ⟨⟨a, b, c, h7, h8, h9⟩, st, hf⟩
    refine ⟨⟨st, some j.headers, some c⟩, (C173_from_jwt ..).2 ⟨some kj, txt, d, rfl, .inl ⟨hjwe, rfl⟩, .inr ⟨j, .dict d, alg, hjws, hp,
      .inl rfl, rfl, ha, .inr ⟨hne, hv', kj, k, ks, kj₁, rfl, ht, hk, .inr ⟨hold, .inl ⟨a, b, c, ht₁, h7, h8, h9, rfl⟩⟩⟩⟩, hf⟩⟩

/-- **C173, verification switched off.**  Then a JWT with an `alg` in its header is accepted whatever its signature and whatever the key
jar, if it can be read. -/
theorem C173_switched_off (C : Crypto) (sch : Schema) (txt : String) (jar : Option C.KeyJar) (args d : Dict) (j : Jws)
    (hv : verifyArg args = false)
    (hjwe : C.jwe txt (algArg (ddel args "verify")) = .ok none)
    (hjws : C.jws (.str txt) (sigAlg (ddel args "verify")) = .ok (some j)) (hp : j.payload = .ok (.dict d)) (m : JwtMsg C) :
    fromJwt C sch txt (some jar) args = .ok m ↔
      dget j.headers "alg" ≠ none ∧ fromDictR sch sch.default d = .ok m.st ∧ m.header = some j.headers ∧ m.jar = jar := by
  rw [C173_from_jwt]
  constructor
  · rintro ⟨jar₀, inner, d', e, hd, hh, hf⟩
    cases e
    rcases hd with ⟨-, rfl⟩ | ⟨w, kj', ks', h1, -⟩
    · rcases hh with ⟨h1, -⟩ | ⟨j', v, alg', h1, h2, h3, h4, h5, h6⟩
      · rw [hjws] at h1; cases h1
      · rw [hjws] at h1; cases h1
        rw [hp] at h2; cases h2
        rcases h3 with h3 | ⟨c, h3⟩
        · cases h3
          refine ⟨by rw [h5]; simp, hf, h4, ?_⟩
          rcases h6 with ⟨-, h6⟩ | ⟨-, h6, -⟩
          · exact h6
          · rw [hv] at h6; cases h6
        · cases h3
    · rw [hjwe] at h1; cases h1
  · rintro ⟨ha, hf, h4, h5⟩
    cases hg : dget j.headers "alg" with
    | none => exact absurd hg ha
    | some alg =>
      exact ⟨jar, txt, d, rfl, .inl ⟨hjwe, rfl⟩, .inr ⟨j, .dict d, alg, hjws, hp, .inl rfl, h4, hg, .inl ⟨.inr hv, h5⟩⟩, hf⟩

/-- two signed tokens, both accepted with verification off; the second, which no key suits, is refused with verification on -/
example :
    let C := toyCrypto [("T", ⟨[("alg", .str "RS256")], .ok (.dict toyClaims)⟩),
      ("U", ⟨[("alg", .str "RS256")], .ok (.dict toyClaims)⟩)] ["https://op"] ["T"]
    (fromJwt C oidc_IdToken "T" (some (some ())) []).map (·.st) = .ok toyClaims ∧
    (fromJwt C oidc_IdToken "U" (some (some ())) [("verify", .bool false)]).map (·.st) = .ok toyClaims ∧
    (fromJwt C oidc_IdToken "U" (some (some ())) []).map (·.st) = .error .noSuitableSigningKeys := by
  decide +kernel

/-- a jar, `false` at first, that has the right key once it was updated -/
def rotating : Crypto where
  KeyJar := Bool
  Key := String
  Jwe := Empty
  decryptKeys := fun _ => .ok []
  decrypt := fun w _ _ => nomatch w
  jwe := fun _ _ => .ok none
  jws := fun _ _ => .ok (some ⟨[("alg", .str "RS256")], .ok (.dict toyClaims)⟩)
  leftHash := fun v _ => .ok v
  repr := fun _ => ""
  truthy := fun _ => true
  keys := fun kj _ _ => .ok (if kj then ["T"] else ["old"], kj)
  update := fun _ => .ok true
  verifyCompact := fun _ t ks => if ks.contains t then .ok () else .error .noSuitableSigningKeys
  hasIssuer := fun _ _ => .ok true

example : rotating.JarStable ∧
    rotating.verifyCompact ⟨[("alg", .str "RS256")], .ok (.dict toyClaims)⟩ "T" ["old"] = .error .noSuitableSigningKeys ∧
    (fromJwt rotating oidc_IdToken "T" (some (some false)) []).map (fun m => (m.st, (m.jar : Option Bool) == some true)) = .ok (toyClaims, true) :=
  ⟨fun _ _ _ _ _ _ _ => rfl, by decide +kernel, by decide +kernel⟩

end Verif
