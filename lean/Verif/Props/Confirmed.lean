import Verif.Props.Derived
import Verif.Props.Repeat
import Verif.Props.ErrorMessage

/-!
# C158: an accepted registration can be confirmed
-/

namespace Verif

/-- **C158**: the response repeats what the request declares, adds a client id, has no error description, and has both or neither of the
configuration endpoint and its token. -/
theorem C158_confirmed_partial {st a : Dict} (h : registrationRequestVerify st = .ok a) {st' : Dict}
    (he : ∀ n ∈ dkeys oidc_RegistrationRequest.params, dget st' n = dget a n) (hc : ∃ v, dget st' "client_id" = some v ∧ v.truthy = true)
    (hd : dget st' "error_description" = none) (hb : dhas st' "registration_client_uri" = dhas st' "registration_access_token") :
    registrationResponseVerify st' = .ok () := by
  have h1 : verifyBase oidc_RegistrationRequest a = .ok () := by
    have := C121_registration h
    obtain ⟨_, h2, _⟩ := ok_first this
    exact h2
  have h2 : verifyBase oidc_RegistrationRequest st' = .ok () := by
    rw [verifyBase_congr (st := a) fun n hn _ => he n hn]; exact h1
  have hr : refines oidc_RegistrationRequest (oidc_RegistrationResponse.without ["client_id"]) = true := by decide +kernel
  have h3 : verifyBase oidc_RegistrationResponse st' = .ok () := by
    refine verifyBase_with (sch := oidc_RegistrationResponse) (ns := ["client_id"]) ?_ ?_ () (refines_base hr st' () h2)
    · intro n hn; simp only [List.mem_singleton] at hn; subst hn; rfl
    · intro n hn; simp only [List.mem_singleton] at hn; subst hn; exact hc
  unfold registrationResponseVerify responseVerify errorDescription
  rw [h3, hd, hb]
  simp [bind, Except.bind, need]

/-- **C158**: the request as it was left behind, with a client id.  What is missing: requests with an `error_description` or with one of
the two registration parameters of the response, which the class of the request does not know (`C158_counterexample`). -/
theorem C158_echo_partial {st a : Dict} (h : registrationRequestVerify st = .ok a) {id : String} (hi : id ≠ "")
    (hd : dget a "error_description" = none) (hb : dhas a "registration_client_uri" = dhas a "registration_access_token") :
    registrationResponseVerify (dset a "client_id" (.str id)) = .ok () := by
  have hne : ∀ n, n ≠ "client_id" → dget (dset a "client_id" (.str id)) n = dget a n := fun n hn => dget_dset_ne _ _ (Ne.symm hn)
  refine C158_confirmed_partial h ?_ ⟨_, dget_dset_same _ _ _, by simpa [Val.truthy] using hi⟩ ?_ ?_
  · intro n hn
    refine hne n ?_
    rintro rfl
    revert hn
    decide +kernel
  · rw [hne _ (by decide)]; exact hd
  · unfold dhas at hb ⊢
    rw [hne _ (by decide), hne _ (by decide)]
    exact hb

/-- what else the response may carry: a secret and the times -/
theorem C158_secret {st' : Dict} {n : String} (hn : n ∈ ["client_secret", "client_id_issued_at", "client_secret_expires_at", "error", "error_uri"]) (v : Val) :
    registrationResponseVerify (dset st' n v) = registrationResponseVerify st' := by
  have h1 : dget oidc_RegistrationResponse.allowed n = none := rfl
  have h2 : ∀ sp, (n, sp) ∈ oidc_RegistrationResponse.params → sp.required = false := by
    intro sp hsp
    have : ∀ p ∈ oidc_RegistrationResponse.params, p.1 ∈ ["client_secret", "client_id_issued_at", "client_secret_expires_at", "error", "error_uri"] →
        p.2.required = false := by decide +kernel
    exact this (n, sp) hsp hn
  have hne : ∀ m, m ∉ ["client_secret", "client_id_issued_at", "client_secret_expires_at", "error", "error_uri"] → dget (dset st' n v) m = dget st' m :=
    fun m hm => dget_dset_ne _ _ (by rintro rfl; exact hm hn)
  unfold registrationResponseVerify responseVerify errorDescription dhas
  rw [verifyBase_without h1 h2, hne _ (by decide), hne _ (by decide), hne _ (by decide)]

/-- extensions of the request that the response does not stand -/
theorem C158_counterexample :
    let m : Dict := [("redirect_uris", .list [.str "https://rp/cb"])]
    (registrationRequestVerify (dset m "error_description" (.str "100%"))).isOk = true ∧
    (registrationResponseVerify (dset (dset m "error_description" (.str "100%")) "client_id" (.str "c"))).isOk = false ∧
    (registrationRequestVerify (dset m "registration_client_uri" (.str "u"))).isOk = true ∧
    (registrationResponseVerify (dset (dset m "registration_client_uri" (.str "u")) "client_id" (.str "c"))).isOk = false ∧
    (registrationResponseVerify m).isOk = false := by decide +kernel

/-- the hypotheses are met; the method chosen by default is confirmed, too -/
example :
    registrationRequestVerify [("redirect_uris", .list [.str "https://rp/cb"]), ("id_token_encrypted_response_alg", .str "RSA-OAEP")] =
      .ok [("redirect_uris", .list [.str "https://rp/cb"]), ("id_token_encrypted_response_alg", .str "RSA-OAEP"),
        ("id_token_encrypted_response_enc", .str "A128CBC-HS256")] ∧
    registrationResponseVerify [("redirect_uris", .list [.str "https://rp/cb"]), ("id_token_encrypted_response_alg", .str "RSA-OAEP"),
        ("id_token_encrypted_response_enc", .str "A128CBC-HS256"), ("client_id", .str "c")] = .ok () := by decide +kernel

end Verif
