import Verif.Props.Requests

/-!
# C88: an OIDC authorization response that names its audience is only accepted by a member of it
-/

namespace Verif

theorem isSubstr_iff (n : List Char) : ∀ s, isSubstrC n s = true ↔ ∃ p q, s = p ++ n ++ q
  | [] => by
    simp only [isSubstrC, List.isEmpty_iff]
    constructor
    · rintro rfl; exact ⟨[], [], rfl⟩
    · rintro ⟨p, q, h⟩
      simp at h; exact h.2.1
  | x :: xs => by
    simp only [isSubstrC, Bool.or_eq_true, isSubstr_iff n xs, List.isPrefixOf_iff_prefix]
    constructor
    · rintro (⟨q, h⟩ | ⟨p, q, h⟩)
      · exact ⟨[], q, by simpa using h.symm⟩
      · exact ⟨x :: p, q, by simp [h]⟩
    · rintro ⟨p, q, h⟩
      cases p with
      | nil => exact .inl ⟨q, by simpa using h.symm⟩
      | cons y p =>
        simp only [List.cons_append, List.cons.injEq] at h
        exact .inr ⟨p, q, h.2⟩

/-- When the response is accepted, the audience check said yes. -/
theorem authzResponse_mine {C : Crypto} {now : Int} {st : Dict} {jar : JarArg C} {kw st' : Dict}
    (h : authzResponseVerify C now st jar kw = .ok (true, st')) {aud c : Val} (ha : dget st "aud" = some aud)
    (hc : dget kw "client_id" = some c) : c.contains aud = .ok true := by
  unfold authzResponseVerify at h
  simp only [bind_ok] at h
  obtain ⟨_, _, mine, hm, h⟩ := h
  have ha' : dget (clearVerifiedClaims st) "aud" = some aud := by
    rw [clear_dget _ _ (by decide) (by decide) (by decide), ha]
  simp only [forMe, ha', hc] at hm
  unfold authzResponseRest at h
  cases mine with
  | false => simp at h
  | true => exact hm

/-- C88 for an audience given as a list: the caller's client id is in it. -/
theorem C88_partial (C : Crypto) (now : Int) (st : Dict) (jar : JarArg C) (kw st' : Dict) (l : List Val) (c : String)
    (ha : dget st "aud" = some (.list l)) (hc : dget kw "client_id" = some (.str c))
    (h : authzResponseVerify C now st jar kw = .ok (true, st')) : Val.str c ∈ l := by
  have := authzResponse_mine h ha hc
  simp only [Val.contains, Val.memList, ok_ok, List.any_eq_true] at this
  obtain ⟨y, hy, he⟩ := this
  rw [str_eq_iff] at he
  exact he ▸ hy

/-- C88 for an audience given as one string: all that is known is that the client id occurs somewhere in it. -/
theorem C88_string (C : Crypto) (now : Int) (st : Dict) (jar : JarArg C) (kw st' : Dict) (s c : String)
    (ha : dget st "aud" = some (.str s)) (hc : dget kw "client_id" = some (.str c))
    (h : authzResponseVerify C now st jar kw = .ok (true, st')) : ∃ p q, s.toList = p ++ c.toList ++ q := by
  have := authzResponse_mine h ha hc
  simp only [Val.contains, ok_ok] at this
  exact (isSubstr_iff _ _).1 this

/-- A response for others is answered with `False`, for every list audience without the client, whenever the OAuth2
part of the verification went through; no ID token is looked at. -/
theorem C88_refused (C : Crypto) (now : Int) (st : Dict) (jar : JarArg C) (kw : Dict) (l : List Val) (c : String)
    (ha : dget st "aud" = some (.list l)) (hc : dget kw "client_id" = some (.str c)) (hn : Val.str c ∉ l)
    (h : oauth2AuthzResponseVerify oidc_AuthorizationResponse st kw = .ok ()) :
    authzResponseVerify C now st jar kw = .ok (false, clearVerifiedClaims st) := by
  have ha' : dget (clearVerifiedClaims st) "aud" = some (.list l) := by
    rw [clear_dget _ _ (by decide) (by decide) (by decide), ha]
  have hm : Val.memList (.str c) l = false := by
    rw [Bool.eq_false_iff]
    intro hm
    simp only [Val.memList, List.any_eq_true] at hm
    obtain ⟨y, hy, he⟩ := hm
    rw [str_eq_iff] at he
    exact hn (he ▸ hy)
  simp only [authzResponseVerify, h, forMe, ha', hc, Val.contains, hm, bind, Except.bind, authzResponseRest]
  rfl

/-- C88 is false for an audience given as a string: client `bank` accepts a response for `bank-staging`. -/
theorem C88_counterexample (C : Crypto) (now : Int) (jar : JarArg C) : ∃ st kw st',
    dget st "aud" = some (.str "bank-staging") ∧ dget kw "client_id" = some (.str "bank") ∧
    authzResponseVerify C now st jar kw = .ok (true, st') :=
  ⟨[("code", .str "c"), ("aud", .str "bank-staging")], [("client_id", .str "bank")], _, rfl, rfl, rfl⟩

/-- the hypotheses of `C88_partial` and `C88_refused` can be met -/
example : (authzResponseVerify toy 1500 [("code", .str "c"), ("aud", .list [.str "bank"])] (some (some ()))
    [("client_id", .str "bank")]).map (·.1) = .ok true := by decide +kernel
example : (authzResponseVerify toy 1500 [("code", .str "c"), ("aud", .list [.str "bank-staging"])] (some (some ()))
    [("client_id", .str "bank")]).map (·.1) = .ok false := by decide +kernel

end Verif
