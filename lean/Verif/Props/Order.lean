import Verif.Props.LangTag
import Verif.Props.Unknown
import Verif.Props.JsonBytes
import Verif.Props.Percent

/-!
# C151: the order in which parameters arrive does not matter

Neither in an object nor in a form; and what a message holds, not in which order, decides about it.
-/

namespace Verif

/-- the same value under every name -/
def SameContent (st st' : Dict) : Prop := ∀ k, dget st' k = dget st k

theorem SameContent.trans {a b c : Dict} (h : SameContent a b) (h' : SameContent b c) : SameContent a c :=
  fun k => (h' k).trans (h k)

theorem SameContent.dset {a b : Dict} (h : SameContent a b) (k : String) (v : Val) : SameContent (dset a k v) (dset b k v) := by
  intro n
  by_cases e : n = k
  · subst e; rw [dget_dset_same, dget_dset_same]
  · rw [dget_dset_ne _ _ (Ne.symm e), dget_dset_ne _ _ (Ne.symm e), h n]

/-- both are refused, or both are accepted with the same content -/
def BothRead (x y : Res Dict) : Prop :=
  (∃ e e', x = .error e ∧ y = .error e') ∨ ∃ a b, x = .ok a ∧ y = .ok b ∧ SameContent a b

theorem BothRead.trans {x y z : Res Dict} (h : BothRead x y) (h' : BothRead y z) : BothRead x z := by
  rcases h with ⟨e, e', rfl, rfl⟩ | ⟨a, b, rfl, rfl, hab⟩
  · rcases h' with ⟨_, e'', h1, rfl⟩ | ⟨_, _, h1, _⟩
    · exact .inl ⟨_, _, rfl, rfl⟩
    · cases h1
  · rcases h' with ⟨_, _, h1, _⟩ | ⟨a', c, h1, rfl, h3⟩
    · cases h1
    · cases h1; exact .inr ⟨_, _, rfl, rfl, hab.trans h3⟩

/-- reading one item after the other, where what becomes of an item does not depend on the message -/
def readAll {α : Type} (o : String → α → Res (Option Val)) : Dict → List (String × α) → Res Dict
  | st, [] => .ok st
  | st, (k, v) :: r =>
    match stored st k (o k v) with
    | .error e => .error e
    | .ok st' => readAll o st' r

theorem readAll_cons {α : Type} {o : String → α → Res (Option Val)} (st : Dict) (k : String) (v : α) (r : List (String × α)) :
    readAll o st ((k, v) :: r) = (match o k v with
      | .error e => .error e
      | .ok none => readAll o st r
      | .ok (some w) => readAll o (dset st k w) r) := by
  rw [readAll]
  rcases o k v with e | _ | w <;> rfl

theorem readAll_same {α : Type} {o : String → α → Res (Option Val)} : ∀ (d : List (String × α)) {st st' : Dict},
    SameContent st st' → BothRead (readAll o st d) (readAll o st' d)
  | [], st, st', h => .inr ⟨_, _, rfl, rfl, h⟩
  | (k, v) :: r, st, st', h => by
    rw [readAll_cons, readAll_cons]
    rcases o k v with e | _ | w
    · exact .inl ⟨_, _, rfl, rfl⟩
    · exact readAll_same r h
    · exact readAll_same r (h.dset k w)

theorem dset_swap {k k' : String} (h : k ≠ k') (st : Dict) (v w : Val) :
    SameContent (dset (dset st k v) k' w) (dset (dset st k' w) k v) := by
  intro n
  by_cases e : n = k
  · subst e
    rw [dget_dset_same, dget_dset_ne _ _ h.symm, dget_dset_same]
  · rw [dget_dset_ne _ _ (Ne.symm e)]
    by_cases e' : n = k'
    · subst e'; rw [dget_dset_same, dget_dset_same]
    · rw [dget_dset_ne _ _ (Ne.symm e'), dget_dset_ne _ _ (Ne.symm e'), dget_dset_ne _ _ (Ne.symm e)]

theorem readAll_perm {α : Type} {o : String → α → Res (Option Val)} {d d' : List (String × α)} (hp : d.Perm d') :
    (d.map Prod.fst).Nodup → ∀ {st st' : Dict}, SameContent st st' → BothRead (readAll o st d) (readAll o st' d') := by
  induction hp with
  | nil => intro _ st st' h; exact .inr ⟨_, _, rfl, rfl, h⟩
  | cons p _ ih =>
    intro hn st st' h
    obtain ⟨k, v⟩ := p
    have hn' := (List.nodup_cons.1 hn).2
    rw [readAll_cons, readAll_cons]
    rcases o k v with e | _ | w
    · exact .inl ⟨_, _, rfl, rfl⟩
    · exact ih hn' h
    · exact ih hn' (h.dset k w)
  | swap p q r =>
    intro hn st st' h
    obtain ⟨k, v⟩ := p
    obtain ⟨k', v'⟩ := q
    have hne : k' ≠ k := by
      intro e
      simp [e] at hn
    simp only [readAll_cons]
    rcases o k v with e | _ | w <;> rcases o k' v' with e' | _ | w'
    · exact .inl ⟨_, _, rfl, rfl⟩
    · exact .inl ⟨_, _, rfl, rfl⟩
    · exact .inl ⟨_, _, rfl, rfl⟩
    · exact .inl ⟨_, _, rfl, rfl⟩
    · exact readAll_same r h
    · exact readAll_same r (h.dset _ _)
    · exact .inl ⟨_, _, rfl, rfl⟩
    · exact readAll_same r (h.dset _ _)
    · exact readAll_same r (SameContent.trans (dset_swap hne st w' w) ((h.dset k w).dset k' w'))
  | trans h1 _ ih1 ih2 =>
    intro hn st st' h
    have hn2 := (h1.map Prod.fst).nodup_iff.1 hn
    exact (ih1 hn (fun _ => rfl)).trans (ih2 hn2 h)

/-! ## data -/

/-- what becomes of a member -/
theorem addItem_stored (sch : Schema) (k : String) (v : Val) : ∃ o, ∀ st, addItem sch st k v = stored st k o := by
  by_cases hb : isBlank v = true
  · exact ⟨.ok none, fun st => by simp [addItem, hb, stored]⟩
  · cases hl : lookupSpec sch.params k with
    | none => exact ⟨.ok (some v), fun st => by simp [addItem, hb, hl, stored]⟩
    | some p =>
      obtain ⟨star, sp⟩ := p
      by_cases hs : (star && v.isNone) = true
      · exact ⟨.ok (some v), fun st => by simp only [addItem, hb, hl, hs, if_true]; simp [stored]⟩
      · obtain ⟨o, ho⟩ := addValue_stored sp v
        exact ⟨o, fun st => by simp only [addItem, hb, hl, hs]; simp [ho]⟩

theorem fromDictR_readAll (sch : Schema) : ∃ o : String → Val → Res (Option Val), ∀ (d : Dict) (st : Dict),
    fromDictR sch st d = readAll o st d := by
  have := fun k v => addItem_stored sch k v
  refine ⟨fun k v => Classical.choose (this k v), fun d => ?_⟩
  induction d with
  | nil => intro st; rfl
  | cons p d ih =>
    intro st
    obtain ⟨k, v⟩ := p
    have hk := Classical.choose_spec (this k v) st
    unfold readAll
    rw [← hk]
    cases h : addItem sch st k v with
    | error e => simp only [fromDictR, fromDict, h]
    | ok st' =>
      simp only [← ih]
      simp only [fromDictR, fromDict, h]

/-- **C151, data.**  Objects with the same members in different orders are both refused or both read, with the same content. -/
theorem C151_from_dict (sch : Schema) (st d d' : Dict) (hd : DNodup d) (hp : d.Perm d') :
    BothRead (fromDictR sch st d) (fromDictR sch st d') := by
  obtain ⟨o, ho⟩ := fromDictR_readAll sch
  rw [ho, ho]
  exact readAll_perm hp hd (fun _ => rfl)

/-- **C151, JSON.**  So are the documents of such objects, whichever way and in whichever encoding they are written. -/
theorem C151_from_json (sch : Schema) (st d d' : Dict) (hd : DNodup d) (hp : d.Perm d') {s s' : List Char}
    (hs : DocText (.dict d) s) (hs' : DocText (.dict d') s') :
    BothRead (fromJson sch st (String.ofList s)) (fromJson sch st (String.ofList s')) ∧
    ∀ e e', BothRead (fromJsonBytes sch st (encodeAs e s)) (fromJsonBytes sch st (encodeAs e' s')) := by
  have h : BothRead (fromJson sch st (String.ofList s)) (fromJson sch st (String.ofList s')) := by
    unfold fromJson
    rw [(C145_grammar _ _).2 hs, (C145_grammar _ _).2 hs']
    exact C151_from_dict sch st d d' hd hp
  refine ⟨h, fun e e' => ?_⟩
  rw [C149_message sch st e s _ hs, C149_message sch st e' s' _ hs']
  exact h

/-! ## forms -/

theorem addUrls_readAll (sch : Schema) : ∃ o : String → List String → Res (Option Val), ∀ (d : Assoc (List String)) (st : Dict),
    addUrls sch st d = readAll o st d := by
  have := fun k vs => addUrl_stored (lookupSpec sch.params k) vs
  refine ⟨fun k vs => Classical.choose (this k vs), fun d => ?_⟩
  induction d with
  | nil => intro st; rfl
  | cons p d ih =>
    intro st
    obtain ⟨k, vs⟩ := p
    have hk := Classical.choose_spec (this k vs) sch st k rfl
    unfold readAll
    rw [← hk]
    cases h : addUrl sch st k vs with
    | error e => simp only [addUrls, h]
    | ok st' => simp only [← ih, addUrls, h]

/-- the pairs of two forms are the same, those of one name in the same order -/
def SamePairs (ps ps' : List (String × String)) : Prop :=
  ∀ k, (ps.filter (fun p => decide (p.1 = k))).map Prod.snd = (ps'.filter (fun p => decide (p.1 = k))).map Prod.snd

theorem nodup_of_fst {α : Type} {d : List (String × α)} (h : (d.map Prod.fst).Nodup) : d.Nodup :=
  (List.pairwise_map.1 h).imp fun hn e => hn (congrArg Prod.fst e)

theorem perm_of_dget {α : Type} {d d' : Assoc α} (hd : DNodup d) (hd' : DNodup d') (h : ∀ k, dget d k = dget d' k) : d.Perm d' := by
  refine (List.perm_ext_iff_of_nodup (nodup_of_fst hd) (nodup_of_fst hd')).2 ?_
  rintro ⟨k, v⟩
  constructor
  · intro hm; exact dget_mem ((h k) ▸ mem_dget hd hm)
  · intro hm; exact dget_mem ((h k).symm ▸ mem_dget hd' hm)

theorem valuesOf_nonblank (k : String) (ps : List (String × String)) :
    valuesOf k (ps.filter (fun p => !decide (p.2 = ""))) = (valuesOf k ps).filter (fun v => !decide (v = "")) := by
  induction ps with
  | nil => rfl
  | cons p ps ih =>
    rw [List.filter_cons, valuesOf_cons]
    by_cases h : p.2 = "" <;> by_cases hk : p.1 = k <;> simp [h, hk, ih, valuesOf_cons]

/-- **C151, forms.**  Forms of any senders with the same pairs, those of one name in the same order, are both refused or both read, with the
same content. -/
theorem C151_from_form (sch : Schema) (st : Dict) (ts ts' : List ((String × String) × List Char))
    (h : ∀ x ∈ ts, EncodedPair x.1 x.2) (h' : ∀ x ∈ ts', EncodedPair x.1 x.2) (hp : SamePairs (ts.map (·.1)) (ts'.map (·.1))) :
    BothRead (fromUrlencoded sch st (String.ofList (joinC '&' (ts.map (·.2)))))
      (fromUrlencoded sch st (String.ofList (joinC '&' (ts'.map (·.2))))) := by
  have hq : ∀ k, dget (parseQs (String.ofList (joinC '&' (ts.map (·.2))))) k = dget (parseQs (String.ofList (joinC '&' (ts'.map (·.2))))) k := by
    intro k
    have e : valuesOf k (ts.map (·.1)) = valuesOf k (ts'.map (·.1)) := hp k
    rw [dget_parseQs, dget_parseQs, C124_pairs ts h, C124_pairs ts' h', valuesOf_nonblank, valuesOf_nonblank, e]
  have hperm := perm_of_dget (parseQs_nodup _) (parseQs_nodup _) hq
  have hnil : ts = [] ↔ ts' = [] := by
    constructor
    · rintro rfl
      cases ts' with
      | nil => rfl
      | cons x t =>
        have := hp x.1.1
        simp at this
    · rintro rfl
      cases ts with
      | nil => rfl
      | cons x t =>
        have := hp x.1.1
        simp at this
  have hempty : ∀ us : List ((String × String) × List Char), (∀ x ∈ us, EncodedPair x.1 x.2) →
      (String.ofList (joinC '&' (us.map (·.2))) = "" ↔ us = []) := by
    intro us hu
    rw [String.ofList_eq_empty_iff, joinC_empty]
    · simp
    · intro t ht
      obtain ⟨x, hx, rfl⟩ := List.mem_map.1 ht
      obtain ⟨n, v, e, -⟩ := hu x hx
      rw [e]; simp
  have hinfo : parseQs (String.ofList (joinC '&' (ts.map (·.2)))) = [] ↔ parseQs (String.ofList (joinC '&' (ts'.map (·.2)))) = [] := by
    constructor <;> intro e
    · rw [e] at hperm; exact hperm.nil_eq.symm
    · rw [e] at hperm; exact hperm.eq_nil
  unfold fromUrlencoded
  simp only [ne_eq, hempty ts h, hempty ts' h', hnil, hinfo]
  split
  · exact .inl ⟨_, _, rfl, rfl⟩
  · obtain ⟨o, ho⟩ := addUrls_readAll sch
    rw [ho, ho]
    exact readAll_perm hperm (parseQs_nodup _) (fun _ => rfl)

/-! ## verification -/

/-- **C151, verification.**  Messages with the same content are verified alike: the same answer or the same exception, and the same content
afterwards. -/
theorem C151_verify {st st' : Dict} (h : SameContent st st') (C : Crypto) (now : Int) (jar : JarArg C) (kw : Dict) :
    (∀ sch, verifyBase sch st' = verifyBase sch st) ∧
    (∀ sch, responseVerify sch st' = responseVerify sch st) ∧
    idTokenVerify now st' kw = idTokenVerify now st kw ∧
    (∀ hdr, logoutTokenVerify now st' hdr kw = logoutTokenVerify now st hdr kw) ∧
    Alike (fun a b => b.1 = a.1 ∧ EqualAt (KnownOrSlot oidc_AuthorizationResponse) a.2 b.2)
      (authzResponseVerify C now st jar kw) (authzResponseVerify C now st' jar kw) ∧
    Alike (EqualAt (KnownOrSlot oidc_AccessTokenResponse)) (accessTokenResponseVerify C now st jar kw)
      (accessTokenResponseVerify C now st' jar kw) ∧
    Alike (EqualAt (KnownOrSlot oidc_AuthorizationRequest)) (authzRequestVerify C st jar kw) (authzRequestVerify C st' jar kw) ∧
    Alike (EqualAt (Known oidc_RegistrationRequest)) (registrationRequestVerify st) (registrationRequestVerify st') ∧
    Alike (fun a b => b.1 = a.1 ∧ EqualAt (KnownOrSlot session_EndSessionRequest) a.2 b.2)
      (endSessionVerify C now st jar kw) (endSessionVerify C now st' jar kw) ∧
    Alike (EqualAt (fun k => Known session_BackChannelLogoutRequest k ∨ k = "__verified_logout_token"))
      (backChannelVerify C now st jar kw) (backChannelVerify C now st' jar kw) := by
  have hN : ∀ N, EqualAt N st st' := fun N k _ => h k
  refine ⟨fun _ => verifyBase_equalAt (hN _), fun sch => ?_, C131_id_token (hN _), fun _ => C131_logout_token (hN _) (h _),
    C131_authz_response_partial (hN _) (h _), C131_token_response (hN _), C131_authz_request (hN _) fun _ _ _ _ _ => hN _,
    C131_registration_request (hN _), C131_end_session (hN _), C131_back_channel (hN _)⟩
  unfold responseVerify errorDescription
  rw [verifyBase_equalAt (hN _), h]

/-! ## examples -/

/-- a token response in two orders -/
def inOrder : Dict := [("access_token", .str "a"), ("token_type", .str "Bearer"), ("expires_in", .int 3600)]

def outOfOrder : Dict := [("expires_in", .int 3600), ("access_token", .str "a"), ("token_type", .str "Bearer")]

example : inOrder.Perm outOfOrder ∧ DNodup inOrder ∧ inOrder ≠ outOfOrder ∧
    (fromDictR oidc_AccessTokenResponse [] inOrder).toOption.isSome = true := by
  refine ⟨by decide +kernel, by decide, by decide +kernel, by decide +kernel⟩

/-- a form in two orders: the two values of one name stay in order -/
example : SamePairs [("scope", "openid"), ("state", "s"), ("scope", "email")] [("state", "s"), ("scope", "openid"), ("scope", "email")] := by
  intro k
  by_cases h : "scope" = k <;> by_cases h' : "state" = k <;> simp [h, h']
  subst h; simp at h'

/-- Two members that cannot be read: the first one decides which exception there is. -/
def twoBad : Dict := [("expires_in", .str "soon"), ("scope", .int 3)]

/-- **C151, what does depend on the order.**  Which exception is raised, when there are several reasons for one. -/
theorem C151_exception_depends : twoBad.Perm twoBad.reverse ∧ DNodup twoBad ∧
    (∃ e e', fromDictR oidc_AccessTokenResponse [] twoBad = .error e ∧
      fromDictR oidc_AccessTokenResponse [] twoBad.reverse = .error e' ∧ e ≠ e') := by
  exact ⟨by decide +kernel, by decide, .valueError, .decodeError, by decide +kernel, by decide +kernel, by decide⟩

end Verif
