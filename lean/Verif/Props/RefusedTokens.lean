import Verif.Props.Refusals
import Verif.Props.Nested
import Verif.Props.TokenRoles
import Verif.Props.RequestObject

/-!
# C133 for messages that carry tokens
-/

namespace Verif

/-! ### What the crypto library does -/

/-- The crypto library raises its own exceptions, or `ValueError`, on texts and keys; a text it takes for a signed JWT has an
algorithm in its header, is not an encrypted one, and the claims are an object whose issuer is a text. -/
structure Polite (C : Crypto) : Prop where
  jwe : ∀ t a, Refuses (C.jwe t a)
  decryptKeys : ∀ kj, Refuses (C.decryptKeys kj)
  decrypt : ∀ w t ks, Refuses (C.decrypt w t ks)
  jws : ∀ t a, Refuses (C.jws (.str t) a)
  keys : ∀ kj j kw, Refuses (C.keys kj j kw)
  update : ∀ kj, Refuses (C.update kj)
  verifyCompact : ∀ j t ks, Refuses (C.verifyCompact j t ks)
  hasIssuer : ∀ kj s, Refuses (C.hasIssuer kj (.str s))
  leftHash : ∀ s h, Refuses (C.leftHash (.str s) h)
  payload : ∀ t a j, C.jws (.str t) a = .ok (some j) → Refuses j.payload
  alg : ∀ t a j, C.jws (.str t) a = .ok (some j) → ∃ s, dget j.headers "alg" = some (.str s)
  parsed : ∀ t a b j, C.jws (.str t) a = .ok (some j) → (∀ x, C.jwe t x = .ok none) ∧ C.jws (.str t) b = .ok (some j)

/-- the claims of the token are an object of plain data with a text as issuer, without nulls where the code trips over them -/
def ObjectToken (C : Crypto) (t : String) : Prop :=
  ∀ a j v, C.jws (.str t) a = .ok (some j) → j.payload = .ok v →
    ∃ d, v = .dict d ∧ noMsgDict d = true ∧ TextAt d "iss" ∧ ("error_description", .none) ∉ d ∧ ("birthdate", .none) ∉ d

theorem fromDict_null {sch : Schema} {k : String} (hk : dget sch.params k = some singleOptionalString) :
    ∀ (d : List (String × Val)) (st st' : Dict), fromDictR sch st d = .ok st' → (k, Val.none) ∉ d → dget st k ≠ some .none →
      dget st' k ≠ some .none
  | [], st, st', h, _, h0 => by cases h; exact h0
  | (k', v) :: d, st, st', h, hd, h0 => by
    simp only [List.mem_cons, not_or] at hd
    unfold fromDictR fromDict at h
    cases ha : addItem sch st k' v with
    | error e => rw [ha] at h; cases h
    | ok st₁ =>
      rw [ha] at h
      refine fromDict_null hk d st₁ st' h hd.2 ?_
      by_cases e : k' = k
      · subst e
        unfold addItem at ha
        split at ha
        · cases ha; exact h0
        · simp only [lookupSpec_declared hk, Bool.false_and] at ha
          have hv : v ≠ .none := fun e => hd.1 (by rw [e])
          have : ∀ w st₁, addValue singleOptionalString st k' v = .ok st₁ → dget st₁ k' = some w → dget st k' ≠ some w →
              w ≠ .none := by
            intro w st₁ h1 h2 h3 hw
            subst hw
            cases v with
            | none => exact hv rfl
            | bool b => simp [addValue, ignoredList, singleOptionalString, singleValue] at h1
            | list l =>
              unfold addValue at h1
              split at h1
              · cases h1; exact h3 h2
              · simp [singleOptionalString, singleValue, Ty.isInst, coerceSingle] at h1
            | str s =>
              simp [addValue, ignoredList, singleOptionalString, singleValue, Ty.isInst] at h1
              subst h1
              rw [dget_dset_same] at h2
              cases h2
            | _ => simp [addValue, ignoredList, singleOptionalString, singleValue, Ty.isInst, coerceSingle] at h1
          intro hn
          exact this .none st₁ (by simpa using ha) hn h0 rfl
      · rcases addItem_frame ha with rfl | ⟨w, rfl⟩
        · exact h0
        · rw [dget_dset_ne _ _ (fun h => e h)]
          exact h0

/-- only expected exceptions, as far as the model goes -/
def Tolerable {α : Type} (r : Res α) : Prop := ∀ e, r = .error e → e.expected = true ∨ e = .unmodelled

theorem Refuses.tolerable {α : Type} {r : Res α} (h : Refuses r) : Tolerable r := fun e he => .inl (h e he)

theorem tolerable_ok {α : Type} (a : α) : Tolerable (.ok a : Res α) := fun _ h => by cases h

theorem tolerable_bind {α β : Type} {r : Res α} {f : α → Res β} (h : Tolerable r) (hf : ∀ a, r = .ok a → Tolerable (f a)) :
    Tolerable (r >>= f) := by
  cases r with
  | error e => exact fun e' h' => by cases h'; exact h e rfl
  | ok a => exact hf a rfl

theorem Tolerable.same {α β : Type} {r : Res α} (h : Tolerable r) {e : Exc} (he : r = .error e) :
    Tolerable (.error e : Res β) := fun e' h' => by cases h'; exact h e he

theorem Tolerable.map {α β : Type} {r : Res α} (h : Tolerable r) (f : α → β) : Tolerable (r.map f) := by
  cases r with
  | error e => exact h.same rfl
  | ok a => exact tolerable_ok _

theorem read_tolerable {sch : Schema} (hs : sch ∈ allSchemas) (st d : Dict) : Tolerable (fromDictR sch st d) := by
  intro e he
  by_cases hu : e = .unmodelled
  · exact .inr hu
  · rcases C133_from_dict hs he hu with rfl | rfl <;> exact .inl rfl

/-! ### Reading a token -/

section
variable {C : Crypto} (hC : Polite C)
include hC

theorem checkSig_tolerable (j : Jws) (t : String) (jar : Option C.KeyJar) (kw : Dict) : Tolerable (checkSig C j t jar kw) := by
  unfold checkSig
  have hk : Tolerable (jarKeys C j jar kw) := by
    unfold jarKeys
    split
    · exact tolerable_ok _
    · split
      · split
        · exact tolerable_ok _
        · rename_i he
          exact (hC.keys _ _ _).tolerable.same he
      · exact tolerable_ok _
  split
  · rename_i he
    exact hk.same he
  · exact fun e he => by cases he; exact .inl rfl
  · split
    · exact tolerable_ok _
    · unfold retryVerify
      split
      · exact tolerable_ok _
      · split
        · split
          · rename_i he
            exact (hC.update _).tolerable.same he
          · split
            · rename_i he
              exact (hC.keys _ _ _).tolerable.same he
            · split
              · exact tolerable_ok _
              · rename_i he
                exact (hC.verifyCompact _ _ _).tolerable.same he
        · exact tolerable_ok _
    · rename_i he
      exact (hC.verifyCompact _ _ _).tolerable.same he

theorem fromJwt_tolerable {sch : Schema} (hs : sch ∈ allSchemas) {t : String} {j : Jws} {a : Option Val}
    (hj : C.jws (.str t) a = .ok (some j)) (ho : ObjectToken C t) (kj : Option C.KeyJar) (args : Dict) :
    Tolerable (fromJwt C sch t (some kj) args) := by
  unfold fromJwt decryptStep openStep
  simp only [(hC.parsed t a none j hj).1, (hC.parsed t a _ j hj).2]
  cases hp : j.payload with
  | error e => exact ((hC.payload t a j hj).tolerable).same hp
  | ok v =>
    obtain ⟨d, rfl, -⟩ := ho a j v hj hp
    obtain ⟨s, hs'⟩ := hC.alg t a j hj
    have hsig : Tolerable (sigStep C j t kj (verifyArg args) (ddel args "verify")) := by
      unfold sigStep
      rw [hs']
      simp only
      split
      · exact tolerable_ok _
      · split
        · exact checkSig_tolerable hC _ _ _ _
        · exact tolerable_ok _
    simp only
    cases hsg : sigStep C j t kj (verifyArg args) (ddel args "verify") with
    | error e => exact hsig.same hsg
    | ok jar' =>
      simp only [Val.itemsOf]
      split
      · exact tolerable_ok _
      · rename_i he
        exact (read_tolerable hs _ _).same he

/-- what a token that is read holds -/
theorem fromJwt_received {sch : Schema} {t : String} {j : Jws} {a : Option Val} (hj : C.jws (.str t) a = .ok (some j))
    (ho : ObjectToken C t) {jar : JarArg C} {args : Dict} {m : JwtMsg C} (h : fromJwt C sch t jar args = .ok m) :
    m.header = some j.headers ∧ ∃ d, noMsgDict d = true ∧ fromDictR sch sch.default d = .ok m.st ∧
      ("error_description", Val.none) ∉ d ∧ ("birthdate", Val.none) ∉ d := by
  unfold fromJwt at h
  cases jar with
  | none => cases h
  | some kj =>
    unfold decryptStep openStep at h
    simp only [(hC.parsed t a none j hj).1, (hC.parsed t a _ j hj).2] at h
    cases hp : j.payload with
    | error e => rw [hp] at h; cases h
    | ok v =>
      obtain ⟨d, rfl, hd, -, hn1, hn2⟩ := ho a j v hj hp
      rw [hp] at h
      simp only at h
      split at h
      · cases h
      · rename_i jso hdr jar' he
        split at he
        · cases he
          simp only [Val.itemsOf] at h
          split at h
          · rename_i st hst
            cases h
            exact ⟨rfl, d, hd, hst, hn1, hn2⟩
          · cases h
        · cases he

theorem core_tolerable {now : Int} {st : Dict} {t : String} (checkHash : Bool) {jar : Option C.KeyJar} (hjar : jar ≠ none) {kw : Dict}
    (ho : ObjectToken C t) (hkw : ArgsOk kw)
    (hst : checkHash = true → TextAt st "access_token" ∧ TextAt st "code") :
    Tolerable (verifyIdTokenCore C now st (.str t) checkHash (some jar) kw) := by
  unfold verifyIdTokenCore
  refine tolerable_bind ?_ fun j hj => ?_
  · unfold parseClaim
    split
    · rename_i he
      exact (hC.jws t none).tolerable.same he
    · exact fun e he => by cases he; exact .inl rfl
    · exact tolerable_ok _
  have hj' : C.jws (.str t) none = .ok (some j) := by
    unfold parseClaim at hj
    split at hj
    · cases hj
    · cases hj
    · rename_i he; cases hj; exact he
  obtain ⟨s, ha⟩ := hC.alg t none j hj'
  refine tolerable_bind (by unfold getR; rw [ha]; exact tolerable_ok _) fun alg _ => ?_
  refine tolerable_bind ?_ fun signed _ => ?_
  · unfold algCheck
    repeat' split
    all_goals first | exact tolerable_ok _ | exact fun e he => by cases he; exact .inl rfl
  refine tolerable_bind (hC.payload t none j hj').tolerable fun body hb => ?_
  obtain ⟨d, rfl, hd, hi, -⟩ := ho none j body hj' hb
  refine tolerable_bind ?_ fun _ _ => ?_
  · unfold issuerStep
    split
    · unfold issuerKnown
      refine tolerable_bind (getReq_refuses d "iss").tolerable fun iss hiss => ?_
      obtain ⟨s', rfl⟩ := hi iss (getReq_eq hiss)
      cases jar with
      | none => exact absurd rfl hjar
      | some kj =>
        simp only
        split
        · exact (refuses_need rfl).tolerable
        · rename_i he
          exact (hC.hasIssuer kj s').tolerable.same he
    · exact tolerable_ok _
  refine tolerable_bind (fromJwt_tolerable hC (sch := oidc_IdToken) (by simp [allSchemas]) hj' ho jar _) fun m hm => ?_
  obtain ⟨hh, d', hd', hr, hn1, hn2⟩ := fromJwt_received hC hj' ho hm
  have h1 := fromDict_null (sch := oidc_IdToken) (k := "error_description") rfl d' _ _ hr hn1 (fun h => by cases h)
  have h2 := fromDict_null (sch := oidc_IdToken) (k := "birthdate") rfl d' _ _ hr hn2 (fun h => by cases h)
  refine tolerable_bind (C133_id_token_partial ⟨d', .inl hr⟩ hkw h1 h2).tolerable fun _ _ => ?_
  refine tolerable_bind ?_ fun _ _ => tolerable_ok _
  unfold hashStep
  split
  · rename_i hb
    obtain ⟨hat, hco⟩ := hst (by simp only [Bool.and_eq_true] at hb; exact hb.2)
    unfold hashChecks
    refine tolerable_bind ?_ fun hf _ => ?_
    · unfold headerHash
      rw [hh]
      simp only [ha]
      exact tolerable_ok _
    have hone : ∀ attr hn e, TextAt st attr → e.expected = true → Tolerable (hashCheck C hf st m.st attr hn e) := by
      intro attr hn e hta hee
      unfold hashCheck
      cases hv : dget st attr with
      | none => exact tolerable_ok _
      | some v =>
        obtain ⟨x, rfl⟩ := hta v hv
        exact tolerable_bind (getReq_refuses _ _).tolerable fun _ _ => tolerable_bind (hC.leftHash x hf).tolerable fun _ _ =>
          (refuses_need hee).tolerable
    exact tolerable_bind (hone _ _ _ hat rfl) fun _ _ => hone _ _ _ hco rfl
  · exact tolerable_ok _

end

/-! ### Writing the token for the log -/

theorem noMsgDict_dset : ∀ {d : Dict} {k : String} {v : Val}, noMsgDict d = true → noMsg v = true → noMsgDict (dset d k v) = true
  | [], k, v, _, hv => by simp [dset, noMsgDict, hv]
  | (k', w) :: d, k, v, hd, hv => by
    simp only [noMsgDict, Bool.and_eq_true] at hd
    unfold dset
    split
    · simp only [noMsgDict, Bool.and_eq_true]; exact ⟨hv, hd.2⟩
    · simp only [noMsgDict, Bool.and_eq_true]; exact ⟨hd.1, noMsgDict_dset hd.2 hv⟩

theorem noMsgList_append : ∀ {l : List Val} {v : Val}, noMsgList l = true → noMsg v = true → noMsgList (l ++ [v]) = true
  | [], v, _, hv => by simp [noMsgList, hv]
  | w :: l, v, hl, hv => by
    simp only [noMsgList, Bool.and_eq_true] at hl
    simp only [List.cons_append, noMsgList, Bool.and_eq_true]
    exact ⟨hl.1, noMsgList_append hl.2 hv⟩

/-- what is parsed is plain data -/
def Plain (r : Res (Val × List Char)) : Prop := ∀ v rest, r = .ok (v, rest) → noMsg v = true

theorem jval_plain (n : Nat) : (∀ cs, Plain (jval n cs)) ∧ (∀ acc cs, noMsgDict acc = true → Plain (jmembers n acc cs)) ∧
    (∀ acc cs, noMsgList acc = true → Plain (jelems n acc cs)) := by
  induction n with
  | zero =>
    refine ⟨fun cs v rest h => ?_, fun acc cs _ v rest h => ?_, fun acc cs _ v rest h => ?_⟩
    · unfold jval at h; cases h
    · unfold jmembers at h; cases h
    · unfold jelems at h; cases h
  | succ n ih =>
    refine ⟨fun cs v rest h => ?_, fun acc cs ha v rest h => ?_, fun acc cs ha v rest h => ?_⟩
    · cases cs with
      | nil => unfold jval at h; cases h
      | cons x r =>
        unfold jval jnum jnumTail at h
        dsimp only at h
        repeat' split at h
        all_goals first
          | (cases h; rfl)
          | cases h
          | exact ih.2.1 _ _ rfl _ _ h | exact ih.2.2 _ _ rfl _ _ h
    · cases cs with
      | nil => unfold jmembers at h; cases h
      | cons x r =>
        unfold jmembers at h
        repeat' split at h
        all_goals first
          | (cases h; simp only [noMsg]; exact noMsgDict_dset ha (ih.1 _ _ _ (by assumption)))
          | cases h
          | exact ih.2.1 _ _ (noMsgDict_dset ha (ih.1 _ _ _ (by assumption))) _ _ h
    · unfold jelems at h
      repeat' split at h
      all_goals first
        | (cases h; simp only [noMsg]; exact noMsgList_append ha (ih.1 _ _ _ (by assumption)))
        | cases h
        | exact ih.2.2 _ _ (noMsgList_append ha (ih.1 _ _ _ (by assumption))) _ _ h

theorem loads_plain {s : String} {v : Val} (h : loads s = .ok v) : noMsg v = true := by
  unfold loads loadsC at h
  split at h
  · cases h
  · rename_i w r he
    split at h
    · cases h; exact (jval_plain _).1 _ _ _ he
    · cases h

/-- what `_add_value` stores, when the data are plain and the deserialiser is known -/
theorem addValue_made {sp : Spec} {st st' : Dict} {k : String} {val : Val} {Q : Val → Prop}
    (hl : ∀ c s f, sp.vtyp ≠ .list (.msg c s f)) (hn : noMsg val = true) (hQ : ∀ w, noMsg w = true → Q w)
    (hd : ∀ f fmt v w, sp.deser = some f → noMsg v = true → f v fmt = .ok w → Q w) (h : addValue sp st k val = .ok st') :
    st' = st ∨ ∃ w, st' = dset st k w ∧ Q w := by
  unfold addValue at h
  split at h
  · cases h; exact .inl rfl
  · cases ht : sp.vtyp with
    | single t =>
      rw [ht] at h
      simp only at h
      split at h
      · rename_i w hw
        cases h
        refine .inr ⟨w, rfl, ?_⟩
        unfold singleValue at hw
        split at hw
        · cases hw; exact hQ _ rfl
        · split at hw
          · cases hw; exact hQ _ rfl
          · cases hw
        · split at hw
          · cases hw; exact hQ _ hn
          · split at hw
            · rename_i f hf
              exact hd f _ _ _ hf hn (orDecodeError_ok hw)
            · unfold coerceSingle at hw
              repeat' split at hw
              all_goals first
                | (cases hw; exact hQ _ rfl)
                | (cases hw; exact hQ _ hn)
                | cases hw
      · cases h
    | list t =>
      rw [ht] at h
      simp only [addToList] at h
      split at h
      · split at h
        · cases h; exact .inr ⟨_, rfl, hQ _ hn⟩
        · cases h
      · split at h
        · split at h
          · exact absurd ht (hl _ _ _)
          · split at h
            · rename_i f hf
              split at h
              · rename_i w hw
                cases h
                exact .inr ⟨w, rfl, hd f _ _ _ hf hn (orDecodeError_ok hw)⟩
              · cases h
            · cases h; exact .inl rfl
        · split at h
          · rename_i l _ _ _
            split at h
            · rename_i w hw
              cases h
              refine .inr ⟨w, rfl, ?_⟩
              unfold addListOfList at hw
              obtain ⟨x, hx, hw⟩ := res_bind_ok hw
              have hx' : Q x := by
                unfold deserList at hx
                split at hx
                · rename_i f hf
                  exact hd f _ _ _ hf hn (orDecodeError_ok hx)
                · cases hx; exact hQ _ hn
              unfold checkItems at hw
              split at hw
              · exact absurd ht (hl _ _ _)
              · obtain ⟨y, _, hw⟩ := res_bind_ok hw
                split at hw
                · cases hw; exact hx'
                · cases hw
            · cases h
          · split at h
            · rename_i f hf
              split at h
              · rename_i w hw
                cases h
                exact .inr ⟨w, rfl, hd f _ _ _ hf hn (orDecodeError_ok hw)⟩
              · cases h
            · cases h
          · cases h

/-- `P` of every entry -/
def Every (P : Val → Prop) (st : Dict) : Prop := ∀ p ∈ st, P p.2

theorem every_dset {P : Val → Prop} : ∀ {st : Dict} {k : String} {v : Val}, Every P st → P v → Every P (dset st k v)
  | [], k, v, _, hv => by
    intro p hp
    simp only [dset, List.mem_cons, List.not_mem_nil, or_false] at hp
    rw [hp]; exact hv
  | (k', w) :: st, k, v, h, hv => by
    unfold dset
    split
    · intro p hp
      rcases List.mem_cons.1 hp with rfl | hp
      · exact hv
      · exact h p (List.mem_cons_of_mem _ hp)
    · intro p hp
      rcases List.mem_cons.1 hp with rfl | hp
      · exact h _ (List.mem_cons_self ..)
      · exact every_dset (fun q hq => h q (List.mem_cons_of_mem _ hq)) hv p hp

/-- the parameters of the class whose deserialisers give values with `P` -/
def Makes (P : Val → Prop) (sch : Schema) : Prop :=
  ∀ q ∈ sch.params, (∀ c s f, q.2.vtyp ≠ .list (.msg c s f)) ∧
    ∀ f fmt v w, q.2.deser = some f → noMsg v = true → f v fmt = .ok w → P w

theorem fromDict_every {sch : Schema} {P : Val → Prop} (hP : ∀ w, noMsg w = true → P w) (hm : Makes P sch) :
    ∀ (d : List (String × Val)) (st st' : Dict), noMsgDict d = true → Every P st → fromDictR sch st d = .ok st' → Every P st'
  | [], st, st', _, hst, h => by cases h; exact hst
  | (k, v) :: d, st, st', hd, hst, h => by
    simp only [noMsgDict, Bool.and_eq_true] at hd
    unfold fromDictR fromDict at h
    cases ha : addItem sch st k v with
    | error e => rw [ha] at h; cases h
    | ok st₁ =>
      rw [ha] at h
      refine fromDict_every hP hm d st₁ st' hd.2 ?_ h
      unfold addItem at ha
      split at ha
      · cases ha; exact hst
      · split at ha
        · cases ha; exact every_dset hst (hP _ hd.1)
        · rename_i b sp hl
          split at ha
          · cases ha; exact every_dset hst (hP _ hd.1)
          · obtain ⟨n, hn⟩ := lookupSpec_mem hl
            rcases addValue_made (hm _ hn).1 hd.1 hP (hm _ hn).2 ha with rfl | ⟨w, rfl, hw⟩
            · exact hst
            · exact every_dset hst hw

theorem addUrls_every {sch : Schema} {P : Val → Prop} (hP : ∀ w, noMsg w = true → P w) (hm : Makes P sch) :
    ∀ (ps : List (String × List String)) (st st' : Dict), Every P st → addUrls sch st ps = .ok st' → Every P st'
  | [], st, st', hst, h => by cases h; exact hst
  | (k, vs) :: ps, st, st', hst, h => by
    unfold addUrls at h
    split at h
    · cases h
    · rename_i st₁ ha
      refine addUrls_every hP hm ps st₁ st' ?_ h
      unfold addUrl at ha
      dsimp only at ha
      have hs : ∀ l : List String, P (.list (l.map .str)) := fun l => hP _ (by simp only [noMsg]; exact noMsgList_strs l)
      split at ha
      · split at ha
        · cases ha; exact every_dset hst (hP _ rfl)
        · cases ha; exact every_dset hst (hs _)
      · rename_i b sp hl
        obtain ⟨n, hn⟩ := lookupSpec_mem hl
        split at ha
        · split at ha
          · rename_i f hf
            split at ha
            · obtain ⟨x, hx, ha⟩ := res_bind_ok ha
              cases ha
              exact every_dset hst ((hm _ hn).2 f _ _ _ hf rfl hx)
            · cases ha
          · cases ha; exact every_dset hst (hs _)
        · split at ha
          · split at ha
            · rename_i f hf
              obtain ⟨x, hx, ha⟩ := res_bind_ok ha
              cases ha
              exact every_dset hst ((hm _ hn).2 f _ _ _ hf rfl hx)
            · cases ha; exact every_dset hst (hP _ rfl)
          · cases ha

theorem deserialize_every {sch : Schema} (hm : Makes (noMsg · = true) sch) (h0 : sch.default = []) {v : Val} {f : Fmt} {st : Dict}
    (hv : noMsg v = true) (h : deserialize sch v f = .ok st) : Every (noMsg · = true) st := by
  have he : Every (noMsg · = true) sch.default := by rw [h0]; intro p h; cases h
  have hd : ∀ {w : Val} {st : Dict}, noMsg w = true → (w.itemsOf >>= fun d => fromDictR sch sch.default d) = .ok st →
      Every (noMsg · = true) st := by
    intro w st hw h
    obtain ⟨d, hd, h⟩ := res_bind_ok h
    cases w <;> simp [Val.itemsOf] at hd
    · subst hd; exact fromDict_every (fun _ h => h) hm _ _ _ hw he h
    · cases hw
  have hu : ∀ {s : String} {st : Dict}, fromUrlencoded sch sch.default s = .ok st → Every (noMsg · = true) st := by
    intro s st h
    unfold fromUrlencoded at h
    dsimp only at h
    split at h
    · cases h
    · exact addUrls_every (fun _ h => h) hm _ _ _ he h
  have hn : ∀ {w : Val} {st : Dict}, notText sch w = .ok st → Every (noMsg · = true) st := by
    intro w st h
    unfold notText at h
    split at h
    · cases h
    · split at h <;> cases h <;> exact he
  unfold deserialize at h
  split at h
  · obtain ⟨w, hw, h⟩ := res_bind_ok h
    refine hd ?_ h
    cases v <;> simp [loadsVal] at hw
    exact loads_plain hw
  · exact hd hv h
  · split at h
    · exact hu h
    · exact hu h
    · cases h
    · exact hn h
    · exact hn h

/-- a message of a class without serialisers that holds plain data -/
def LeafMsg (w : Val) : Prop :=
  ∃ c d, w = .msg c d ∧ (c = oidc_AddressClaim.cls ∨ c = messageSchema.cls) ∧ Every (noMsg · = true) d

theorem leaf_makes : Makes (noMsg · = true) oidc_AddressClaim ∧ Makes (noMsg · = true) messageSchema := by
  constructor
  · intro q hq
    have : q.2 = singleOptionalString := by
      simp only [oidc_AddressClaim, List.mem_cons, List.not_mem_nil, or_false] at hq
      rcases hq with rfl | rfl | rfl | rfl | rfl | rfl <;> rfl
    rw [this]
    refine ⟨fun _ _ _ h => ?_, fun _ _ _ _ h => ?_⟩ <;> cases h
  · intro q hq; cases hq

theorem deserializeMsg_leaf {sch : Schema} (hs : sch = oidc_AddressClaim ∨ sch = messageSchema) {v : Val} {f : Fmt} {w : Val}
    (hv : noMsg v = true) (h : deserializeMsg sch v f = .ok w) : LeafMsg w := by
  unfold deserializeMsg at h
  obtain ⟨st, hst, rfl⟩ := map_ok.1 h
  refine ⟨sch.cls, st, rfl, ?_, ?_⟩
  · rcases hs with rfl | rfl
    · exact .inl rfl
    · exact .inr rfl
  · rcases hs with rfl | rfl
    · exact deserialize_every leaf_makes.1 rfl hv hst
    · exact deserialize_every leaf_makes.2 rfl hv hst

theorem dumpsVal_plain {v w : Val} (h : dumpsVal v = .ok w) : noMsg w = true := by
  obtain ⟨t, _, rfl⟩ := map_ok.1 h
  rfl

theorem tryFormats_leaf {v w : Val} (hv : noMsg v = true) : ∀ fs, tryFormats oidc_AddressClaim v fs = .ok w → LeafMsg w
  | [], h => by cases h
  | f :: fs, h => by
    unfold tryFormats at h
    split at h
    · rename_i m hm; cases h; exact deserializeMsg_leaf (.inl rfl) hv hm
    · exact tryFormats_leaf hv fs h
    · cases h

/-- what an ID token made from plain data can hold -/
def TokenVal (w : Val) : Prop := noMsg w = true ∨ LeafMsg w

theorem idToken_makes : Makes TokenVal oidc_IdToken := by
  intro q hq
  have hq' : q.2 = singleOptionalString ∨ q.2 = singleRequiredString ∨ q.2 = singleOptionalBoolean ∨ q.2 = singleOptionalInt ∨
      q.2 = singleRequiredInt ∨ q.2 = requiredListOfStrings ∨ q.2 = optionalListOfStrings ∨ q.2 = optionalMessage ∨
      q.2 = ⟨.single messageTy, false, some .msg, some (deserializeFromOneOf oidc_AddressClaim), false⟩ := by
    simp only [oidc_IdToken, List.mem_cons, List.not_mem_nil, or_false] at hq
    repeat' rcases hq with rfl | hq
    all_goals first | (subst hq; simp) | simp
  have hlist : ∀ fmt v w, noMsg v = true → listDeser v fmt = .ok w → TokenVal w := by
    intro fmt v w hv h
    left
    unfold listDeser at h
    split at h
    · split at h
      · cases h; simp only [noMsg]; exact noMsgList_strs _
      · unfold splitItem at h
        split at h
        · cases h; simp only [noMsg]; exact noMsgList_strs _
        · cases h
      · cases h; rfl
    · cases h; exact hv
  rcases hq' with e | e | e | e | e | e | e | e | e <;> rw [e]
  · refine ⟨fun _ _ _ h => ?_, fun _ _ _ _ h => ?_⟩ <;> cases h
  · refine ⟨fun _ _ _ h => ?_, fun _ _ _ _ h => ?_⟩ <;> cases h
  · refine ⟨fun _ _ _ h => ?_, fun _ _ _ _ h => ?_⟩ <;> cases h
  · refine ⟨fun _ _ _ h => ?_, fun _ _ _ _ h => ?_⟩ <;> cases h
  · refine ⟨fun _ _ _ h => ?_, fun _ _ _ _ h => ?_⟩ <;> cases h
  · refine ⟨fun _ _ _ h => ?_, fun f fmt v w h => ?_⟩ <;> cases h
    exact hlist fmt v w
  · refine ⟨fun _ _ _ h => ?_, fun f fmt v w h => ?_⟩ <;> cases h
    exact hlist fmt v w
  · refine ⟨fun _ _ _ h => (by cases h), fun f fmt v w h hv hw => .inr ?_⟩
    cases h
    unfold msgDeser msgDeserFor at hw
    split at hw
    · rename_i hm
      cases v <;> simp [Val.isMsg] at hm
      cases hv
    · split at hw
      · exact deserializeMsg_leaf (.inr rfl) hv hw
      · split at hw
        · exact deserializeMsg_leaf (.inr rfl) hv hw
        · obtain ⟨t, ht, hw⟩ := res_bind_ok hw
          exact deserializeMsg_leaf (.inr rfl) (dumpsVal_plain ht) hw
  · refine ⟨fun _ _ _ h => (by cases h), fun f fmt v w h hv hw => .inr ?_⟩
    cases h
    unfold deserializeFromOneOf at hw
    split at hw
    · exact tryFormats_leaf hv _ hw
    · split at hw
      · rename_i t ht
        refine tryFormats_leaf ?_ _ hw
        unfold textOf at ht
        split at ht
        · cases ht; exact hv
        · exact dumpsVal_plain ht
      · cases hw

theorem serDict_plain (env : SerEnv) {v : Val} (hv : noMsg v = true) : serDict env none v = .ok v := by
  cases v with
  | msg c d => cases hv
  | list l =>
    cases l with
    | nil => simp [serDict]
    | cons x l =>
      cases x with
      | msg c d => simp [noMsg, noMsgList] at hv
      | _ => simp [serDict]
  | _ => simp [serDict, serPlain]

theorem toDict_leaf {c : Cls} (hc : ∀ k, libEnv c k = none) : ∀ {d : Dict}, (∀ p ∈ d, noMsg p.2 = true) →
    ∃ r, toDict libEnv c d = .ok r
  | [], _ => ⟨_, rfl⟩
  | (k, v) :: d, h => by
    obtain ⟨r, hr⟩ := toDict_leaf hc (d := d) (fun p hp => h p (List.mem_cons_of_mem _ hp))
    refine ⟨(k, v) :: r, ?_⟩
    simp only [toDict, hc, serDict_plain libEnv (h _ (List.mem_cons_self ..)), hr]
    rfl

theorem leaf_ser : ∀ k, libEnv oidc_AddressClaim.cls k = none ∧ libEnv messageSchema.cls k = none := by
  intro k
  constructor
  · unfold SerEnv.ser serFor
    have hp : libEnv.params oidc_AddressClaim.cls = oidc_AddressClaim.params := rfl
    rw [hp]
    cases hl : lookupSpec oidc_AddressClaim.params k with
    | none => rfl
    | some p =>
      obtain ⟨b, sp⟩ := p
      obtain ⟨n, hn⟩ := lookupSpec_mem hl
      simp only [oidc_AddressClaim, List.mem_cons, List.not_mem_nil, or_false, Prod.mk.injEq] at hn
      rcases hn with ⟨-, rfl⟩ | ⟨-, rfl⟩ | ⟨-, rfl⟩ | ⟨-, rfl⟩ | ⟨-, rfl⟩ | ⟨-, rfl⟩ <;> rfl
  · rfl

theorem idToken_ser (k : String) : libEnv oidc_IdToken.cls k = none ∨ libEnv oidc_IdToken.cls k = some .list ∨
    libEnv oidc_IdToken.cls k = some .msg := by
  unfold SerEnv.ser serFor
  have hp : libEnv.params oidc_IdToken.cls = oidc_IdToken.params := rfl
  rw [hp]
  cases hl : lookupSpec oidc_IdToken.params k with
  | none => exact .inl rfl
  | some p =>
    obtain ⟨b, sp⟩ := p
    obtain ⟨n, hn⟩ := lookupSpec_mem hl
    have : ∀ q ∈ oidc_IdToken.params, q.2.ser = none ∨ q.2.ser = some .list ∨ q.2.ser = some .msg := by decide +kernel
    exact this _ hn

theorem serDict_refuses {s : Option Ser} (hs : s = none ∨ s = some .list ∨ s = some .msg) {v : Val} (hv : TokenVal v) :
    Refuses (serDict libEnv s v) := by
  rcases hv with hv | ⟨c, d, rfl, hc, hd⟩
  · rcases hs with rfl | rfl | rfl
    · rw [serDict_plain _ hv]; exact refuses_ok _
    · cases v with
      | msg c d => cases hv
      | list l =>
        cases l with
        | nil => simp only [serDict]; exact refuses_ok _
        | cons x l =>
          cases x with
          | msg c d => simp [noMsg, noMsgList] at hv
          | _ => simp only [serDict]; exact refuses_ok _
      | _ => simp only [serDict, serPlain]; exact refuses_error rfl
    · cases v with
      | msg c d => cases hv
      | list l => simp only [serDict]; exact refuses_error rfl
      | dict d => simp only [serDict, serPlain]; exact refuses_ok _
      | str s => simp only [serDict, serPlain]; exact refuses_ok _
      | _ => simp only [serDict, serPlain]; exact refuses_error rfl
  · obtain ⟨r, hr⟩ : ∃ r, toDict libEnv c d = .ok r := by
      rcases hc with rfl | rfl
      · exact toDict_leaf (fun k => (leaf_ser k).1) hd
      · exact toDict_leaf (fun k => (leaf_ser k).2) hd
    rcases hs with rfl | rfl | rfl
    · simp only [serDict, hr]; exact refuses_ok _
    · simp only [serDict, hr]; exact refuses_error rfl
    · simp only [serDict, hr]; exact refuses_ok _

theorem toDict_refuses : ∀ {d : Dict}, Every TokenVal d → Refuses (toDict libEnv oidc_IdToken.cls d)
  | [], _ => by simp only [toDict]; exact refuses_ok _
  | (k, v) :: d, h => by
    simp only [toDict]
    exact refuses_bind (serDict_refuses (idToken_ser k) (h _ (List.mem_cons_self ..))) fun _ _ =>
      refuses_bind (toDict_refuses (fun p hp => h p (List.mem_cons_of_mem _ hp))) fun _ _ => refuses_ok _

theorem format_refuses {d m : Dict} (hd : noMsgDict d = true) (h : fromDictR oidc_IdToken oidc_IdToken.default d = .ok m) :
    Refuses (formatOk (.msg oidc_IdToken.cls m)) := by
  have := toDict_refuses (fromDict_every (fun w hw => .inl hw) idToken_makes d [] m hd (fun p hp => by cases hp) h)
  unfold formatOk
  simp only
  split
  · exact refuses_ok _
  · rename_i e he
    exact refuses_error (this e he)

/-! ### The messages with ID tokens -/

section
variable {C : Crypto} (hC : Polite C)
include hC

theorem verifyIdToken_tolerable {now : Int} {st : Dict} {claim t : String} (hv : dget st claim = some (.str t)) (checkHash : Bool)
    {jar : Option C.KeyJar} (hjar : jar ≠ none) {kw : Dict} (ho : ObjectToken C t) (hkw : ArgsOk kw)
    (hst : checkHash = true → TextAt st "access_token" ∧ TextAt st "code") :
    Tolerable (verifyIdToken C now st claim checkHash (some jar) kw) := by
  unfold verifyIdToken
  refine tolerable_bind (by unfold getR; rw [hv]; exact tolerable_ok _) fun v hv' => ?_
  obtain rfl : v = .str t := by
    unfold getR at hv'
    rw [hv] at hv'
    cases hv'; rfl
  refine tolerable_bind (core_tolerable hC checkHash hjar ho hkw hst) fun m hm => ?_
  refine tolerable_bind ?_ fun _ _ => tolerable_ok _
  unfold verifyIdTokenCore at hm
  obtain ⟨j, hj, hm⟩ := res_bind_ok hm
  obtain ⟨_, _, hm⟩ := res_bind_ok hm
  obtain ⟨_, _, hm⟩ := res_bind_ok hm
  obtain ⟨_, _, hm⟩ := res_bind_ok hm
  obtain ⟨_, _, hm⟩ := res_bind_ok hm
  obtain ⟨m', hm', hm⟩ := res_bind_ok hm
  obtain ⟨_, _, hm⟩ := res_bind_ok hm
  obtain ⟨_, _, hm⟩ := res_bind_ok hm
  cases hm
  have hj' : C.jws (.str t) none = .ok (some j) := by
    unfold parseClaim at hj
    split at hj
    · cases hj
    · cases hj
    · rename_i he; cases hj; exact he
  obtain ⟨-, d, hd, hr, -⟩ := fromJwt_received hC hj' ho hm'
  exact (format_refuses hd hr).tolerable

theorem ifPresent_tolerable {now : Int} {st : Dict} {claim : String} (ht : TextAt st claim) (checkHash : Bool)
    {kj : C.KeyJar} {kw : Dict} (ho : ∀ t, dget st claim = some (.str t) → ObjectToken C t) (hkw : ArgsOk kw)
    (hst : checkHash = true → TextAt st "access_token" ∧ TextAt st "code") :
    Tolerable (verifyIfPresent C now st claim checkHash (some (some kj)) kw) := by
  unfold verifyIfPresent dhas
  cases hd : dget st claim with
  | none => exact tolerable_ok _
  | some v =>
    obtain ⟨t, rfl⟩ := ht v hd
    exact verifyIdToken_tolerable hC hd checkHash (fun h => by cases h) (ho t hd) hkw hst

/-- **C133**, token responses: a key jar is given, the ID token is a text whose claims are an object -/
theorem C133_token_response_partial {now : Int} {st kw : Dict} {kj : C.KeyJar} (h : Received oidc_AccessTokenResponse st)
    (hkw : ArgsOk kw) (h0 : dget st "error_description" ≠ some .none) (hi : dget st "id_token" ≠ some .none)
    (ho : ∀ t, dget st "id_token" = some (.str t) → ObjectToken C t) :
    Tolerable (accessTokenResponseVerify C now st (some (some kj)) kw) := by
  refine tolerable_bind (C133_responses_partial (by simp [responseClasses]) h h0).tolerable fun _ _ => ?_
  have ht := received_text (sch := oidc_AccessTokenResponse) (k := "id_token") (sp := singleOptionalString) rfl rfl rfl rfl h hi
  have hc : dget (clearVerifiedClaims st) "id_token" = dget st "id_token" := by
    unfold clearVerifiedClaims
    rw [dget_ddel_ne _ (by decide), dget_ddel_ne _ (by decide), dget_ddel_ne _ (by decide)]
  refine ifPresent_tolerable hC (fun v hv => ht v (hc ▸ hv)) false (fun t hv => ho t (hc ▸ hv)) hkw (fun h => by cases h)

/-- **C133**, authorization responses: the same; `aud`, which the class does not declare, is a list if it is there, and neither code
nor access token is null -/
theorem C133_oidc_authz_response_partial {now : Int} {st kw : Dict} {kj : C.KeyJar} (h : Received oidc_AuthorizationResponse st)
    (hkw : ArgsOk kw) (h0 : ∀ k ∈ ["error_description", "code", "access_token"], dget st k ≠ some .none)
    (hi : TextAt st "id_token") (ha : ∀ v, dget st "aud" = some v → Container v)
    (ho : ∀ t, dget st "id_token" = some (.str t) → ObjectToken C t) :
    Tolerable (authzResponseVerify C now st (some (some kj)) kw) := by
  have hc : ∀ k, k ∈ ["id_token", "aud", "code", "access_token"] → dget (clearVerifiedClaims st) k = dget st k := by
    intro k hk
    simp only [List.mem_cons, List.not_mem_nil, or_false] at hk
    unfold clearVerifiedClaims
    rcases hk with rfl | rfl | rfl | rfl <;>
      rw [dget_ddel_ne _ (by decide), dget_ddel_ne _ (by decide), dget_ddel_ne _ (by decide)]
  have hac := received_text (sch := oidc_AuthorizationResponse) (k := "access_token") (sp := singleOptionalString) rfl rfl rfl rfl h
    (h0 _ (by simp))
  have hco := received_text (sch := oidc_AuthorizationResponse) (k := "code") (sp := singleOptionalString) rfl rfl rfl rfl h
    (h0 _ (by simp))
  unfold authzResponseVerify
  refine tolerable_bind ?_ fun _ _ => tolerable_bind ?_ fun mine _ => ?_
  · exact (refuses_bind (C133_responses_partial (by simp [responseClasses]) h (h0 _ (by simp))) fun _ _ =>
      refuses_bind (refuses_match rfl) fun _ _ => refuses_match rfl).tolerable
  · unfold forMe
    split
    · rename_i aud c h1 h2
      obtain ⟨s, rfl⟩ := hkw.client c h2
      exact (contains_refuses (ha aud (by rw [← hc "aud" (by simp)]; exact h1)) rfl).tolerable
    · exact tolerable_ok _
  · unfold authzResponseRest
    split
    · refine Tolerable.map (ifPresent_tolerable hC (fun v hv => hi v ?_) true (fun t hv => ho t ?_) hkw fun _ => ⟨fun v hv => hac v ?_,
        fun v hv => hco v ?_⟩) _ <;> rw [← hc _ (by simp)] <;> exact hv
    · exact tolerable_ok _

/-- **C133**, messages with an ID token that is a text -/
theorem C133_message_with_id_token_partial {now : Int} {sch : Schema} {st kw : Dict} {kj : C.KeyJar}
    (hs : sch.cls ≠ ⟨"session", "RefreshSessionResponse"⟩) (hkw : ArgsOk kw) (hi : TextAt st "id_token")
    (ho : ∀ t, dget st "id_token" = some (.str t) → ObjectToken C t) :
    Tolerable (messageWithIdTokenVerify C now sch st (some (some kj)) kw) := by
  refine tolerable_bind ?_ fun _ _ => ifPresent_tolerable hC hi false ho hkw (fun h => by cases h)
  unfold besideIdTokenVerify
  rw [if_neg hs]
  exact (verifyBase_refuses _ _).tolerable

end

/-! ### Where it fails for tokens -/

/-- a key jar that knows the issuer, and a token with the given claims -/
abbrev claimsToy (v : Val) : Crypto := toyCrypto [("T", ⟨[("alg", .str "RS256")], .ok v⟩)] ["https://op"] ["T"]

/-- **C133** fails for tokens whose claims are not an object, for claims with a null error description, and for an `aud` of an
authorization response that is a number. -/
theorem C133_counterexamples_tokens :
    ReadThen oidc_AccessTokenResponse [("access_token", .str "at"), ("token_type", .str "Bearer"), ("id_token", .str "T")]
      (accessTokenResponseVerify (claimsToy (.list [.int 1])) 5 · (some (some ())) []) .typeError ∧
    ReadThen oidc_AccessTokenResponse [("access_token", .str "at"), ("token_type", .str "Bearer"), ("id_token", .str "T")]
      (accessTokenResponseVerify (claimsToy (.dict [("iss", .str "https://op"), ("sub", .str "s"), ("aud", .list [.str "c"]),
        ("exp", .int 9), ("iat", .int 5), ("error_description", .none)])) 5 · (some (some ())) []) .typeError ∧
    ReadThen oidc_AuthorizationResponse [("code", .str "c"), ("aud", .int 5)]
      (authzResponseVerify (claimsToy .none) 5 · (some (some ())) [("client_id", .str "c")]) .typeError := by
  refine ⟨?_, ?_, ?_⟩ <;> exact ⟨by decide +kernel, by decide +kernel⟩

/-- the same crypto library with an honest token meets the conditions -/
theorem toy_polite : Polite (claimsToy (.dict toyClaims)) ∧ ∀ t, ObjectToken (claimsToy (.dict toyClaims)) t := by
  have key : ∀ t j, dget [("T", (⟨[("alg", .str "RS256")], .ok (.dict toyClaims)⟩ : Jws))] t = some j →
      j = ⟨[("alg", .str "RS256")], .ok (.dict toyClaims)⟩ := by
    intro t j h
    simp only [dget] at h
    split at h <;> cases h
    rfl
  refine ⟨?_, ?_⟩
  · constructor
    · intro t a; exact refuses_ok _
    · intro kj; exact refuses_ok _
    · intro w; exact nomatch w
    · intro t a; exact refuses_ok _
    · intro kj j kw; exact refuses_ok _
    · intro kj; exact refuses_ok _
    · intro j t ks
      show Refuses (if _ then _ else _)
      split
      · exact refuses_ok _
      · exact refuses_error rfl
    · intro kj s; exact refuses_ok _
    · intro s h; exact refuses_ok _
    · intro t a j h
      rw [key t j (Except.ok.inj h)]
      exact refuses_ok _
    · intro t a j h
      rw [key t j (Except.ok.inj h)]
      exact ⟨_, rfl⟩
    · intro t a b j h
      exact ⟨fun _ => rfl, h⟩
  · intro t a j v h hp
    rw [key t j (Except.ok.inj h)] at hp
    cases hp
    refine ⟨_, rfl, by decide, fun v hv => ?_, by simp [toyClaims], by simp [toyClaims]⟩
    simp [toyClaims, dget] at hv
    exact ⟨_, hv.symm⟩

/-- and the token response with that token is accepted; one with a wrong audience is refused -/
example : (construct oidc_AccessTokenResponse [("access_token", .str "at"), ("token_type", .str "Bearer"), ("id_token", .str "T")] >>=
      (accessTokenResponseVerify (claimsToy (.dict toyClaims)) 1500 · (some (some ())) [("client_id", .str "client")])).isOk = true ∧
    (construct oidc_AccessTokenResponse [("access_token", .str "at"), ("token_type", .str "Bearer"), ("id_token", .str "T")] >>=
      (accessTokenResponseVerify (claimsToy (.dict toyClaims)) 1500 · (some (some ())) [("client_id", .str "other")])) =
        .error .notForMe := by
  constructor <;> decide +kernel

/-! ### Forms -/

/-- no message, no time stamp: texts, numbers, truth values, lists of strings and JSON objects -/
def Spec.simple (sp : Spec) : Bool :=
  match sp.vtyp, sp.ser with
  | .single .str, none | .single .int, none | .single .bool, none => true
  | .list .str, some .spSep | .list .str, some .list => true
  | .single .dict, some .json | .single .dict, some .msgJson => true
  | _, _ => false

/-- a simple specification with the deserialiser that belongs to it -/
def Spec.simplified (sp : Spec) : Spec :=
  match sp.vtyp, sp.ser with
  | .single .str, none => ⟨.single .str, sp.required, none, none, sp.nullAllowed⟩
  | .single .int, none => ⟨.single .int, sp.required, none, none, sp.nullAllowed⟩
  | .single .bool, none => ⟨.single .bool, sp.required, none, none, sp.nullAllowed⟩
  | .list .str, some .spSep => ⟨.list .str, sp.required, some .spSep, some spSepDeser, sp.nullAllowed⟩
  | .list .str, some .list => ⟨.list .str, sp.required, some .list, some listDeser, sp.nullAllowed⟩
  | .single .dict, some .json => ⟨.single .dict, sp.required, some .json, some jsonDeser, sp.nullAllowed⟩
  | .single .dict, some .msgJson => ⟨.single .dict, sp.required, some .msgJson, some dictDeser, sp.nullAllowed⟩
  | _, _ => sp

theorem simplifieds : allSchemas.map (fun s => s.params.map (fun p => p.2.simplified)) =
    allSchemas.map (fun s => s.params.map Prod.snd) := rfl

theorem simplified_eq {sch : Schema} (hs : sch ∈ allSchemas) {q : String × Spec} (hq : q ∈ sch.params) : q.2.simplified = q.2 :=
  List.map_inj_left.1 (List.map_inj_left.1 simplifieds sch hs) q hq

theorem parseQs_values (txt : String) : ∀ p ∈ parseQs txt, p.2 ≠ [] := by
  have : ∀ (l : List (String × String)) (d : Assoc (List String)), (∀ p ∈ d, p.2 ≠ []) → ∀ p ∈ l.foldl qsAdd d, p.2 ≠ [] := by
    intro l
    induction l with
    | nil => intro d hd; exact hd
    | cons q l ih =>
      intro d hd
      refine ih _ fun p hp => ?_
      obtain ⟨k, v⟩ := p
      rcases mem_dset_of hp with ⟨-, rfl⟩ | hp
      · simp
      · exact hd _ hp
  exact this _ _ (fun p hp => by cases hp)

/-- the deserialisers of simple parameters on a text of a form -/
theorem simple_deser {sp : Spec} (hc : sp.simplified = sp) (hs : sp.simple = true) {f : Val → Fmt → Res Val}
    (hf : sp.deser = some f) {s : String} {e : Exc} (h : f (.str s) .urlencoded = .error e) : e = .jsonDecodeError ∨ e = .unmodelled := by
  rw [← hc] at hf
  unfold Spec.simple at hs
  unfold Spec.simplified at hf
  split at hs <;> first | cases hs | skip
  all_goals (rename_i h1 h2; rw [h1, h2] at hf; cases hf)
  · cases h
  · cases h
  · exact loads_error h
  · cases h

/-- **C133**, reading forms, for classes without messages and time stamps among their parameters: `FormatError`, `TooManyValues` or
`JSONDecodeError`. -/
theorem C133_from_form_partial {sch : Schema} (hs : sch ∈ allSchemas) (hp : sch.params.all (fun q => q.2.simple) = true) {st : Dict}
    {txt : String} {e : Exc} (h : fromUrlencoded sch st txt = .error e) (hu : e ≠ .unmodelled) :
    e = .formatError ∨ e = .tooManyValues ∨ e = .jsonDecodeError := by
  unfold fromUrlencoded at h
  dsimp only at h
  split at h
  · cases h; exact .inl rfl
  · have hv := parseQs_values txt
    have key : ∀ (ps : List (String × List String)) (st : Dict), (∀ p ∈ ps, p.2 ≠ []) → addUrls sch st ps = .error e →
        e = .tooManyValues ∨ e = .jsonDecodeError := by
      intro ps
      induction ps with
      | nil => intro st _ h; cases h
      | cons p ps ih =>
        intro st hne h
        obtain ⟨k, vs⟩ := p
        unfold addUrls at h
        split at h
        · rename_i e' ha
          cases h
          unfold addUrl at ha
          dsimp only at ha
          split at ha
          · split at ha <;> cases ha
          · rename_i b sp hl
            obtain ⟨n, hn⟩ := lookupSpec_mem hl
            have hsp : sp.simple = true := List.all_eq_true.1 hp _ hn
            have hse := simplified_eq hs hn
            have hde : ∀ {f : Val → Fmt → Res Val} {v : String}, sp.deser = some f →
                (f (.str v) .urlencoded >>= fun x => (.ok (dset st k x) : Res Dict)) = .error e →
                e = .tooManyValues ∨ e = .jsonDecodeError := by
              intro f v hf h
              cases hx : f (.str v) .urlencoded with
              | ok x => rw [hx] at h; cases h
              | error e' =>
                rw [hx] at h
                cases h
                rcases simple_deser hse hsp hf hx with h | h
                · exact .inr h
                · exact absurd h hu
            split at ha
            · split at ha
              · rename_i f hf
                split at ha
                · exact hde hf ha
                · exact absurd rfl (hne _ (List.mem_cons_self ..))
              · cases ha
            · split at ha
              · split at ha
                · rename_i f hf
                  exact hde hf ha
                · cases ha
              · cases ha; exact .inl rfl
        · exact ih _ (fun p hp => hne p (List.mem_cons_of_mem _ hp)) h
    exact .inr (key _ _ hv h)

/-- 52 of the 74 classes are like that -/
example : (allSchemas.filter (fun s => s.params.all (fun q => q.2.simple))).length = 52 := by decide +kernel
example : fromUrlencoded oauth2_AuthorizationRequest [] "client_id=a&client_id=b" = .error .tooManyValues ∧
    fromUrlencoded oauth2_AuthorizationRequest [] "client_id" = .error .formatError := by constructor <;> decide +kernel

/-- **C133** fails for forms: a claims request that is a JSON document but not an object, and a user info address like that, raise
`AttributeError`. -/
theorem C133_counterexample_form :
    fromUrlencoded oidc_AuthorizationRequest [] "claims=5" = .error .attributeError ∧
    fromUrlencoded oidc_OpenIDSchema [] "address=null" = .error .attributeError := by
  constructor <;> decide +kernel

end Verif
