import Verif.Props.Encoding
import Verif.Props.Required
import Verif.Props.Vocabulary

/-!
# C132: lists of messages in forms
-/

namespace Verif

/-! ### What is written -/

/-- the forms of messages, one after the other; the first failure counts -/
def formsOf (env : SerEnv) : List (Schema × Dict) → Res (List String)
  | [] => .ok []
  | (s, d) :: ms =>
    match toUrlencoded env s d with
    | .error e => .error e
    | .ok t => (formsOf env ms).map (t :: ·)

/-- messages of given classes as values -/
def asMsgs (ms : List (Schema × Dict)) : List Val := ms.map (fun m => .msg m.1.cls m.2)

/-- `str` of a list of strings never fails -/
theorem pyStr_strs (ts : List String) : ∃ t, pyStr (.list (ts.map .str)) = .ok t := by
  have h : ∀ ts : List String, ∃ t, reprList (ts.map .str) = .ok t := by
    intro ts
    induction ts with
    | nil => exact ⟨_, rfl⟩
    | cons a ts ih =>
      obtain ⟨t, ht⟩ := ih
      exact ⟨_, by rw [List.map_cons, reprList, reprC, ht]; rfl⟩
  cases ts with
  | nil => exact ⟨_, rfl⟩
  | cons a ts =>
    obtain ⟨t, ht⟩ := h ts
    exact ⟨_, by rw [pyStr, List.map_cons, reprC, reprC, ht] <;> first | rfl | simp⟩

theorem msgUrlEach_msgs (env : SerEnv) (ms : List (Schema × Dict)) (hp : ∀ m ∈ ms, env.params m.1.cls = m.1.params) :
    msgUrlEach env (asMsgs ms) = (formsOf env ms).map (fun ts => ts.map .str) := by
  induction ms with
  | nil => rfl
  | cons m ms ih =>
    obtain ⟨s, d⟩ := m
    have h1 := hp (s, d) (List.mem_cons_self ..)
    have h2 := ih (fun m hm => hp m (List.mem_cons_of_mem _ hm))
    simp only [asMsgs, List.map_cons] at h2 ⊢
    simp only at h1
    rw [msgUrlEach, h2, h1, formsOf]
    change (toUrlencoded env s d >>= _) = _
    cases toUrlencoded env s d with
    | error e => rfl
    | ok t => cases formsOf env ms <;> rfl

theorem linkUrlEach_msgs (env : SerEnv) (ms : List (Schema × Dict))
    (hp : ∀ m ∈ ms, m.1.cls = linkCls ∧ env.params m.1.cls = m.1.params) :
    linkUrlEach env (asMsgs ms) = (formsOf env ms).map (fun ts => ts.map .str) := by
  induction ms with
  | nil => rfl
  | cons m ms ih =>
    obtain ⟨s, d⟩ := m
    obtain ⟨h0, h1⟩ := hp (s, d) (List.mem_cons_self ..)
    have h2 := ih (fun m hm => hp m (List.mem_cons_of_mem _ hm))
    simp only [asMsgs, List.map_cons] at h2 ⊢
    simp only at h1 h0
    rw [linkUrlEach, h2, formsOf, linkText, if_pos h0, h1]
    change ((toUrlencoded env s d).map Val.str >>= _) = _
    cases toUrlencoded env s d with
    | error e => rfl
    | ok t => cases formsOf env ms <;> rfl

/-- **C132**: a list of messages under a parameter declared for that is written as one pair, the Python text of the list of
the forms that the messages have by themselves; it fails exactly when one of these does, with the exception of the first. -/
theorem C132_written (env : SerEnv) (ps : Assoc Spec) (pos : Bool) (k : String) (ms : List (Schema × Dict))
    (hp : ∀ m ∈ ms, env.params m.1.cls = m.1.params)
    (hs : serFor ps k = some .msgList ∨ serFor ps k = some .linkList ∧ ∀ m ∈ ms, m.1.cls = linkCls) :
    (∀ e, formsOf env ms = .error e → urlPairs env pos ps k (.list (asMsgs ms)) = .error e) ∧
    (∀ ts, formsOf env ms = .ok ts →
      ∃ t, pyStr (.list (ts.map .str)) = .ok t ∧ urlPairs env pos ps k (.list (asMsgs ms)) = .ok [(k, t)]) := by
  have h : urlPairs env pos ps k (.list (asMsgs ms)) =
      ((formsOf env ms).map (fun ts => ts.map Val.str) >>= fun r => pyStr (.list r) >>= fun t => .ok [(k, t)]) := by
    rcases hs with hs | ⟨hs, hc⟩
    · rw [urlPairs, hs, ← msgUrlEach_msgs env ms hp]
    · rw [urlPairs, hs, ← linkUrlEach_msgs env ms (fun m hm => ⟨hc m hm, hp m hm⟩)]
  constructor
  · intro e he
    rw [h, he]
    rfl
  · intro ts hts
    obtain ⟨t, ht⟩ := pyStr_strs ts
    refine ⟨t, ht, ?_⟩
    rw [h, hts]
    simp only [Except.map, bind, Except.bind, ht]

/-! ### What is read -/

theorem pairs_key {k : String} : ∀ {v : Val} {env : SerEnv} {pos : Bool} {ps : Assoc Spec} {l : List (String × String)},
    urlPairs env pos ps k v = .ok l → ∀ p ∈ l, p.1 = k := by
  intro v env pos ps l h
  have hm : ∀ {r : Res String}, (r.map (fun t => [(k, t)])) = .ok l → ∀ p ∈ l, p.1 = k := by
    intro r hr
    cases r with
    | error e => cases hr
    | ok t => cases hr; simp
  have he : ∀ (vs : List Val) (l : List (String × String)), pyStrEach env k vs = .ok l → ∀ p ∈ l, p.1 = k := by
    intro vs
    induction vs with
    | nil => intro l hl; cases hl; simp
    | cons v vs ih =>
      intro l hl
      rw [pyStrEach] at hl
      obtain ⟨a, _, hl⟩ := res_bind_ok hl
      obtain ⟨b, hb, hl⟩ := res_bind_ok hl
      cases hl
      intro p hp
      rcases List.mem_cons.1 hp with rfl | hp
      · rfl
      · exact ih b hb p hp
  cases v with
  | none => rw [urlPairs] at h; split at h <;> cases h <;> simp
  | str s => rw [urlPairs] at h; cases h; simp
  | list vs =>
    simp only [urlPairs] at h
    split at h
    · exact he _ _ h
    · obtain ⟨r, _, h⟩ := res_bind_ok h
      obtain ⟨t, _, h⟩ := res_bind_ok h
      cases h; simp
    · obtain ⟨r, _, h⟩ := res_bind_ok h
      obtain ⟨t, _, h⟩ := res_bind_ok h
      cases h; simp
    · exact hm h
    · exact hm h
  | msg c d => rw [urlPairs] at h; exact hm h
  | bool b => rw [urlPairs.eq_def] at h; exact hm h
  | int b => rw [urlPairs.eq_def] at h; exact hm h
  | flt b => rw [urlPairs.eq_def] at h; exact hm h
  | dict b => rw [urlPairs.eq_def] at h; exact hm h

theorem nonEmptyValues_append (k : String) (a b : List (String × String)) :
    nonEmptyValues k (a ++ b) = nonEmptyValues k a ++ nonEmptyValues k b := by
  induction a with
  | nil => rfl
  | cons p a ih =>
    obtain ⟨n, v⟩ := p
    rw [List.cons_append, nonEmptyValues, nonEmptyValues, ih]
    split <;> rfl

theorem nonEmptyValues_other {k k' : String} (hne : k' ≠ k) {l : List (String × String)} (h : ∀ p ∈ l, p.1 = k') :
    nonEmptyValues k l = [] := by
  induction l with
  | nil => rfl
  | cons p l ih =>
    obtain ⟨n, v⟩ := p
    have hn : n = k' := h (n, v) (List.mem_cons_self ..)
    rw [nonEmptyValues, if_neg (fun e => hne (hn ▸ e.1)), ih (fun p hp => h p (List.mem_cons_of_mem _ hp))]

/-- the pairs under the name of an entry are those the entry contributes -/
theorem pairsAll_values {env : SerEnv} {pos : Bool} {ps : Assoc Spec} {k : String} {v : Val} : ∀ {st : Dict}
    {l : List (String × String)}, urlPairsAll env pos ps st = .ok l → DNodup st → dget st k = some v →
    ∃ a, urlPairs env pos ps k v = .ok a ∧ nonEmptyValues k l = nonEmptyValues k a
  | [], _, _, _, h => by cases h
  | (k', v') :: st, l, h, hn, hv => by
    rw [urlPairsAll] at h
    obtain ⟨a, ha, h⟩ := res_bind_ok h
    obtain ⟨b, hb, h⟩ := res_bind_ok h
    cases h
    simp only [DNodup, dkeys_cons, List.nodup_cons] at hn
    rw [dget_cons] at hv
    split at hv
    · rename_i e
      cases hv
      subst e
      refine ⟨a, ha, ?_⟩
      rw [nonEmptyValues_append]
      have : nonEmptyValues k' b = [] := by
        have : ∀ {st : Dict} {b : List (String × String)}, urlPairsAll env pos ps st = .ok b → k' ∉ dkeys st →
            nonEmptyValues k' b = [] := by
          intro st
          induction st with
          | nil => intro b hb _; rw [urlPairsAll] at hb; cases hb; rfl
          | cons p st ih =>
            intro b hb hk
            obtain ⟨k₂, v₂⟩ := p
            rw [urlPairsAll] at hb
            obtain ⟨x, hx, hb⟩ := res_bind_ok hb
            obtain ⟨y, hy, hb⟩ := res_bind_ok hb
            cases hb
            simp only [dkeys_cons, List.mem_cons, not_or] at hk
            rw [nonEmptyValues_append, ih hy hk.2, nonEmptyValues_other (fun e => hk.1 e.symm) (pairs_key hx)]
            rfl
        exact this hb hn.1
      rw [this, List.append_nil]
    · rename_i hne
      obtain ⟨c, hc, he⟩ := pairsAll_values hb hn.2 hv
      refine ⟨c, hc, ?_⟩
      rw [nonEmptyValues_append, he, nonEmptyValues_other hne (pairs_key ha)]
      rfl

/-- a name in the parsed form decides what is stored under it, if nothing fails -/
theorem addUrls_at {sch : Schema} {k : String} {vs : List String} : ∀ {info : List (String × List String)} {st r : Dict},
    (info.map Prod.fst).Nodup → (k, vs) ∈ info → addUrls sch st info = .ok r →
    ∃ st₁ st₂, addUrl sch st₁ k vs = .ok st₂ ∧ dget r k = dget st₂ k := by
  have hkeep : ∀ {info : List (String × List String)} {st r : Dict}, k ∉ info.map Prod.fst → addUrls sch st info = .ok r →
      dget r k = dget st k := by
    intro info
    induction info with
    | nil => intro st r _ h; cases h; rfl
    | cons p info ih =>
      intro st r hk h
      obtain ⟨k', vs'⟩ := p
      simp only [List.map_cons, List.mem_cons, not_or] at hk
      rw [addUrls] at h
      split at h
      · cases h
      · rename_i st' he
        rw [ih hk.2 h]
        have hset : ∀ x, dget (dset st k' x) k = dget st k := fun x => dget_dset_ne _ _ (fun e => hk.1 e.symm)
        unfold addUrl at he
        simp only at he
        repeat' split at he
        all_goals first
          | cases he; exact hset _
          | (obtain ⟨x, _, he⟩ := res_bind_ok he; cases he; exact hset _)
          | cases he
  intro info
  induction info with
  | nil => intro st r _ h; cases h
  | cons p info ih =>
    intro st r hn hm h
    obtain ⟨k', vs'⟩ := p
    simp only [List.map_cons, List.nodup_cons] at hn
    rw [addUrls] at h
    split at h
    · cases h
    · rename_i st' he
      rcases List.mem_cons.1 hm with e | hm
      · cases e
        exact ⟨st, st', he, hkeep hn.1 h⟩
      · exact ih hn.2 hm h

theorem pyStr_list_text {l : List Val} {t : String} (h : pyStr (.list l) = .ok t) : ∃ cs, t = String.ofList ('[' :: cs) := by
  rw [pyStr] at h
  · cases l with
    | nil => cases h; exact ⟨[']'], rfl⟩
    | cons v vs =>
      rw [reprC] at h
      cases ha : reprC v with
      | error e => rw [ha] at h; cases h
      | ok a =>
        cases hb : reprList vs with
        | error e => rw [ha, hb] at h; cases h
        | ok b => rw [ha, hb] at h; cases h; exact ⟨a ++ b, rfl⟩
  · simp

/-- what is stored under a name that holds a list written with `str()` comes from a text that begins with a bracket -/
theorem read_bracket {env : SerEnv} {sch : Schema} {st r : Dict} {txt k : String} {l : List Val} (hn : DNodup st)
    (hs : serFor sch.params k = some .msgList ∨ serFor sch.params k = some .linkList)
    (hl : dget st k = some (.list l)) (ht : toUrlencoded env sch st = .ok txt) {st₀ : Dict}
    (hr : fromUrlencoded sch st₀ txt = .ok r) :
    ∃ st₁ st₂ cs, addUrl sch st₁ k [String.ofList ('[' :: cs)] = .ok st₂ ∧ dget r k = dget st₂ k := by
  unfold toUrlencoded urlFinish at ht
  split at ht
  · unfold raiseMissing at ht
    split at ht <;> cases ht
  · cases hp : urlPairsAll env false sch.params st with
    | error e => rw [hp] at ht; cases ht
    | ok ps =>
    rw [hp] at ht
    cases ht
    obtain ⟨a, ha, hv⟩ := pairsAll_values hp hn hl
    have h1 : ∃ t cs, a = [(k, t)] ∧ t = String.ofList ('[' :: cs) := by
      rw [urlPairs] at ha
      rcases hs with hs | hs <;> rw [hs] at ha <;> simp only at ha
      all_goals
        obtain ⟨x, _, ha⟩ := res_bind_ok ha
        obtain ⟨t, ht, ha⟩ := res_bind_ok ha
        cases ha
        obtain ⟨cs, hcs⟩ := pyStr_list_text ht
        exact ⟨t, cs, rfl, hcs⟩
    obtain ⟨t, cs, rfl, rfl⟩ := h1
    have hne : String.ofList ('[' :: cs) ≠ "" := fun e => by
      have := congrArg String.toList e
      simp at this
    have hval : nonEmptyValues k ps = [String.ofList ('[' :: cs)] := by
      rw [hv]
      simp [nonEmptyValues, hne]
    have hq := (C10_parse_urlencode ps k).1
    rw [hval, if_neg (by simp)] at hq
    unfold fromUrlencoded at hr
    simp only at hr
    split at hr
    · cases hr
    · obtain ⟨st₁, st₂, h1, h2⟩ := addUrls_at (parseQs_nodup _) (dget_mem hq) hr
      exact ⟨st₁, st₂, cs, h1, h2⟩

/-- **C132** fails for evidence in every case: whatever list is under `evidence`, the form that is written cannot be read. -/
theorem C132_counterexample_evidence (env : SerEnv) (sch : Schema)
    (hs : sch = ida_VerificationElement ∨ sch = ida_VerificationElementRequest) (st : Dict) (hn : DNodup st) (l : List Val)
    (hl : dget st "evidence" = some (.list l)) (txt : String) (ht : toUrlencoded env sch st = .ok txt) :
    ∃ e, fromUrlencoded sch [] txt = .error e := by
  cases hr : fromUrlencoded sch [] txt with
  | error e => exact ⟨e, rfl⟩
  | ok r =>
    exfalso
    have hser : serFor sch.params "evidence" = some .msgList := by rcases hs with rfl | rfl <;> rfl
    obtain ⟨st₁, st₂, cs, h1, -⟩ := read_bracket hn (.inl hser) hl ht hr
    have he : evidenceListDeser ida_Evidence (.str (String.ofList ('[' :: cs))) .urlencoded = .error .jsonDecodeError := by
      have hd : deserializeFromOneOf ida_Evidence (.str "[") .urlencoded = .error .jsonDecodeError := by decide +kernel
      simp only [evidenceListDeser, Val.iter, String.toList_ofList, List.map_cons, mapDeser]
      rw [show String.ofList ['['] = "[" from rfl, hd]
      rfl
    have ha : addUrl sch st₁ "evidence" [String.ofList ('[' :: cs)] = .error .jsonDecodeError := by
      rcases hs with rfl | rfl
      all_goals
        unfold addUrl
        rw [show lookupSpec _ "evidence" = some (false, _) from rfl]
        simp only [he]
        rfl
    cases ha.symm.trans h1

/-- **C132** fails for links in every case: what is read is not a list of links; either nothing can be read, or the whole
text is taken for the form of one link. -/
theorem C132_counterexample_links (env : SerEnv) (st : Dict) (hn : DNodup st) (l : List Val)
    (hl : dget st "links" = some (.list l)) (txt : String) (ht : toUrlencoded env oidc_JRD st = .ok txt) (r : Dict)
    (hr : fromUrlencoded oidc_JRD [] txt = .ok r) : ∃ d, dget r "links" = some (.msg linkCls d) := by
  obtain ⟨st₁, st₂, cs, h1, h2⟩ := read_bracket hn (.inr rfl) hl ht hr
  unfold addUrl at h1
  rw [show lookupSpec oidc_JRD.params "links" = some (false, _) from rfl] at h1
  obtain ⟨x, hx, h1⟩ := res_bind_ok h1
  cases h1
  simp only [linkDeser, lDeser, deserializeMsg] at hx
  cases hd : deserialize oidc_Link (.str (String.ofList ('[' :: cs))) .urlencoded with
  | error e => rw [hd] at hx; cases hx
  | ok d =>
    rw [hd] at hx
    cases hx
    exact ⟨d, by rw [h2, dget_dset_same]; rfl⟩

/-! ### Examples -/

/-- the classes of the library meet the hypothesis of `C132_written` -/
example : ∀ m ∈ [(oidc_Link, ([("rel", .str "a b")] : Dict)), (oidc_Link, [("rel", .str "c"), ("href", .str "d")])],
    libEnv.params m.1.cls = m.1.params ∧ m.1.cls = linkCls := by
  intro m hm
  simp only [List.mem_cons, List.not_mem_nil, or_false] at hm
  rcases hm with rfl | rfl <;> exact ⟨rfl, rfl⟩

example : formsOf libEnv [(oidc_Link, [("rel", .str "a b")]), (oidc_Link, [("rel", .str "c"), ("href", .str "d")])] =
    .ok ["rel=a+b", "rel=c&href=d"] := by decide +kernel

/-- the text of the list, and what is made of it when it is read -/
example : toUrlencoded libEnv oidc_JRD [("links", .list [.msg linkCls [("rel", .str "a"), ("href", .str "b")]])] =
      .ok "links=%5B%27rel%3Da%26href%3Db%27%5D" ∧
    (fromUrlencoded oidc_JRD [] "links=%5B%27rel%3Da%26href%3Db%27%5D").map (fun r => dget r "links") =
      .ok (some (.msg linkCls [("['rel", .str "a"), ("href", .str "b']")])) := by
  constructor <;> decide +kernel

example : toUrlencoded libEnv ida_VerificationElement [("trust_framework", .str "x"),
      ("evidence", .list [.msg ⟨"ida", "Evidence"⟩ [("type", .str "qes")]])] =
    .ok "trust_framework=x&evidence=%5B%27type%3Dqes%27%5D" := by decide +kernel

end Verif
