import Verif.Props.Arguments
import Verif.Props.Mapping
import Verif.Props.Unknown

/-!
# C155: equal messages get the same verdict
-/

namespace Verif

/-- equal, whichever is asked -/
def EqVal (v w : Val) : Prop := v.eq w = true ∧ w.eq v = true

theorem EqVal.symm {v w : Val} (h : EqVal v w) : EqVal w v := ⟨h.2, h.1⟩

/-- both absent, or both present and equal -/
inductive EqOpt : Option Val → Option Val → Prop
  | none : EqOpt none none
  | some {v w : Val} (h : EqVal v w) : EqOpt (some v) (some w)

/-- the same parameters, with equal values -/
def EqMsg (st st' : Dict) : Prop := ∀ k, EqOpt (dget st k) (dget st' k)

/-- two messages of the same class that compare equal -/
theorem eqMsg_of_eq {c : Cls} {st st' : Dict} (h1 : WfVal (.msg c st)) (h2 : WfVal (.msg c st')) (h : Val.eq (.msg c st) (.msg c st') = true) :
    EqMsg st st' := by
  have h' : Val.eq (.msg c st') (.msg c st) = true := by rw [C16_symm _ _ h2 h1]; exact h
  rw [C16_iff _ _ _ _ h1.1 h2.1] at h
  rw [C16_iff _ _ _ _ h2.1 h1.1] at h'
  intro k
  have a := h.2 k
  have b := h'.2 k
  cases hs : dget st k with
  | none =>
    cases ht : dget st' k with
    | none => exact .none
    | some w => rw [hs, ht] at a; exact a.elim
  | some v =>
    cases ht : dget st' k with
    | none => rw [hs, ht] at a; exact a.elim
    | some w => rw [hs, ht] at a; rw [hs, ht] at b; exact .some ⟨a, b⟩

/-! ## what equal values have in common -/

theorem eqVal_cases {v w : Val} (h : EqVal v w) :
    (v = .none ∧ w = .none) ∨ (∃ s, v = .str s ∧ w = .str s) ∨
    (∃ a b, v = .list a ∧ w = .list b ∧ Val.eqList a b = true ∧ Val.eqList b a = true) ∨
    (∃ a b, v = .dict a ∧ w = .dict b ∧ a.length = b.length ∧ Val.eqDict a b = true ∧ Val.eqDict b a = true) ∨
    (∃ c c' a b, v = .msg c a ∧ w = .msg c' b ∧ a.length = b.length ∧ Val.eqDict a b = true ∧ Val.eqDict b a = true) ∨
    (∃ q, v.num? = some q ∧ w.num? = some q) := by
  obtain ⟨h1, h2⟩ := h
  cases v <;> cases w <;> simp_all [Val.eq, Val.num?]

theorem eqVal_num {v w : Val} (h : EqVal v w) : w.num? = v.num? := by
  rcases eqVal_cases h with ⟨rfl, rfl⟩ | ⟨s, rfl, rfl⟩ | ⟨a, b, rfl, rfl, -⟩ | ⟨a, b, rfl, rfl, -⟩ | ⟨c, c', a, b, rfl, rfl, -⟩ | ⟨q, h1, h2⟩
  · rfl
  · rfl
  · rfl
  · rfl
  · rfl
  · rw [h1, h2]

theorem truthy_num {v : Val} {q : Rat} (h : v.num? = some q) : v.truthy = !decide (q = 0) := by
  cases v with
  | bool b => cases b <;> · cases h; rfl
  | int i =>
    cases h
    simp [Val.truthy]
  | flt q => cases h; simp [Val.truthy]
  | _ => cases h

theorem eqList_length : ∀ {a b : List Val}, Val.eqList a b = true → a.length = b.length
  | [], [], _ => rfl
  | x :: xs, y :: ys, h => by
    simp only [Val.eqList, Bool.and_eq_true] at h
    simp [eqList_length h.2]
  | [], _ :: _, h => by simp [Val.eqList] at h
  | _ :: _, [], h => by simp [Val.eqList] at h

theorem isEmpty_length {a b : List α} (h : a.length = b.length) : b.isEmpty = a.isEmpty := by
  cases a <;> cases b <;> simp_all

theorem eqVal_truthy {v w : Val} (h : EqVal v w) : w.truthy = v.truthy := by
  rcases eqVal_cases h with ⟨rfl, rfl⟩ | ⟨s, rfl, rfl⟩ | ⟨a, b, rfl, rfl, h1, -⟩ | ⟨a, b, rfl, rfl, h1, -⟩ | ⟨c, c', a, b, rfl, rfl, h1, -⟩ |
    ⟨q, h1, h2⟩
  · rfl
  · rfl
  · simp only [Val.truthy, isEmpty_length (eqList_length h1)]
  · simp only [Val.truthy, isEmpty_length h1]
  · simp only [Val.truthy, isEmpty_length h1]
  · rw [truthy_num h1, truthy_num h2]

theorem num_plain {v : Val} {q : Rat} (h : v.num? = some q) : v.isNone = false ∧ v.hashable = true ∧ v.len = .error .typeError ∧
    v.iter = .error .typeError ∧ (∀ x, Val.contains x v = .error .typeError) := by
  cases v <;> simp [Val.num?, Val.isNone, Val.hashable, Val.len, Val.iter, Val.contains] at *

theorem eqVal_isNone {v w : Val} (h : EqVal v w) : w.isNone = v.isNone := by
  rcases eqVal_cases h with ⟨rfl, rfl⟩ | ⟨s, rfl, rfl⟩ | ⟨a, b, rfl, rfl, -⟩ | ⟨a, b, rfl, rfl, -⟩ | ⟨c, c', a, b, rfl, rfl, -⟩ | ⟨q, h1, h2⟩
  all_goals first | rfl | rw [(num_plain h1).1, (num_plain h2).1]

theorem eqVal_len {v w : Val} (h : EqVal v w) : w.len = v.len := by
  rcases eqVal_cases h with ⟨rfl, rfl⟩ | ⟨s, rfl, rfl⟩ | ⟨a, b, rfl, rfl, h1, -⟩ | ⟨a, b, rfl, rfl, h1, -⟩ | ⟨c, c', a, b, rfl, rfl, h1, -⟩ |
    ⟨q, h1, h2⟩
  · rfl
  · rfl
  · simp [Val.len, eqList_length h1]
  · simp [Val.len, h1]
  · simp [Val.len, h1]
  · rw [(num_plain h1).2.2.1, (num_plain h2).2.2.1]

theorem eq_left {v w : Val} (h : EqVal v w) (x : Val) : w.eq x = v.eq x := by
  rw [Bool.eq_iff_iff]
  exact ⟨C16_trans _ _ _ h.1, C16_trans _ _ _ h.2⟩

theorem eq_right {v w : Val} (h : EqVal v w) (x : Val) : x.eq w = x.eq v := by
  rw [Bool.eq_iff_iff]
  exact ⟨fun e => C16_trans _ _ _ e h.2, fun e => C16_trans _ _ _ e h.1⟩

theorem memList_left {v w : Val} (h : EqVal v w) (l : List Val) : Val.memList w l = Val.memList v l := by
  unfold Val.memList
  simp only [eq_left h]

theorem memList_mono (x : Val) : ∀ {a b : List Val}, Val.eqList a b = true → Val.memList x a = true → Val.memList x b = true
  | [], [], _, h => h
  | y :: ys, z :: zs, h, hm => by
    simp only [Val.eqList, Bool.and_eq_true] at h
    unfold Val.memList at hm ⊢
    simp only [List.any_cons, Bool.or_eq_true] at hm ⊢
    rcases hm with hm | hm
    · exact .inl (C16_trans _ _ _ hm h.1)
    · exact .inr (memList_mono x h.2 hm)
  | [], _ :: _, h, _ => by simp [Val.eqList] at h
  | _ :: _, [], h, _ => by simp [Val.eqList] at h

theorem memList_right {a b : List Val} (h : Val.eqList a b = true) (h' : Val.eqList b a = true) (x : Val) :
    Val.memList x b = Val.memList x a := by
  rw [Bool.eq_iff_iff]
  exact ⟨memList_mono x h', memList_mono x h⟩

theorem dhas_eqDict {a b : Dict} (h : Val.eqDict a b = true) (h' : Val.eqDict b a = true) (k : String) : dhas b k = dhas a k := by
  rw [Bool.eq_iff_iff, dhas_iff, dhas_iff]
  exact ⟨eqDict_keys h' k, eqDict_keys h k⟩

theorem eqVal_contains {v w : Val} (h : EqVal v w) (x : Val) : x.contains w = x.contains v := by
  rcases eqVal_cases h with ⟨rfl, rfl⟩ | ⟨s, rfl, rfl⟩ | ⟨a, b, rfl, rfl, h1, h2⟩ | ⟨a, b, rfl, rfl, -, h1, h2⟩ |
    ⟨c, c', a, b, rfl, rfl, -, h1, h2⟩ | ⟨q, h1, h2⟩
  · rfl
  · rfl
  · simp [Val.contains, memList_right h1 h2]
  · cases x <;> simp [Val.contains, dhas_eqDict h1 h2]
  · cases x <;> simp [Val.contains, dhas_eqDict h1 h2]
  · rw [(num_plain h1).2.2.2.2, (num_plain h2).2.2.2.2]

/-! ## the checks -/

theorem all_allowed (l : List Val) : ∀ {a b : List Val}, Val.eqList a b = true → Val.eqList b a = true →
    b.all (fun v => Val.memList v l) = a.all (fun v => Val.memList v l)
  | [], [], _, _ => rfl
  | x :: xs, y :: ys, h, h' => by
    simp only [Val.eqList, Bool.and_eq_true] at h h'
    simp only [List.all_cons, memList_left ⟨h.1, h'.1⟩, all_allowed l h.2 h'.2]
  | [], _ :: _, h, _ => by simp [Val.eqList] at h
  | _ :: _, [], h, _ => by simp [Val.eqList] at h

theorem typeCheck_eq {v w : Val} (h : EqVal v w) (t : VTyp) (allowed : List Val) (na : Bool) :
    typeCheck t allowed w na = typeCheck t allowed v na := by
  have hl : ∀ sp, typeCheck (.list sp) allowed w na = typeCheck (.list sp) allowed v na := by
    intro sp
    rcases eqVal_cases h with ⟨rfl, rfl⟩ | ⟨s, rfl, rfl⟩ | ⟨a, b, rfl, rfl, h1, h2⟩ | ⟨a, b, rfl, rfl, -⟩ | ⟨c, c', a, b, rfl, rfl, -⟩ | ⟨q, h1, h2⟩
    · rfl
    · rfl
    · exact all_allowed allowed h1 h2
    · rfl
    · rfl
    · cases v <;> cases h1 <;> cases w <;> first | rfl | cases h2
  unfold typeCheck
  split
  · exact memList_left h _
  · exact memList_left h _
  · exact hl ‹Ty›
  · rw [eqVal_isNone h]

/-- **C155**, classes without a `verify` of their own -/
theorem C155_base {st st' : Dict} (h : EqMsg st st') (sch : Schema) : verifyBase sch st' = verifyBase sch st := by
  unfold verifyBase
  induction sch.params with
  | nil => rfl
  | cons p ps ih =>
    obtain ⟨a, sp⟩ := p
    have e : verifyParam sch.allowed st' a sp = verifyParam sch.allowed st a sp := by
      unfold verifyParam
      generalize h1 : dget st a = x
      generalize h2 : dget st' a = y
      have hxy : EqOpt x y := h1 ▸ h2 ▸ h a
      cases hxy with
      | none => rfl
      | some hv => simp only [eqVal_truthy hv, typeCheck_eq hv]
    simp only [verifyParams, e, ih]

theorem dhas_eqMsg {st st' : Dict} (h : EqMsg st st') (k : String) : dhas st' k = dhas st k := by
  unfold dhas
  generalize h1 : dget st k = x
  generalize h2 : dget st' k = y
  have hxy : EqOpt x y := h1 ▸ h2 ▸ h k
  cases hxy <;> rfl

theorem matchArg_eq {st st' : Dict} (h : EqMsg st st') (kw : Dict) (k : String) (e : Exc) : matchArg st' kw k e = matchArg st kw k e := by
  unfold matchArg
  generalize h1 : dget st k = x
  generalize h2 : dget st' k = y
  have hxy : EqOpt x y := h1 ▸ h2 ▸ h k
  cases hxy with
  | none => rfl
  | some hv => cases dget kw k <;> simp only [eq_left hv]

theorem inErrorChars_eq {v w : Val} (h : EqVal v w) : inErrorChars w = inErrorChars v := by
  rcases eqVal_cases h with ⟨rfl, rfl⟩ | ⟨s, rfl, rfl⟩ | ⟨a, b, rfl, rfl, -⟩ | ⟨a, b, rfl, rfl, -⟩ | ⟨c, c', a, b, rfl, rfl, -⟩ | ⟨q, h1, h2⟩
  · rfl
  · rfl
  · rfl
  · rfl
  · rfl
  · cases v <;> cases h1 <;> cases w <;> first | rfl | cases h2

theorem allErrorChars_list : ∀ {a b : List Val}, Val.eqList a b = true → Val.eqList b a = true → allErrorChars b = allErrorChars a
  | [], [], _, _ => rfl
  | x :: xs, y :: ys, h, h' => by
    simp only [Val.eqList, Bool.and_eq_true] at h h'
    simp only [allErrorChars, inErrorChars_eq ⟨h.1, h'.1⟩, allErrorChars_list h.2 h'.2]
  | [], _ :: _, h, _ => by simp [Val.eqList] at h
  | _ :: _, [], h, _ => by simp [Val.eqList] at h

/-- one character that is allowed -/
def errorText (s : String) : Bool :=
  match s.toList with
  | [c] => errorChar c
  | _ => false

theorem inErrorChars_str (s : String) : inErrorChars (.str s) = .ok (errorText s) := by
  unfold inErrorChars errorText
  split <;> simp_all
  split <;> simp_all

theorem allErrorChars_keys (d : Dict) : allErrorChars (d.map (fun p => .str p.1)) = .ok ((dkeys d).all errorText) := by
  induction d with
  | nil => rfl
  | cons p d ih =>
    simp only [List.map_cons, allErrorChars, inErrorChars_str, dkeys, List.all_cons]
    cases he : errorText p.1 with
    | true => simp only [ih, Bool.true_and]; rfl
    | false => rfl

theorem allErrorChars_dict {a b : Dict} (h : Val.eqDict a b = true) (h' : Val.eqDict b a = true) :
    allErrorChars (b.map (fun p => .str p.1)) = allErrorChars (a.map (fun p => .str p.1)) := by
  rw [allErrorChars_keys, allErrorChars_keys]
  congr 1
  rw [Bool.eq_iff_iff, List.all_eq_true, List.all_eq_true]
  exact ⟨fun hb k hk => hb k (eqDict_keys h k hk), fun ha k hk => ha k (eqDict_keys h' k hk)⟩

theorem errorDescription_eq {st st' : Dict} (h : EqMsg st st') : errorDescription st' = errorDescription st := by
  unfold errorDescription
  generalize h1 : dget st "error_description" = x
  generalize h2 : dget st' "error_description" = y
  have hxy : EqOpt x y := h1 ▸ h2 ▸ h _
  cases hxy with
  | none => rfl
  | some hv =>
    rcases eqVal_cases hv with ⟨rfl, rfl⟩ | ⟨s, rfl, rfl⟩ | ⟨a, b, rfl, rfl, h1, h2⟩ | ⟨a, b, rfl, rfl, -, h1, h2⟩ |
      ⟨c, c', a, b, rfl, rfl, -, h1, h2⟩ | ⟨q, h1, h2⟩
    · rfl
    · rfl
    · simp only [Val.iter, allErrorChars_list h1 h2]
    · simp only [Val.iter, allErrorChars_dict h1 h2]
    · simp only [Val.iter, allErrorChars_dict h1 h2]
    · simp only [(num_plain h1).2.2.2.1, (num_plain h2).2.2.2.1]

/-- **C155**, responses -/
theorem C155_response {st st' : Dict} (h : EqMsg st st') (sch : Schema) : responseVerify sch st' = responseVerify sch st := by
  unfold responseVerify
  rw [C155_base h, errorDescription_eq h]

/-- **C155**, OAuth2 authorization responses -/
theorem C155_oauth2_authz_response {st st' : Dict} (h : EqMsg st st') (sch : Schema) (kw : Dict) :
    oauth2AuthzResponseVerify sch st' kw = oauth2AuthzResponseVerify sch st kw := by
  unfold oauth2AuthzResponseVerify
  rw [C155_response h, matchArg_eq h, matchArg_eq h]

theorem birthdate_eq {st st' : Dict} (h : EqMsg st st') : birthdateCheck st' = birthdateCheck st := by
  unfold birthdateCheck
  generalize h1 : dget st "birthdate" = x
  generalize h2 : dget st' "birthdate" = y
  have hxy : EqOpt x y := h1 ▸ h2 ▸ h _
  cases hxy with
  | none => rfl
  | some hv =>
    rcases eqVal_cases hv with ⟨rfl, rfl⟩ | ⟨s, rfl, rfl⟩ | ⟨a, b, rfl, rfl, h1, h2⟩ | ⟨a, b, rfl, rfl, -, h1, h2⟩ |
      ⟨c, c', a, b, rfl, rfl, -, h1, h2⟩ | ⟨q, h1, h2⟩
    · rfl
    · rfl
    · rfl
    · rfl
    · rfl
    · rename_i v w hs hs'
      cases v <;> first | cases h1; done | skip
      all_goals cases w <;> first | rfl | cases h2

theorem anyNone_iff {st : Dict} (hn : DNodup st) : st.any (fun p => p.2.isNone) = true ↔ ∃ k, dget st k = some .none := by
  rw [List.any_eq_true]
  constructor
  · rintro ⟨⟨k, v⟩, hm, hv⟩
    cases v <;> cases hv
    exact ⟨k, mem_dget hn hm⟩
  · rintro ⟨k, hk⟩
    exact ⟨(k, .none), dget_mem hk, rfl⟩

/-- **C155**, user info -/
theorem C155_user_info {st st' : Dict} (h : EqMsg st st') (h1 : DNodup st) (h2 : DNodup st') (sch : Schema) :
    openIdSchemaVerify sch st' = openIdSchemaVerify sch st := by
  have e : st'.any (fun p => p.2.isNone) = st.any (fun p => p.2.isNone) := by
    rw [Bool.eq_iff_iff, anyNone_iff h1, anyNone_iff h2]
    constructor
    · rintro ⟨k, hk⟩
      refine ⟨k, ?_⟩
      have := h k
      rw [hk] at this
      cases hs : dget st k with
      | none => rw [hs] at this; cases this
      | some v =>
        rw [hs] at this
        cases this with
        | some hv =>
          have := eqVal_isNone hv
          cases v <;> simp [Val.isNone] at this
          rfl
    · rintro ⟨k, hk⟩
      refine ⟨k, ?_⟩
      have := h k
      rw [hk] at this
      cases hs : dget st' k with
      | none => rw [hs] at this; cases this
      | some v =>
        rw [hs] at this
        cases this with
        | some hv =>
          have := eqVal_isNone hv
          cases v <;> simp [Val.isNone] at this
          rfl
  unfold openIdSchemaVerify
  rw [C155_response h, birthdate_eq h, e]

theorem getReq_num {st st' : Dict} (h : EqMsg st st') (k : String) (f : Rat → Res Unit) :
    (getReq st' k >>= fun v => numR v >>= f) = (getReq st k >>= fun v => numR v >>= f) := by
  unfold getReq
  generalize h1 : dget st k = x
  generalize h2 : dget st' k = y
  have hxy : EqOpt x y := h1 ▸ h2 ▸ h _
  cases hxy with
  | none => rfl
  | some hv =>
    simp only [bind, Except.bind, numR, eqVal_num hv]

theorem contains_left {v w : Val} (h : EqVal v w) (x : Val) : w.contains x = v.contains x := by
  rcases eqVal_cases h with ⟨rfl, rfl⟩ | ⟨s, rfl, rfl⟩ | ⟨a, b, rfl, rfl, -⟩ | ⟨a, b, rfl, rfl, -⟩ | ⟨c, c', a, b, rfl, rfl, -⟩ | ⟨q, h1, h2⟩
  · rfl
  · rfl
  · cases x <;> first | rfl | simp only [Val.contains, memList_left h]
  · cases x <;> first | rfl | simp only [Val.contains, memList_left h]
  · cases x <;> first | rfl | simp only [Val.contains, memList_left h]
  · cases v <;> first | cases h1; done | skip
    all_goals cases w <;> first | cases h2; done | skip
    all_goals cases x <;> first | rfl | simp only [Val.contains, memList_left h]

theorem clientInAud_eq {v w : Val} (h : EqVal v w) (kw : Dict) : clientInAud kw w = clientInAud kw v := by
  unfold clientInAud
  cases dget kw "client_id" with
  | none => rfl
  | some c => simp only [eqVal_contains h]

theorem severalAud_eq {st st' : Dict} (h : EqMsg st st') {v w : Val} (hv : EqVal v w) : severalAud st' w = severalAud st v := by
  unfold severalAud
  rw [eqVal_len hv]
  generalize h1 : dget st "azp" = x
  generalize h2 : dget st' "azp" = y
  have hxy : EqOpt x y := h1 ▸ h2 ▸ h _
  cases hxy with
  | none => rfl
  | some hz => simp only [eqVal_contains hv, contains_left hz]

/-- **C155**, ID tokens -/
theorem C155_id_token {st st' : Dict} (h : EqMsg st st') (h1 : DNodup st) (h2 : DNodup st') (now : Int) (kw : Dict) :
    idTokenVerify now st' kw = idTokenVerify now st kw := by
  have ha : audCheck st' kw = audCheck st kw := by
    unfold audCheck
    generalize h1 : dget st "aud" = x
    generalize h2 : dget st' "aud" = y
    have hxy : EqOpt x y := h1 ▸ h2 ▸ h _
    cases hxy with
    | none => rfl
    | some hv =>
      exact congrArg₂ (fun a b => a >>= fun _ => b) (clientInAud_eq hv kw) (severalAud_eq h hv)
  have hz : azpCheck st' kw = azpCheck st kw := by
    unfold azpCheck
    generalize h1 : dget st "azp" = x
    generalize h2 : dget st' "azp" = y
    have hxy : EqOpt x y := h1 ▸ h2 ▸ h _
    cases hxy with
    | none => rfl
    | some hv => cases dget kw "client_id" <;> simp only [eq_right hv]
  unfold idTokenVerify
  rw [C155_user_info h h1 h2, matchArg_eq h, matchArg_eq h, ha, hz]
  have he : ∀ skew, expCheck now skew st' = expCheck now skew st := fun skew => getReq_num h "exp" _
  have hi : ∀ skew, iatCheck now skew st' kw = iatCheck now skew st kw := fun skew =>
    getReq_num h "iat" fun i => numArg kw "nonce_storage_time" 14400 >>= fun storage =>
      need (decide ((now : Rat) - skew ≤ i + storage)) .iatError
  simp only [he, hi]

theorem timeCheck_eq {st st' : Dict} (h : EqMsg st st') (kw : Dict) (k : String) (ok : Rat → Rat → Bool) (e : Exc) :
    timeCheck st' kw k ok e = timeCheck st kw k ok e := by
  unfold timeCheck
  generalize h1 : dget st k = x
  generalize h2 : dget st' k = y
  have hxy : EqOpt x y := h1 ▸ h2 ▸ h _
  cases hxy with
  | none => rfl
  | some hv => simp only [numR, eqVal_num hv]

theorem audArg_eq {st st' : Dict} (h : EqMsg st st') (kw : Dict) : audArg st' kw = audArg st kw := by
  unfold audArg
  generalize h1 : dget st "aud" = x
  generalize h2 : dget st' "aud" = y
  have hxy : EqOpt x y := h1 ▸ h2 ▸ h _
  cases hxy with
  | none => rfl
  | some hv => cases dget kw "aud" <;> simp only [eqVal_contains hv]

/-- **C155**, JSON Web Tokens -/
theorem C155_json_web_token {st st' : Dict} (h : EqMsg st st') (now : Int) (sch : Schema) (kw : Dict) :
    jsonWebTokenVerify now sch st' kw = jsonWebTokenVerify now sch st kw := by
  unfold jsonWebTokenVerify
  rw [C155_base h, timeCheck_eq h, timeCheck_eq h, timeCheck_eq h, audArg_eq h, matchArg_eq h]

theorem eventsCheck_eq {st st' : Dict} (h : EqMsg st st') : eventsCheck st' = eventsCheck st := by
  have hone : ∀ {a b : Dict}, a.length = b.length → Val.eqDict a b = true → Val.eqDict b a = true →
      (∃ k v w, a = [(k, v)] ∧ b = [(k, w)] ∧ EqVal v w) ∨ (∀ p, a ≠ [p]) ∧ ∀ p, b ≠ [p] := by
    intro a b hl h1 h2
    match a, b, hl with
    | [(k, v)], [(k', w)], _ =>
      left
      simp only [Val.eqDict, dget, Bool.and_true] at h1 h2
      by_cases e : k' = k
      · subst e
        simp only [if_true] at h1 h2
        exact ⟨k', v, w, rfl, rfl, h1, h2⟩
      · rw [if_neg e] at h1; cases h1
    | [], [], _ => right; exact ⟨by simp, by simp⟩
    | _ :: _ :: _, _ :: _ :: _, _ => right; exact ⟨by simp, by simp⟩
  unfold eventsCheck
  generalize h1 : dget st "events" = x
  generalize h2 : dget st' "events" = y
  have hxy : EqOpt x y := h1 ▸ h2 ▸ h _
  cases hxy with
  | none => rfl
  | some hv =>
    rcases eqVal_cases hv with ⟨rfl, rfl⟩ | ⟨s, rfl, rfl⟩ | ⟨a, b, rfl, rfl, g1, g2⟩ | ⟨a, b, rfl, rfl, g, g1, g2⟩ |
      ⟨c, c', a, b, rfl, rfl, g, g1, g2⟩ | ⟨q, g1, g2⟩
    · rfl
    · rfl
    · rfl
    · rcases hone g g1 g2 with ⟨k, v, w, rfl, rfl, he⟩ | ⟨ha, hb⟩
      · simp only [eq_left he]
      · match a, b, ha, hb with
        | [], [], _, _ => rfl
        | [], _ :: _ :: _, _, _ => rfl
        | _ :: _ :: _, [], _, _ => rfl
        | _ :: _ :: _, _ :: _ :: _, _, _ => rfl
        | [p], _, ha, _ => exact absurd rfl (ha p)
        | _, [p], _, hb => exact absurd rfl (hb p)
    · rcases hone g g1 g2 with ⟨k, v, w, rfl, rfl, he⟩ | ⟨ha, hb⟩
      · simp only [eq_left he]
      · match a, b, ha, hb with
        | [], [], _, _ => rfl
        | [], _ :: _ :: _, _, _ => rfl
        | _ :: _ :: _, [], _, _ => rfl
        | _ :: _ :: _, _ :: _ :: _, _, _ => rfl
        | [p], _, ha, _ => exact absurd rfl (ha p)
        | _, [p], _, hb => exact absurd rfl (hb p)
    · rename_i v w
      cases v <;> first | cases g1; done | skip
      all_goals cases w <;> first | rfl | cases g2

/-- **C155**, logout tokens -/
theorem C155_logout_token {st st' : Dict} (h : EqMsg st st') (now : Int) (hdr : Option Dict) (kw : Dict) :
    logoutTokenVerify now st' hdr kw = logoutTokenVerify now st hdr kw := by
  unfold logoutTokenVerify
  rw [C155_base h, dhas_eqMsg h, dhas_eqMsg h, dhas_eqMsg h, eventsCheck_eq h, audArg_eq h, matchArg_eq h, timeCheck_eq h]

/-- **C155**, registration responses -/
theorem C155_registration_response {st st' : Dict} (h : EqMsg st st') :
    registrationResponseVerify st' = registrationResponseVerify st := by
  unfold registrationResponseVerify
  rw [C155_response h, dhas_eqMsg h, dhas_eqMsg h]

/-- **C155**, device flow -/
theorem C155_device_token_request {st st' : Dict} (h : EqMsg st st') : deviceTokenRequestVerify st' = deviceTokenRequestVerify st := by
  unfold deviceTokenRequestVerify
  rw [C155_base h, dhas_eqMsg h, dhas_eqMsg h, dhas_eqMsg h]

theorem initiateLogin_eq {st st' : Dict} (h : EqMsg st st') : initiateLogin st' = initiateLogin st := by
  unfold initiateLogin
  generalize h1 : dget st "initiate_login_uri" = x
  generalize h2 : dget st' "initiate_login_uri" = y
  have hxy : EqOpt x y := h1 ▸ h2 ▸ h _
  cases hxy with
  | none => rfl
  | some hv =>
    rcases eqVal_cases hv with ⟨rfl, rfl⟩ | ⟨s, rfl, rfl⟩ | ⟨a, b, rfl, rfl, g1, g2⟩ | ⟨a, b, rfl, rfl, -, g1, g2⟩ |
      ⟨c, c', a, b, rfl, rfl, -, g1, g2⟩ | ⟨q, g1, g2⟩
    · rfl
    · rfl
    · rfl
    · rfl
    · rfl
    · rename_i v w
      cases v <;> first | cases g1; done | skip
      all_goals cases w <;> first | rfl | cases g2

theorem eqMsg_dset {st st' : Dict} (h : EqMsg st st') (k : String) {v w : Val} (hv : EqVal v w) : EqMsg (dset st k v) (dset st' k w) := by
  intro a
  by_cases e : k = a
  · subst e; rw [dget_dset_same, dget_dset_same]; exact .some hv
  · rw [dget_dset_ne _ _ e, dget_dset_ne _ _ e]; exact h a

theorem eqMsg_ddel {st st' : Dict} (h : EqMsg st st') (k : String) : EqMsg (ddel st k) (ddel st' k) := by
  intro a
  by_cases e : k = a
  · subst e; rw [dget_ddel_same, dget_ddel_same]; exact .none
  · rw [dget_ddel_ne _ e, dget_ddel_ne _ e]; exact h a

theorem pairStep_eq {st st' : Dict} {a e : String} (h : EqMsg st st') (hd : dget oidc_RegistrationRequest.params e = some singleOptionalString) :
    Alike EqMsg (pairStep st a e) (pairStep st' a e) := by
  unfold pairStep
  rw [dhas_eqMsg h, dhas_eqMsg h, setItem_enc hd, setItem_enc hd]
  repeat' split
  · exact h
  · exact eqMsg_dset h _ ⟨by simp [Val.eq], by simp [Val.eq]⟩
  · exact rfl
  · exact h

/-- **C155**, registration requests: with equal messages left behind -/
theorem C155_registration_request {st st' : Dict} (h : EqMsg st st') :
    Alike EqMsg (registrationRequestVerify st) (registrationRequestVerify st') := by
  unfold registrationRequestVerify
  refine alike_seq (C155_base h _) fun _ => ?_
  refine alike_seq (initiateLogin_eq h) fun _ => ?_
  refine alike_bind (pairStep_eq h rfl) fun s1 s1' h1 => ?_
  refine alike_bind (pairStep_eq h1 rfl) fun s2 s2' h2 => ?_
  refine alike_bind (pairStep_eq h2 rfl) fun s3 s3' h3 => ?_
  refine alike_seq ?_ fun _ => h3
  unfold authSigningAlg
  generalize g1 : dget s3 "token_endpoint_auth_signing_alg" = x
  generalize g2 : dget s3' "token_endpoint_auth_signing_alg" = y
  have hxy : EqOpt x y := g1 ▸ g2 ▸ h3 _
  cases hxy with
  | none => rfl
  | some hv => simp only [eq_left hv]

/-! ## messages with tokens -/

/-- a text, or nothing -/
def TextIfAny (st : Dict) (k : String) : Prop := ∀ v, dget st k = some v → ∃ s, v = .str s

theorem same_text {st st' : Dict} (h : EqMsg st st') {k : String} (ht : TextIfAny st k) : dget st' k = dget st k := by
  have := h k
  cases hs : dget st k with
  | none => rw [hs] at this; cases ht' : dget st' k with
    | none => rfl
    | some w => rw [ht'] at this; cases this
  | some v =>
    obtain ⟨s, rfl⟩ := ht v hs
    rw [hs] at this
    cases ht' : dget st' k with
    | none => rw [ht'] at this; cases this
    | some w =>
      rw [ht'] at this
      cases this with
      | some hv =>
        obtain ⟨h1, _⟩ := hv
        cases w <;> simp_all [Val.eq, Val.num?]

/-- the same parameters, with equal values, or the same verified token -/
def EqOrSame (st st' : Dict) : Prop := ∀ k, dget st' k = dget st k ∨ EqOpt (dget st k) (dget st' k)

theorem ifPresent_eq {C : Crypto} {st st' : Dict} (h : EqMsg st st') (ht : ∀ k ∈ ["id_token", "access_token", "code"], TextIfAny st k)
    (now : Int) (b : Bool) (jar : JarArg C) (kw : Dict) :
    Alike EqOrSame (verifyIfPresent C now st "id_token" b jar kw) (verifyIfPresent C now st' "id_token" b jar kw) := by
  have hi := same_text h (ht "id_token" (by simp))
  unfold verifyIfPresent
  rw [dhas_same hi]
  split
  · unfold verifyIdToken
    refine alike_seq (by unfold getR; rw [hi]) fun v => ?_
    refine alike_seq ?_ fun m => ?_
    · unfold verifyIdTokenCore
      simp only [hashStep_same _ _ (fun _ => ⟨same_text h (ht "access_token" (by simp)), same_text h (ht "code" (by simp))⟩)]
    refine alike_seq rfl fun _ => ?_
    intro k
    by_cases e : verifiedClaimName "id_token" = k
    · subst e; rw [dget_dset_same, dget_dset_same]; exact .inl rfl
    · rw [dget_dset_ne _ _ e, dget_dset_ne _ _ e]; exact .inr (h k)
  · exact fun k => .inr (h k)

theorem text_clear {st : Dict} {k : String} (hs : ¬ IsSlot k) (h : TextIfAny st k) : TextIfAny (clearVerifiedClaims st) k := by
  have hn : ∀ k', IsSlot k' → k ≠ k' := fun k' hk' e => hs (e ▸ hk')
  intro v hv
  rw [clear_dget _ _ (hn _ (.inl rfl)) (hn _ (.inr (.inl rfl))) (hn _ (.inr (.inr rfl)))] at hv
  exact h v hv

theorem text_clear_all {st : Dict} (ht : ∀ k ∈ ["id_token", "access_token", "code"], TextIfAny st k) :
    ∀ k ∈ ["id_token", "access_token", "code"], TextIfAny (clearVerifiedClaims st) k := by
  intro k hk
  refine text_clear ?_ (ht k hk)
  simp only [List.mem_cons, List.not_mem_nil, or_false] at hk
  rcases hk with rfl | rfl | rfl <;> · rintro (h | h | h) <;> simp at h

theorem eqMsg_clear {st st' : Dict} (h : EqMsg st st') : EqMsg (clearVerifiedClaims st) (clearVerifiedClaims st') :=
  eqMsg_ddel (eqMsg_ddel (eqMsg_ddel h _) _) _

/-- **C155**, token responses whose tokens are texts -/
theorem C155_token_response {C : Crypto} {st st' : Dict} (h : EqMsg st st') (ht : ∀ k ∈ ["id_token", "access_token", "code"], TextIfAny st k)
    (now : Int) (jar : JarArg C) (kw : Dict) :
    Alike EqOrSame (accessTokenResponseVerify C now st jar kw) (accessTokenResponseVerify C now st' jar kw) := by
  unfold accessTokenResponseVerify
  exact alike_seq (C155_response h _) fun _ => ifPresent_eq (eqMsg_clear h) (text_clear_all ht) _ _ _ _

/-- **C155**, authorization responses whose tokens are texts -/
theorem C155_authz_response {C : Crypto} {st st' : Dict} (h : EqMsg st st') (ht : ∀ k ∈ ["id_token", "access_token", "code"], TextIfAny st k)
    (now : Int) (jar : JarArg C) (kw : Dict) :
    Alike (fun a b => b.1 = a.1 ∧ EqOrSame a.2 b.2) (authzResponseVerify C now st jar kw) (authzResponseVerify C now st' jar kw) := by
  unfold authzResponseVerify
  refine alike_seq (C155_oauth2_authz_response h _ _) fun _ => ?_
  have hc := eqMsg_clear h
  refine alike_seq ?_ fun mine => ?_
  · unfold forMe
    generalize h1 : dget (clearVerifiedClaims st) "aud" = x
    generalize h2 : dget (clearVerifiedClaims st') "aud" = y
    have hxy : EqOpt x y := h1 ▸ h2 ▸ hc _
    cases hxy with
    | none => rfl
    | some hv => cases dget kw "client_id" <;> simp only [eqVal_contains hv]
  · unfold authzResponseRest
    cases mine with
    | false => exact ⟨rfl, fun k => .inr (hc k)⟩
    | true =>
      simp only [if_true]
      exact alike_map (ifPresent_eq hc (text_clear_all ht) _ _ _ _) fun a b hab => ⟨rfl, hab⟩

/-! ## where it fails -/

/-- **C155, counterexample.**  Only the names of the classes are compared: a request that OAuth2 accepts is equal to one that OpenID
Connect refuses. -/
theorem C155_counterexample_class : let st : Dict := [("response_type", .list [.str "code"]), ("client_id", .str "c")]
    Val.eq (.msg oauth2_AuthorizationRequest.cls st) (.msg oidc_AuthorizationRequest.cls st) = true ∧
    verifyBase oauth2_AuthorizationRequest st = .ok () ∧
    verifyBase oidc_AuthorizationRequest st = .error .missingRequiredAttribute := by decide +kernel

/-- **C155, counterexample.**  Equal messages are not written alike: `True` and `1` are equal, their texts in a form are not, and the
receivers have different messages. -/
theorem C155_counterexample_form :
    Val.eq (.msg messageSchema.cls [("x", .bool true)]) (.msg messageSchema.cls [("x", .int 1)]) = true ∧
    toUrlencoded libEnv messageSchema [("x", .bool true)] = .ok "x=True" ∧
    toUrlencoded libEnv messageSchema [("x", .int 1)] = .ok "x=1" ∧
    fromUrlencoded messageSchema [] "x=True" = .ok [("x", .str "True")] ∧
    fromUrlencoded messageSchema [] "x=1" = .ok [("x", .str "1")] ∧
    Val.eq (.msg messageSchema.cls [("x", .str "True")]) (.msg messageSchema.cls [("x", .str "1")]) = false := by decide +kernel

/-- two equal messages with different values -/
example : EqMsg [("iat", .int 1), ("sub", .str "x")] [("sub", .str "x"), ("iat", .flt 1)] :=
  eqMsg_of_eq (c := oidc_IdToken.cls) (by simp [WfVal, WfDict, DNodup, dkeys]) (by simp [WfVal, WfDict, DNodup, dkeys]) (by decide +kernel)

end Verif
