import Verif.Model.IdentityAssurance
import Verif.Props.Tokens

/-!
# Identity assurance: C39, C70, C71
-/

namespace Verif

/-! ## C39 -/

/-- a value of a scalar claim type (Python's `bool` is an `int`) -/
inductive OfType : Ty → Val → Prop
  | str (s) : OfType .str (.str s)
  | int (i) : OfType .int (.int i)
  | boolInt (b) : OfType .int (.bool b)
  | bool (b) : OfType .bool (.bool b)

def Ty.scalar : Ty → Prop
  | .str | .int | .bool => True
  | _ => False

theorem isInst_iff {t : Ty} (ht : t.scalar) (v : Val) : t.isInst v = true ↔ OfType t v := by
  cases t <;> simp only [Ty.scalar] at ht <;> cases v <;> simp only [Ty.isInst, Bool.false_eq_true, false_iff, true_iff]
  all_goals first
    | (intro h; cases h; done)
    | constructor

/-- a text of 3 to 300 letters, blanks and exclamation marks -/
def PurposeText (s : String) : Prop :=
  3 ≤ s.toList.length ∧ s.toList.length ≤ 300 ∧
  ∀ c ∈ s.toList, ('A' ≤ c ∧ c ≤ 'Z') ∨ ('a' ≤ c ∧ c ≤ 'z') ∨ c = ' ' ∨ c = '!'

theorem allErrorChars_chars (l : List Char) :
    allErrorChars (l.map (fun c => .str (String.ofList [c]))) = .ok (l.all errorChar) := by
  induction l with
  | nil => rfl
  | cons c cs ih =>
    simp only [List.map_cons, allErrorChars, inErrorChars, String.toList_ofList, List.all_cons]
    cases h : errorChar c
    · rfl
    · simp only [Bool.true_and]; exact ih

theorem purposeChars_str (s : String) : purposeChars (.str s) = .ok true ↔ PurposeText s := by
  simp only [purposeChars, Val.len, Val.iter, allErrorChars_chars, PurposeText]
  by_cases h : s.toList.length < 3 ∨ s.toList.length > 300
  · rw [if_pos h]
    constructor
    · intro x; simp at x
    · intro x; omega
  · rw [if_neg h]
    have : 3 ≤ s.toList.length ∧ s.toList.length ≤ 300 := by omega
    simp only [Except.ok.injEq, List.all_eq_true, errorChar, Bool.or_eq_true, Bool.and_eq_true,
      decide_eq_true_eq, this, true_and, or_assoc]

/-- `x in (None, True, False)` -/
def EssentialValue (e : Val) : Prop :=
  e = .none ∨ (∃ b, e = .bool b) ∨ e = .int 0 ∨ e = .int 1 ∨ e = .flt 0 ∨ e = .flt 1

theorem memList_essential (e : Val) :
    Val.memList e [.none, .bool true, .bool false] = true ↔ EssentialValue e := by
  have h01 : ∀ i : Int, ((i : Rat) == 1) = true ↔ i = 1 := by
    intro i; rw [beq_iff_eq]; exact_mod_cast Iff.rfl
  have h00 : ∀ i : Int, ((i : Rat) == 0) = true ↔ i = 0 := by
    intro i; rw [beq_iff_eq]; exact_mod_cast Iff.rfl
  cases e with
  | bool b => cases b <;> simp [Val.memList, Val.eq, Val.num?, EssentialValue]
  | int i =>
    simp only [Val.memList, Val.eq, Val.num?, EssentialValue, List.any_cons, List.any_nil, Bool.or_false,
      Bool.or_eq_true, if_true, Bool.false_eq_true, if_false, h01, h00, false_or, reduceCtorEq, exists_false,
      Val.int.injEq, or_false]
    omega
  | flt q =>
    simp only [Val.memList, Val.eq, Val.num?, EssentialValue, List.any_cons, List.any_nil, Bool.or_false,
      Bool.or_eq_true, if_true, Bool.false_eq_true, if_false, beq_iff_eq, false_or, reduceCtorEq, exists_false,
      Val.flt.injEq, or_false]
    constructor <;> rintro (h | h) <;> simp [h]
  | _ => simp [Val.memList, Val.eq, Val.num?, EssentialValue]

/-- What `_verify_claims_request_value` accepts in a dict. -/
structure RequestValue (t : Ty) (d : Dict) : Prop where
  essential : ∀ e, dget d "essential" = some e → EssentialValue e
  value : ∀ v, dget d "value" = some v → v.truthy = true → OfType t v
  values : ∀ vs, dget d "values" = some vs → ∃ l, vs.iter = .ok l ∧ ∀ v ∈ l, OfType t v
  purpose : ∀ p, dget d "purpose" = some p → p.truthy = true → purposeChars p = .ok true

/-- C39, exact: everything that is not a dict is accepted; a dict is accepted exactly when it is a
`RequestValue`. -/
theorem C39_iff {t : Ty} (ht : t.scalar) (v : Val) :
    verifyClaimsRequestValue v t = .ok true ↔ ∀ d, v = .dict d → RequestValue t d := by
  cases v with
  | dict d =>
    simp only [verifyClaimsRequestValue, Val.dict.injEq, forall_eq']
    have h1 : essentialOk d = true ↔ ∀ e, dget d "essential" = some e → EssentialValue e := by
      simp only [essentialOk]
      cases dget d "essential" <;> simp [memList_essential]
    have h2 : valueOk t d = true ↔ ∀ v, dget d "value" = some v → v.truthy = true → OfType t v := by
      simp only [valueOk]
      cases dget d "value" with
      | none => simp
      | some v =>
        simp only [Bool.or_eq_true, Bool.not_eq_true', Option.some.injEq, forall_eq', isInst_iff ht]
        cases v.truthy <;> simp
    have h3 : valuesOk t d = .ok true ↔
        ∀ vs, dget d "values" = some vs → ∃ l, vs.iter = .ok l ∧ ∀ v ∈ l, OfType t v := by
      simp only [valuesOk]
      cases dget d "values" with
      | none => simp
      | some vs =>
        simp only [Option.some.injEq, forall_eq']
        cases vs.iter <;> simp [isInst_iff ht]
    have h4 : purposeOk d = .ok true ↔
        ∀ p, dget d "purpose" = some p → p.truthy = true → purposeChars p = .ok true := by
      simp only [purposeOk]
      cases dget d "purpose" with
      | none => simp
      | some p => by_cases hp : p.truthy = true <;> simp [hp]
    constructor
    · intro h
      by_cases a1 : essentialOk d = true
      · by_cases a2 : valueOk t d = true
        · simp only [a1, a2, Bool.not_true, Bool.false_eq_true, if_false] at h
          cases a3 : valuesOk t d with
          | error e => rw [a3] at h; simp at h
          | ok b =>
            cases b with
            | false => rw [a3] at h; simp at h
            | true =>
              rw [a3] at h
              exact ⟨h1.1 a1, h2.1 a2, h3.1 a3, h4.1 h⟩
        · simp [a1, a2] at h
      · simp [a1] at h
    · intro h
      rw [h1.2 h.essential, h2.2 h.value, h3.2 h.values]
      exact h4.2 h.purpose
  | _ => simp [verifyClaimsRequestValue]

/-- C39 for requests of the documented form: `essential` not a number, `value` not an empty or zero value,
`values` a list, `purpose` a non-empty text.  What is missing from the full claim is shown below. -/
theorem C39_partial {t : Ty} (ht : t.scalar) (d : Dict)
    (he : ∀ e, dget d "essential" = some e → (∀ i, e ≠ .int i) ∧ ∀ q, e ≠ .flt q)
    (hv : ∀ v, dget d "value" = some v → v.truthy = true)
    (hvs : ∀ v, dget d "values" = some v → ∃ l, v = .list l)
    (hp : ∀ p, dget d "purpose" = some p → ∃ s, s ≠ "" ∧ p = .str s) :
    verifyClaimsRequestValue (.dict d) t = .ok true ↔
      (∀ e, dget d "essential" = some e → e = .none ∨ e = .bool true ∨ e = .bool false) ∧
      (∀ v, dget d "value" = some v → OfType t v) ∧
      (∀ l, dget d "values" = some (.list l) → ∀ v ∈ l, OfType t v) ∧
      (∀ s, dget d "purpose" = some (.str s) → PurposeText s) := by
  rw [C39_iff ht]
  simp only [Val.dict.injEq, forall_eq']
  constructor
  · intro h
    refine ⟨fun e x => ?_, fun v x => h.value v x (hv v x), fun l x => ?_, fun s x => ?_⟩
    · rcases h.essential e x with a | ⟨b, a⟩ | a | a | a | a
      · exact .inl a
      · cases b
        · exact .inr (.inr a)
        · exact .inr (.inl a)
      · exact absurd a ((he e x).1 _)
      · exact absurd a ((he e x).1 _)
      · exact absurd a ((he e x).2 _)
      · exact absurd a ((he e x).2 _)
    · obtain ⟨l', a, b⟩ := h.values _ x
      simp only [Val.iter, Except.ok.injEq] at a
      subst a; exact b
    · rw [← purposeChars_str]
      refine h.purpose _ x ?_
      obtain ⟨s', n, q⟩ := hp _ x
      cases q
      simpa [Val.truthy] using n
  · rintro ⟨h1, h2, h3, h4⟩
    refine ⟨fun e x => ?_, fun v x _ => h2 v x, fun vs x => ?_, fun p x _ => ?_⟩
    · rcases h1 e x with a | a | a
      · exact .inl a
      · exact .inr (.inl ⟨_, a⟩)
      · exact .inr (.inl ⟨_, a⟩)
    · obtain ⟨l, q⟩ := hvs vs x
      subst q
      exact ⟨l, rfl, h3 l x⟩
    · obtain ⟨s, _, q⟩ := hp p x
      subst q
      exact (purposeChars_str s).2 (h4 s x)

def goodRequest : Dict :=
  [("essential", .bool true), ("values", .list [.str "a", .str "b"]), ("purpose", .str "account opening")]

/-- such a request exists, and is accepted -/
example : (∀ v, dget goodRequest "values" = some v → ∃ l, v = .list l) ∧
    verifyClaimsRequestValue (.dict goodRequest) .str = .ok true ∧
    verifyClaimsRequestValue (.dict goodRequest) .int = .ok false := by
  refine ⟨?_, by decide +kernel, by decide +kernel⟩
  intro v h
  rw [show dget goodRequest "values" = some (.list [.str "a", .str "b"]) from rfl] at h
  cases h; exact ⟨_, rfl⟩

/-- C39: the full claim fails.  `essential: 1` is taken for true, an empty or zero `value` is not checked against
the type, an empty `purpose` passes, and a `purpose` may be a list of letters. -/
theorem C39_counterexample :
    verifyClaimsRequestValue (.dict [("essential", .int 1)]) .str = .ok true ∧
    verifyClaimsRequestValue (.dict [("value", .int 0)]) .str = .ok true ∧
    verifyClaimsRequestValue (.dict [("value", .list [])]) .bool = .ok true ∧
    verifyClaimsRequestValue (.dict [("purpose", .str "")]) .str = .ok true ∧
    verifyClaimsRequestValue (.dict [("purpose", .list [.str "a", .str "b", .str "c"])]) .str = .ok true := by
  decide +kernel

/-- C39: `values: null` and a numeric `purpose` are not refused with `False` but raise `TypeError`. -/
theorem C39_typeError :
    verifyClaimsRequestValue (.dict [("values", .none)]) .str = .error .typeError ∧
    verifyClaimsRequestValue (.dict [("purpose", .int 5)]) .str = .error .typeError := by
  decide +kernel

/-! ## C80: the whole request -/

mutual
/-- `inst` is an acceptable request for a class with parameters `ps`: at every depth, each present parameter
carries an acceptable value. -/
inductive ReqOk : Assoc Spec → Val → Prop
  | obj {ps inst} : (ps = [] ∨ ∃ d, inst = .dict d ∨ ∃ c, inst = .msg c d) →
      (∀ k sp d v, (k, sp) ∈ ps → (inst = .dict d ∨ ∃ c, inst = .msg c d) → dget d k = some v → ParamReqOk sp.vtyp v) →
      ReqOk ps inst
/-- a value of a parameter of a given type -/
inductive ParamReqOk : VTyp → Val → Prop
  | single {t v} : ItemReqOk t v → ParamReqOk (.single t) v
  | listNull {t} : ParamReqOk (.list t) .none
  | list {t v l} : v.iter = .ok l → (∀ x ∈ l, ItemReqOk t x) → ParamReqOk (.list t) v
/-- a single value -/
inductive ItemReqOk : Ty → Val → Prop
  | str {v} : verifyClaimsRequestValue v .str = .ok true → ItemReqOk .str v
  | int {v} : verifyClaimsRequestValue v .int = .ok true → ItemReqOk .int v
  | bool {v} : verifyClaimsRequestValue v .bool = .ok true → ItemReqOk .bool v
  | dict {v} : ItemReqOk .dict v
  | msgNull {c s f} : ItemReqOk (.msg c s f) .none
  | msg {c s f v} : ReqOk (paramsOf c) v → ItemReqOk (.msg c s f) v
end

theorem claimsReqItems_iff (rec : Assoc Spec → Val → Res Unit) (t : Ty) (l : List Val) :
    claimsReqItems rec t l = .ok () ↔ ∀ x ∈ l, claimsReqItem rec t x = .ok () := by
  induction l with
  | nil => simp [claimsReqItems]
  | cons x xs ih =>
    simp only [claimsReqItems, List.mem_cons, forall_eq_or_imp, ← ih]
    cases h : claimsReqItem rec t x <;> simp

theorem claimsReqParams_iff (rec : Assoc Spec → Val → Res Unit) (inst : Val) (ps : List (String × Spec)) :
    claimsReqParams rec inst ps = .ok () ↔
      (ps = [] ∨ ∃ d, inst = .dict d ∨ ∃ c, inst = .msg c d) ∧
      ∀ k sp d v, (k, sp) ∈ ps → (inst = .dict d ∨ ∃ c, inst = .msg c d) → dget d k = some v →
        claimsReqParam rec sp v = .ok () := by
  induction ps with
  | nil => simp [claimsReqParams]
  | cons p rest ih =>
    obtain ⟨k, sp⟩ := p
    by_cases hi : ∃ d, inst = .dict d ∨ ∃ c, inst = .msg c d
    · obtain ⟨d, hd⟩ := hi
      have hsub : ∀ k, subscript inst k = .ok (dget d k) := by
        intro k; rcases hd with rfl | ⟨c, rfl⟩ <;> rfl
      have huniq : ∀ d', (inst = .dict d' ∨ ∃ c, inst = .msg c d') → d' = d := by
        intro d' h'
        rcases hd with rfl | ⟨c, rfl⟩ <;> rcases h' with h' | ⟨c', h'⟩ <;> cases h' <;> rfl
      have hR : claimsReqParams rec inst rest = .ok () ↔
          ∀ k sp v, (k, sp) ∈ rest → dget d k = some v → claimsReqParam rec sp v = .ok () := by
        rw [ih]
        constructor
        · intro h k sp v hm hg; exact h.2 k sp d v hm hd hg
        · intro h
          refine ⟨.inr ⟨d, hd⟩, fun k sp d' v hm hd' hg => ?_⟩
          rw [huniq d' hd'] at hg
          exact h k sp v hm hg
      have hL : claimsReqParams rec inst ((k, sp) :: rest) = .ok () ↔
          (∀ v, dget d k = some v → claimsReqParam rec sp v = .ok ()) ∧
          claimsReqParams rec inst rest = .ok () := by
        simp only [claimsReqParams, hsub]
        cases dget d k with
        | none => simp
        | some v =>
          simp only [Option.some.injEq, forall_eq']
          cases claimsReqParam rec sp v <;> simp
      rw [hL, hR]
      constructor
      · rintro ⟨h1, h2⟩
        refine ⟨.inr ⟨d, hd⟩, fun k' sp' d' v hm hd' hg => ?_⟩
        rw [huniq d' hd'] at hg
        rcases List.mem_cons.1 hm with e | hm
        · cases e; exact h1 v hg
        · exact h2 k' sp' v hm hg
      · rintro ⟨_, h⟩
        exact ⟨fun v hg => h k sp d v (List.mem_cons_self ..) hd hg,
          fun k' sp' v hm hg => h k' sp' d v (List.mem_cons_of_mem _ hm) hd hg⟩
    · constructor
      · intro h
        exfalso
        cases inst <;> simp [claimsReqParams, subscript] at h hi
      · rintro ⟨h, _⟩
        rcases h with h | h
        · simp at h
        · exact absurd h hi

theorem requireValue_iff (v : Val) (t : Ty) :
    requireValue v t = .ok () ↔ verifyClaimsRequestValue v t = .ok true := by
  unfold requireValue
  cases h : verifyClaimsRequestValue v t with
  | error e => simp
  | ok b => cases b <;> simp

/-- soundness of one item, given soundness of the recursive call -/
theorem claimsReqItem_sound {rec : Assoc Spec → Val → Res Unit} (hr : ∀ ps v, rec ps v = .ok () → ReqOk ps v)
    (t : Ty) (v : Val) (h : claimsReqItem rec t v = .ok ()) : ItemReqOk t v := by
  cases t with
  | str => exact .str ((requireValue_iff _ _).1 h)
  | int => exact .int ((requireValue_iff _ _).1 h)
  | bool => exact .bool ((requireValue_iff _ _).1 h)
  | dict => exact .dict
  | msg c s f =>
    simp only [claimsReqItem] at h
    cases v with
    | none => exact .msgNull
    | _ => exact .msg (hr _ _ h)

theorem verifyClaimsRequest_sound (n : Nat) : ∀ ps v, verifyClaimsRequest n ps v = .ok () → ReqOk ps v := by
  induction n with
  | zero => intro ps v h; simp [verifyClaimsRequest] at h
  | succ n ih =>
    intro ps v h
    rw [show verifyClaimsRequest (n + 1) ps v = claimsReqParams (verifyClaimsRequest n) v ps from rfl,
      claimsReqParams_iff] at h
    refine .obj h.1 (fun k sp d x hm hd hg => ?_)
    have := h.2 k sp d x hm hd hg
    simp only [claimsReqParam] at this
    cases ht : sp.vtyp with
    | single t =>
      rw [ht] at this
      exact .single (claimsReqItem_sound ih t x this)
    | list t =>
      rw [ht] at this
      cases x with
      | none => exact .listNull
      | _ =>
        simp only [Val.isNone, Bool.false_eq_true, if_false] at this
        revert this
        split
        · intro h; simp at h
        · rename_i l hl
          intro h
          exact .list hl (fun y hy => claimsReqItem_sound ih t y ((claimsReqItems_iff _ _ _).1 h y hy))

/-- more stack never hurts -/
theorem claimsReqItem_mono {r r' : Assoc Spec → Val → Res Unit} (h : ∀ ps v, r ps v = .ok () → r' ps v = .ok ())
    (t : Ty) (v : Val) (hv : claimsReqItem r t v = .ok ()) : claimsReqItem r' t v = .ok () := by
  cases t with
  | msg c s f =>
    simp only [claimsReqItem] at hv ⊢
    by_cases hn : v.isNone = true
    · simp [hn]
    · simp only [hn, Bool.false_eq_true, if_false] at hv ⊢; exact h _ _ hv
  | _ => exact hv

theorem claimsReqParam_mono {r r' : Assoc Spec → Val → Res Unit} (h : ∀ ps v, r ps v = .ok () → r' ps v = .ok ())
    (sp : Spec) (v : Val) (hv : claimsReqParam r sp v = .ok ()) : claimsReqParam r' sp v = .ok () := by
  simp only [claimsReqParam] at hv ⊢
  cases ht : sp.vtyp with
  | single t => rw [ht] at hv; exact claimsReqItem_mono h t v hv
  | list t =>
    rw [ht] at hv
    simp only at hv ⊢
    by_cases hn : v.isNone = true
    · simp [hn]
    · simp only [hn, Bool.false_eq_true, if_false] at hv ⊢
      cases hl : v.iter with
      | error e => rw [hl] at hv; simp at hv
      | ok l =>
        rw [hl] at hv
        simp only at hv ⊢
        rw [claimsReqItems_iff] at hv ⊢
        exact fun x hx => claimsReqItem_mono h t x (hv x hx)

theorem verifyClaimsRequest_mono (n : Nat) :
    ∀ ps v, verifyClaimsRequest n ps v = .ok () → verifyClaimsRequest (n + 1) ps v = .ok () := by
  induction n with
  | zero => intro ps v h; simp [verifyClaimsRequest] at h
  | succ n ih =>
    intro ps v h
    rw [show verifyClaimsRequest (n + 1) ps v = claimsReqParams (verifyClaimsRequest n) v ps from rfl,
      claimsReqParams_iff] at h
    rw [show verifyClaimsRequest (n + 1 + 1) ps v = claimsReqParams (verifyClaimsRequest (n + 1)) v ps from rfl,
      claimsReqParams_iff]
    exact ⟨h.1, fun k sp d x hm hd hg => claimsReqParam_mono ih sp x (h.2 k sp d x hm hd hg)⟩

theorem verifyClaimsRequest_le {n m : Nat} (hnm : n ≤ m) (ps : Assoc Spec) (v : Val)
    (h : verifyClaimsRequest n ps v = .ok ()) : verifyClaimsRequest m ps v = .ok () := by
  induction hnm with
  | refl => exact h
  | step _ ih => exact verifyClaimsRequest_mono _ _ _ ih

/-- finitely many bounds have a common one -/
theorem bound_list {α : Type} (P : Nat → α → Prop) (hm : ∀ n m x, n ≤ m → P n x → P m x) (l : List α)
    (h : ∀ x ∈ l, ∃ n, P n x) : ∃ n, ∀ x ∈ l, P n x := by
  induction l with
  | nil => exact ⟨0, by simp⟩
  | cons a as ih =>
    obtain ⟨n, hn⟩ := h a (List.mem_cons_self ..)
    obtain ⟨m, hm'⟩ := ih (fun x hx => h x (List.mem_cons_of_mem _ hx))
    refine ⟨max n m, fun x hx => ?_⟩
    rcases List.mem_cons.1 hx with e | hx
    · subst e; exact hm _ _ _ (Nat.le_max_left ..) hn
    · exact hm _ _ _ (Nat.le_max_right ..) (hm' x hx)

mutual
theorem reqOk_complete {ps : Assoc Spec} {v : Val} (h : ReqOk ps v) : ∃ n, verifyClaimsRequest n ps v = .ok () :=
  match h with
  | .obj hshape hall => by
    have key : ∃ n, ∀ p ∈ ps, ∀ d x, (v = .dict d ∨ ∃ c, v = .msg c d) → dget d p.1 = some x →
        claimsReqParam (verifyClaimsRequest n) p.2 x = .ok () := by
      apply bound_list (fun n (p : String × Spec) => ∀ d x, (v = .dict d ∨ ∃ c, v = .msg c d) → dget d p.1 = some x →
        claimsReqParam (verifyClaimsRequest n) p.2 x = .ok ())
      · intro n m p hnm hp d x hd hg
        exact claimsReqParam_mono (fun ps v => verifyClaimsRequest_le hnm ps v) _ _ (hp d x hd hg)
      · intro p hp
        by_cases hd : ∃ d x, (v = .dict d ∨ ∃ c, v = .msg c d) ∧ dget d p.1 = some x
        · obtain ⟨d, x, hd, hg⟩ := hd
          obtain ⟨n, hn⟩ := paramReqOk_complete (hall p.1 p.2 d x hp hd hg)
          refine ⟨n, fun d' x' hd' hg' => ?_⟩
          have : d' = d := by
            rcases hd with rfl | ⟨c, rfl⟩ <;> rcases hd' with h' | ⟨c', h'⟩ <;> cases h' <;> rfl
          subst this
          rw [hg] at hg'; cases hg'
          exact hn p.2 rfl
        · exact ⟨0, fun d x h1 h2 => absurd ⟨d, x, h1, h2⟩ hd⟩
    obtain ⟨n, hn⟩ := key
    refine ⟨n + 1, ?_⟩
    rw [show verifyClaimsRequest (n + 1) ps v = claimsReqParams (verifyClaimsRequest n) v ps from rfl,
      claimsReqParams_iff]
    exact ⟨hshape, fun k sp d x hm hd hg => hn (k, sp) hm d x hd hg⟩
theorem paramReqOk_complete {t : VTyp} {v : Val} (h : ParamReqOk t v) :
    ∃ n, ∀ sp : Spec, sp.vtyp = t → claimsReqParam (verifyClaimsRequest n) sp v = .ok () :=
  match h with
  | .single hi => by
    obtain ⟨n, hn⟩ := itemReqOk_complete hi
    exact ⟨n, fun sp ht => by simp only [claimsReqParam, ht]; exact hn⟩
  | .listNull => ⟨0, fun sp ht => by simp [claimsReqParam, ht, Val.isNone]⟩
  | .list (t := t) (l := l) hl hall => by
    obtain ⟨n, hn⟩ := bound_list (fun n x => claimsReqItem (verifyClaimsRequest n) t x = .ok ())
      (fun n m x hnm hx => claimsReqItem_mono (fun ps v => verifyClaimsRequest_le hnm ps v) _ _ hx) l
      (fun x hx => itemReqOk_complete (hall x hx))
    refine ⟨n, fun sp ht => ?_⟩
    simp only [claimsReqParam, ht]
    split
    · rfl
    · rw [hl]; simp only; exact (claimsReqItems_iff _ _ _).2 hn
theorem itemReqOk_complete {t : Ty} {v : Val} (h : ItemReqOk t v) :
    ∃ n, claimsReqItem (verifyClaimsRequest n) t v = .ok () :=
  match h with
  | .str hv => ⟨0, (requireValue_iff _ _).2 hv⟩
  | .int hv => ⟨0, (requireValue_iff _ _).2 hv⟩
  | .bool hv => ⟨0, (requireValue_iff _ _).2 hv⟩
  | .dict => ⟨0, rfl⟩
  | .msgNull => ⟨0, rfl⟩
  | .msg (v := v) hr => by
    obtain ⟨n, hn⟩ := reqOk_complete hr
    refine ⟨n, ?_⟩
    simp only [claimsReqItem]
    split
    · rfl
    · exact hn
end

/-- C80: `verify_claims_request` accepts (given enough stack) exactly the requests whose every parameter, at
every depth, carries an acceptable value. -/
theorem C80_iff (ps : Assoc Spec) (v : Val) : (∃ n, verifyClaimsRequest n ps v = .ok ()) ↔ ReqOk ps v :=
  ⟨fun ⟨n, h⟩ => verifyClaimsRequest_sound n ps v h, reqOk_complete⟩

def goodElement : Val :=
  .dict [("trust_framework", .dict [("value", .str "de_aml")]), ("evidence", .list [.dict [("type", .none)], .none])]

/-- an acceptable nested request, and one that is refused two levels down -/
example : ReqOk ida_VerifiedClaims.params (.dict [("verification", goodElement)]) ∧
    verifyClaimsRequest 9 ida_VerifiedClaims.params (.dict [("verification",
      .dict [("evidence", .list [.dict [("type", .dict [("value", .int 7)])]])])]) = .error .valueError :=
  ⟨(C80_iff _ _).1 ⟨9, by decide +kernel⟩, by decide +kernel⟩

/-- C80: an instance of `VerificationElementRequest` can only be built with plain texts for its scalar parameters:
a request object such as `{"value": "de_aml"}` is refused before `verify` is reached. -/
theorem C80_no_request_objects (d : Dict) (st : Dict) :
    setItem ida_VerificationElementRequest st "trust_framework" (.dict d) = .error .valueError ∧
    setItem ida_VerificationElementRequest st "verification_process" (.dict d) = .error .valueError := by
  constructor <;> rfl

/-! ## C70 -/

/-- C70: `Evidence.verify` never succeeds, whatever the content and however large the stack: the three classes
inherit the method itself, so checking a resolved evidence starts over on the same type. -/
theorem C70_never_accepts (n : Nat) : ∀ (cls : Cls) (st : Dict), ∃ e, evidenceVerify n cls st = .error e := by
  induction n with
  | zero => intro cls st; exact ⟨_, rfl⟩
  | succ n ih =>
    intro cls st
    simp only [evidenceVerify]
    cases declaredType st with
    | some t =>
      simp only
      cases h1 : evidenceClass t with
      | error e => exact ⟨e, rfl⟩
      | ok sch =>
        cases h2 : toDict libEnv cls st with
        | error e => exact ⟨e, rfl⟩
        | ok d =>
          cases h3 : construct sch d with
          | error e => exact ⟨e, by simp only [h3, bind, Except.bind]⟩
          | ok x =>
            obtain ⟨e, he⟩ := ih sch.cls x
            exact ⟨e, by simp only [h3, he, bind, Except.bind]⟩
    | none =>
      simp only
      cases h1 : guessClass st with
      | error e => exact ⟨e, rfl⟩
      | ok g =>
        cases h2 : toDict libEnv cls st with
        | error e => exact ⟨e, rfl⟩
        | ok d =>
          cases h3 : construct g.1 d with
          | error e => exact ⟨e, by simp only [h3, bind, Except.bind]⟩
          | ok x =>
            obtain ⟨e, he⟩ := ih g.1.cls x
            exact ⟨e, by simp only [h3, he, bind, Except.bind]⟩

/-- C70, the part that holds as intended: an unknown declared type is a `ValueError`. -/
theorem C70_unknown_partial (n : Nat) (cls : Cls) (st : Dict) (s : String) (h : dget st "type" = some (.str s))
    (h0 : s ≠ "") (hs : s ≠ "id_document" ∧ s ≠ "utility_bill" ∧ s ≠ "qes") :
    evidenceVerify (n + 1) cls st = .error .valueError := by
  have : declaredType st = some (.str s) := by simp [declaredType, h, Val.truthy, h0]
  simp only [evidenceVerify, this]
  simp [evidenceClass, Val.eq, hs, bind, Except.bind]

example : dget [("type", Val.str "passport")] "type" = some (.str "passport") := by decide +kernel

/-- The guess is right: the name it puts in `type` is the name of the class it verifies against, and every parameter
of that class is there. -/
theorem C70_guess {st : Dict} {g : Schema × String} (h : guessClass st = .ok g) :
    evidenceClass (.str g.2) = .ok g.1 ∧ ∀ k ∈ dkeys g.1.params, k ∈ dkeys st := by
  have key : ∀ sch : Schema, hasAll st sch = true → ∀ k ∈ dkeys sch.params, k ∈ dkeys st := by
    intro sch hs k hk
    obtain ⟨p, hp, rfl⟩ := List.mem_map.1 hk
    simp only [hasAll, List.all_eq_true] at hs
    have hh := hs p hp
    by_cases hc : p.1 ∈ dkeys st
    · exact hc
    · rw [(dhas_eq_false_iff _ _).2 ((dget_eq_none_iff _ _).2 hc)] at hh
      cases hh
  unfold guessClass at h
  split at h
  · next hs => cases h; exact ⟨rfl, key _ hs⟩
  · split at h
    · next hs => cases h; exact ⟨rfl, key _ hs⟩
    · split at h
      · next hs => cases h; exact ⟨rfl, key _ hs⟩
      · cases h

example : (guessClass [("type", .none), ("issuer", .str "i"), ("serial_number", .str "1"),
    ("created_at", .str "2020-01-01")]).toOption.map (·.2) = some "qes" := by decide +kernel

/-- C70, the other part that holds: without a type, and with none of the three sets of parameters complete, it is a
`ValueError`.  (A set is only complete with the key `type` itself present.) -/
theorem C70_unresolved_partial (n : Nat) (cls : Cls) (st : Dict) (h : dget st "type" = none) :
    evidenceVerify (n + 1) cls st = .error .valueError := by
  have : declaredType st = none := by simp [declaredType, h]
  simp only [evidenceVerify, this]
  have hh : ∀ sch : Schema, "type" ∈ dkeys sch.params → hasAll st sch = false := by
    intro sch hm
    cases hb : hasAll st sch with
    | false => rfl
    | true =>
      obtain ⟨p, hp, he⟩ := List.mem_map.1 hm
      simp only [hasAll, List.all_eq_true] at hb
      have := hb p hp
      rw [he] at this
      simp [dhas, h] at this
  simp [guessClass, hh ida_IdDocument (by decide), hh ida_UtilityBill (by decide), hh ida_QES (by decide), bind,
    Except.bind]

def qesEvidence : Dict :=
  [("type", .str "qes"), ("issuer", .str "https://qes.example"), ("serial_number", .str "4711")]

/-- C70: the intended behaviour fails.  A correct utility bill, electronic signature or identity document is never
accepted: the check recurses until the stack is exhausted. -/
theorem C70_counterexample (n : Nat) : evidenceVerify n ida_QES.cls qesEvidence = .error .recursionError ∧
    evidenceVerify (n + 1) ida_Evidence.cls qesEvidence = .error .recursionError := by
  have key : ∀ n, evidenceVerify n ida_QES.cls qesEvidence = .error .recursionError := by
    intro n
    induction n with
    | zero => rfl
    | succ n ih =>
      have h0 : declaredType qesEvidence = some (.str "qes") := by decide +kernel
      have h1 : evidenceClass (.str "qes") = .ok ida_QES := rfl
      have h2 : toDict libEnv ida_QES.cls qesEvidence = .ok qesEvidence := by decide +kernel
      have h3 : construct ida_QES qesEvidence = .ok qesEvidence := by decide +kernel
      simp only [evidenceVerify, h0, h1, h2, h3, ih, bind, Except.bind]
  refine ⟨key n, ?_⟩
  have h0 : declaredType qesEvidence = some (.str "qes") := by decide +kernel
  have h1 : evidenceClass (.str "qes") = .ok ida_QES := rfl
  have h2 : toDict libEnv ida_Evidence.cls qesEvidence = .ok qesEvidence := by decide +kernel
  have h3 : construct ida_QES qesEvidence = .ok qesEvidence := by decide +kernel
  simp only [evidenceVerify, h0, h1, h2, h3, key, bind, Except.bind]

/-! ## C71 -/

/-- what may be stored for a claim of a declared type: null, a value of the type, or a constructor whose base class
is of the type -/
inductive Holds : VTyp → CVal → Prop
  | null (t) : Holds t (.val .none)
  | str (s) : Holds (.single .str) (.val (.str s))
  | int (i) : Holds (.single .int) (.val (.int i))
  | boolInt (b) : Holds (.single .int) (.val (.bool b))
  | bool (b) : Holds (.single .bool) (.val (.bool b))
  | dict (d) : Holds (.single .dict) (.val (.dict d))
  | msg {c sub f b} (d) : sub b = true → Holds (.single (.msg c sub f)) (.val (.msg b d))
  | con {c sub f b} (info) : sub b = true → Holds (.single (.msg c sub f)) (.con b info)

theorem isInst_holds {t : VTyp} {v : CVal} (h : v.isInst t = .ok true) : Holds t v := by
  cases t with
  | list t => simp [CVal.isInst] at h
  | single t =>
    cases v with
    | val v =>
      simp only [CVal.isInst, Except.ok.injEq] at h
      cases t <;> cases v <;> simp only [Ty.isInst, Bool.false_eq_true] at h <;> constructor
      exact h
    | con b info =>
      cases t <;> simp [CVal.isInst] at h
      exact .con _ h

theorem holds_isInst {t : VTyp} {v : CVal} (h : Holds t v) (hn : v.isNone = false) : v.isInst t = .ok true := by
  cases h <;> simp_all [CVal.isInst, Ty.isInst, CVal.isNone, Val.isNone]

/-- the content respects the declared types -/
def WellTyped (ps : Assoc Spec) (info : List (String × CVal)) : Prop :=
  ∀ k v sp, dget info k = some v → dget ps k = some sp → Holds sp.vtyp v

/-- C71, one assignment: it succeeds exactly for undeclared claims and for values that may be held, and then
changes this claim only.  An assignment that raises leaves the content as it was (`ccSet` returns no content). -/
theorem C71_assign (ps : Assoc Spec) (info : List (String × CVal)) (k : String) (v : CVal) :
    (∀ info', ccSet ps info k v = .ok info' ↔
      info' = dset info k v ∧ ∀ sp, dget ps k = some sp → Holds sp.vtyp v) ∧
    (∀ sp t, dget ps k = some sp → sp.vtyp = .single t → ¬ Holds sp.vtyp v →
      ccSet ps info k v = .error .valueError) := by
  unfold ccSet
  cases hn : v.isNone with
  | true =>
    have hv : v = .val .none := by
      cases v with
      | con => simp [CVal.isNone] at hn
      | val v => cases v <;> simp [CVal.isNone, Val.isNone] at hn ⊢
    subst hv
    refine ⟨fun info' => ?_, fun sp t _ _ h => absurd (.null _) h⟩
    simp only [if_true, Except.ok.injEq]
    exact ⟨fun h => ⟨h.symm, fun _ _ => .null _⟩, fun h => h.1.symm⟩
  | false =>
    simp only [Bool.false_eq_true, if_false]
    cases hp : dget ps k with
    | none => simp [eq_comm]
    | some sp =>
      simp only [Option.some.injEq, forall_eq']
      cases hi : v.isInst sp.vtyp with
      | error e =>
        simp only [reduceCtorEq, false_iff, not_and]
        refine ⟨fun info' _ hh => ?_, fun sp' t e hs => ?_⟩
        · rw [holds_isInst hh hn] at hi; simp at hi
        · subst e
          rw [hs] at hi
          cases v <;> cases t <;> simp [CVal.isInst] at hi
      | ok b =>
        cases b with
        | true =>
          have := isInst_holds hi
          simp only [Except.ok.injEq, this, and_true]
          exact ⟨fun info' => eq_comm, fun sp' t e _ h => absurd (e ▸ this) h⟩
        | false =>
          simp only [reduceCtorEq, false_iff, not_and]
          refine ⟨fun info' _ hh => ?_, fun _ _ _ _ _ => trivial⟩
          rw [holds_isInst hh hn] at hi; simp at hi

theorem ccRun_wellTyped (ps : Assoc Spec) (ops : List (String × CVal)) :
    ∀ info, WellTyped ps info → WellTyped ps (ccRun ps info ops) := by
  induction ops with
  | nil => intro info h; exact h
  | cons p rest ih =>
    intro info h
    obtain ⟨k, v⟩ := p
    simp only [ccRun]
    cases hc : ccSet ps info k v with
    | error e => exact ih info h
    | ok info' =>
      refine ih info' ?_
      obtain ⟨he, ht⟩ := ((C71_assign ps info k v).1 info').1 hc
      subst he
      intro k' v' sp hg hp
      rw [dget_dset] at hg
      by_cases hk : k = k'
      · subst hk; simp at hg; subst hg; exact ht sp hp
      · simp [hk] at hg; exact h k' v' sp hg hp

/-- C71: after any sequence of assignments, successful or not, the content respects the declared types. -/
theorem C71_history (ps : Assoc Spec) (ops : List (String × CVal)) : WellTyped ps (ccRun ps [] ops) :=
  ccRun_wellTyped ps ops [] (by intro k v sp h; simp [dget] at h)

/-- an assignment refused and two accepted, one of them a nested constructor -/
example : ccRun ida_VerifiedClaims.params [] [("claims", .val (.str "x")),
      ("verification", .con ida_VerificationElement.cls [("time", .val .none)]), ("other", .val (.int 3))] =
    [("verification", .con ida_VerificationElement.cls [("time", .val .none)]), ("other", .val (.int 3))] := by rfl

/-- C71: the documented request objects (`{"essential": ..}` and so on) are always refused for a claim of a scalar
type, and list-typed claims accept nothing but null. -/
theorem C71_refuses_requests (ps : Assoc Spec) (info : List (String × CVal)) (k : String) (sp : Spec)
    (h : dget ps k = some sp) :
    (∀ t d, sp.vtyp = .single t → t.scalar → ccSet ps info k (.val (.dict d)) = .error .valueError) ∧
    (∀ t v, sp.vtyp = .list t → v.isNone = false → ccSet ps info k v = .error .typeError) := by
  constructor
  · intro t d ht hs
    refine (C71_assign ps info k _).2 sp t h ht ?_
    intro hh
    rw [ht] at hh
    cases hh
    exact hs
  · intro t v ht hn
    simp [ccSet, hn, h, ht, CVal.isInst]

mutual
/-- no nested constructor is left by `to_dict`: what comes out is determined claim by claim -/
theorem ccToDict_get (info : List (String × CVal)) (k : String) :
    dget (ccToDict info) k = (dget info k).map ccVal :=
  match info with
  | [] => by simp [ccToDict, dget]
  | (k', v) :: rest => by
    by_cases h : k' = k
    · subst h; simp [ccToDict, dget]
    · simp [ccToDict, dget, h, ccToDict_get rest k]
end

/-- C71: `to_dict` has the same claims, plain values unchanged, nested constructors as dicts. -/
theorem C71_to_dict (info : List (String × CVal)) (k : String) :
    (∀ v, dget info k = some (.val v) → dget (ccToDict info) k = some v) ∧
    (∀ b i, dget info k = some (.con b i) → dget (ccToDict info) k = some (.dict (ccToDict i))) ∧
    (dget info k = none → dget (ccToDict info) k = none) := by
  rw [ccToDict_get]
  refine ⟨fun v h => ?_, fun b i h => ?_, fun h => ?_⟩ <;> rw [h] <;> simp [ccVal]

end Verif
