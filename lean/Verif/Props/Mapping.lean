import Mathlib.Data.List.Perm.Subperm
import Verif.Model.Merge

/-!
# C13, C14, C15, C16, C18: a message as a mapping
-/

namespace Verif

/-! ## C13: mapping laws over every history -/

/-- Mutations of an instance through the mapping interface, for parameters the class does not
declare (declared ones are converted, see C01), and deletions of any parameter. -/
inductive MapOp where
  | set (k : String) (v : Val)
  | del (k : String)

/-- The abstract map. -/
abbrev AMap := String → Option Val

/-- Specification of one operation: the new map, and whether it raises `KeyError`. -/
def MapOp.spec : MapOp → AMap → AMap × Bool
  | .set k v, m => (fun x => if x = k then some v else m x, false)
  | .del k, m => (fun x => if x = k then none else m x, (m k).isNone)

/-- Specification of the key order: new keys go to the end, existing ones stay, deleted ones leave. -/
def MapOp.order : MapOp → List String → List String
  | .set k _, ks => if k ∈ ks then ks else ks ++ [k]
  | .del k, ks => ks.filter (fun x => !decide (x = k))

/-- `del self[key]`, message.py:728-729: `KeyError` for an absent key. -/
def delItem (st : Dict) (k : String) : Res Dict :=
  if dhas st k then .ok (ddel st k) else .error .keyError

/-- `self[key]`, message.py:725-726 -/
def getItem (st : Dict) (k : String) : Res Val :=
  match dget st k with
  | some v => .ok v
  | none => .error .keyError

/-- The code: state after the operation (unchanged when it raises) and whether it raised `KeyError`. -/
def MapOp.run (sch : Schema) : MapOp → Dict → Dict × Bool
  | .set k v, st =>
    match setItem sch st k v with
    | .ok st' => (st', false)
    | .error _ => (st, true)
  | .del k, st =>
    match delItem st k with
    | .ok st' => (st', false)
    | .error _ => (st, true)

def MapOp.key : MapOp → String
  | .set k _ | .del k => k

def MapOp.undeclared (sch : Schema) : MapOp → Prop
  | .set k _ => dget sch.params k = none
  | .del _ => True

/-- The observable content of an instance. -/
def content (st : Dict) : AMap := fun k => dget st k

theorem MapOp.run_spec (sch : Schema) (op : MapOp) (h : op.undeclared sch) (st : Dict)
    (hn : DNodup st) :
    content (op.run sch st).1 = (op.spec (content st)).1 ∧
    (op.run sch st).2 = (op.spec (content st)).2 ∧
    dkeys (op.run sch st).1 = op.order (dkeys st) ∧
    DNodup (op.run sch st).1 := by
  cases op with
  | set k v =>
    simp only [MapOp.undeclared] at h
    simp only [MapOp.run, setItem, h, MapOp.spec, MapOp.order]
    refine ⟨?_, trivial, dkeys_dset st k v, dset_nodup hn k v⟩
    funext x
    simp only [content, dget_dset]
    by_cases e : x = k
    · simp [e]
    · have e' : ¬ k = x := fun h => e h.symm
      simp [e, e']
  | del k =>
    simp only [MapOp.run, delItem, MapOp.spec, MapOp.order, content]
    by_cases hk : dhas st k = true
    · have hs : (dget st k).isSome = true := hk
      simp only [hk, if_true]
      refine ⟨?_, ?_, dkeys_ddel st k, ddel_nodup hn k⟩
      · funext x
        show dget (ddel st k) x = _
        rw [dget_ddel]
        by_cases e : x = k
        · simp [e]
        · have e' : ¬ k = x := fun h => e h.symm
          simp [e, e']
      · cases hd : dget st k <;> simp_all
    · have hs : dget st k = none := by
        have : dhas st k = false := by simpa using hk
        exact (dhas_eq_false_iff st k).1 this
      have hm : k ∉ dkeys st := (dget_eq_none_iff st k).1 hs
      simp only [hk, hs]
      refine ⟨?_, by simp, ?_, hn⟩
      · funext x
        show dget st x = _
        by_cases e : x = k
        · simp [e, hs]
        · simp [e]
      · symm
        apply List.filter_eq_self.2
        intro x hx
        have : ¬ x = k := by rintro rfl; exact hm hx
        simp [this]

/-- Run a history; collect which operations raised `KeyError`. -/
def runOps (sch : Schema) : List MapOp → Dict → Dict × List Bool
  | [], st => (st, [])
  | op :: ops, st =>
    let r := op.run sch st
    let rs := runOps sch ops r.1
    (rs.1, r.2 :: rs.2)

def specOps : List MapOp → AMap × List String → (AMap × List String) × List Bool
  | [], m => (m, [])
  | op :: ops, (m, ks) =>
    let rs := specOps ops ((op.spec m).1, op.order ks)
    (rs.1, (op.spec m).2 :: rs.2)

/-- **C13**: any history of writes of undeclared parameters and deletions acts on the message as on
an abstract insertion-ordered map: same content, same key order, same `KeyError`s; `len` is the
number of distinct keys; reading an absent key raises `KeyError`; containment agrees with reading. -/
theorem C13_history (sch : Schema) (ops : List MapOp) (hu : ∀ op ∈ ops, op.undeclared sch)
    (st : Dict) (hn : DNodup st) :
    let r := runOps sch ops st
    let s := specOps ops (content st, dkeys st)
    content r.1 = s.1.1 ∧ dkeys r.1 = s.1.2 ∧ r.2 = s.2 ∧ (dkeys r.1).Nodup ∧
    r.1.length = s.1.2.length ∧
    (∀ k, getItem r.1 k = match s.1.1 k with | some v => .ok v | none => .error .keyError) ∧
    (∀ k, dhas r.1 k = (s.1.1 k).isSome) ∧ (∀ k, k ∈ s.1.2 ↔ (s.1.1 k).isSome) := by
  induction ops generalizing st with
  | nil =>
    refine ⟨rfl, rfl, rfl, hn, by simp [runOps, specOps, dkeys], ?_, ?_, ?_⟩
    · intro k
      simp only [runOps, specOps, content, getItem]
    · intro k; rfl
    · intro k; exact (dget_isSome_iff st k).symm
  | cons op ops ih =>
    have h := MapOp.run_spec sch op (hu op (by simp)) st hn
    have := ih (fun o ho => hu o (by simp [ho])) (op.run sch st).1 h.2.2.2
    simp only [runOps, specOps]
    rw [← h.1, ← h.2.1, ← h.2.2.1]
    refine ⟨this.1, this.2.1, by rw [this.2.2.1], this.2.2.2.1, this.2.2.2.2.1,
      this.2.2.2.2.2.1, this.2.2.2.2.2.2⟩

/-- A history with an overwrite, a deletion and a failing deletion meets the hypotheses. -/
example : (runOps messageSchema [.set "a" (.int 1), .set "b" .none, .set "a" (.int 2), .del "b", .del "zz"] [])
    = ([("a", .int 2)], [false, false, false, false, true]) ∧
    ∀ op ∈ [MapOp.set "a" (.int 1), .set "b" .none, .set "a" (.int 2), .del "b", .del "zz"],
      op.undeclared messageSchema := by
  refine ⟨by decide +kernel, ?_⟩
  intro op h
  simp at h
  rcases h with rfl | rfl | rfl | rfl | rfl <;> simp [MapOp.undeclared, messageSchema]

/-! ## C14: partition by schema -/

/-- the class declares the parameter -/
def Declares (sch : Schema) (k : String) : Prop := ∃ sp, dget sch.params k = some sp

theorem dhas_declares (sch : Schema) (k : String) : dhas sch.params k = true ↔ Declares sch k := by
  simp only [dhas, Declares, Option.isSome_iff_exists]

theorem dget_foldl_ddel (ks : List String) (st : Dict) (k : String) :
    dget (ks.foldl ddel st) k = if k ∈ ks then none else dget st k := by
  induction ks generalizing st with
  | nil => simp
  | cons x xs ih =>
    simp only [List.foldl_cons, ih, dget_ddel, List.mem_cons]
    by_cases h : k ∈ xs
    · simp [h]
    · by_cases e : x = k
      · simp [e]
      · have e' : ¬ k = x := fun h => e h.symm
        simp [h, e, e']

theorem dkeys_foldl_ddel (ks : List String) (st : Dict) :
    dkeys (ks.foldl ddel st) = (dkeys st).filter (fun k => !decide (k ∈ ks)) := by
  induction ks generalizing st with
  | nil =>
    simp only [List.foldl_nil]
    exact (List.filter_eq_self.2 (by simp)).symm
  | cons x xs ih =>
    simp only [List.foldl_cons, ih, dkeys_ddel, List.filter_filter, List.mem_cons]
    congr 1; funext k
    by_cases h : k ∈ xs <;> by_cases e : k = x <;> simp [h, e]

theorem mem_undeclared_keys {sch : Schema} {st : Dict} {k : String} :
    k ∈ (dkeys st).filter (fun k => !dhas sch.params k) ↔ k ∈ dkeys st ∧ ¬ Declares sch k := by
  rw [List.mem_filter]
  constructor
  · rintro ⟨h, h'⟩
    refine ⟨h, fun d => ?_⟩
    rw [(dhas_declares sch k).2 d] at h'; simp at h'
  · rintro ⟨h, h'⟩
    refine ⟨h, ?_⟩
    cases hd : dhas sch.params k
    · rfl
    · exact absurd ((dhas_declares sch k).1 hd) h'

/-- **C14** (weed): exactly the declared parameters survive, with their values. -/
theorem C14_weed (sch : Schema) (st : Dict) (k : String) :
    (Declares sch k → dget (weed sch st) k = dget st k) ∧
    (¬ Declares sch k → dget (weed sch st) k = none) := by
  rw [weed, dget_foldl_ddel]
  constructor
  · intro h
    exact if_neg (fun hm => (mem_undeclared_keys.1 hm).2 h)
  · intro h
    by_cases hm : k ∈ dkeys st
    · exact if_pos (mem_undeclared_keys.2 ⟨hm, h⟩)
    · split
      · rfl
      · exact (dget_eq_none_iff st k).2 hm

/-- **C14** (extra): exactly the undeclared parameters, with their values. -/
theorem C14_extra (sch : Schema) (st : Dict) (k : String) :
    (Declares sch k → dget (extra sch st) k = none) ∧
    (¬ Declares sch k → dget (extra sch st) k = dget st k) := by
  rw [extra, dget_filter_key st (fun k => !dhas sch.params k) k]
  constructor
  · intro h; simp [(dhas_declares sch k).2 h]
  · intro h
    have : ¬ dhas sch.params k = true := fun e => h ((dhas_declares sch k).1 e)
    simp [this]

/-- **C14** (partition): every parameter of the message is in exactly one of the two parts with its
value, and the parts contain nothing else; sizes add up. -/
theorem C14_partition (sch : Schema) (st : Dict) :
    (∀ k, dget st k = (dget (weed sch st) k).or (dget (extra sch st) k)) ∧
    (∀ k, dget (weed sch st) k = none ∨ dget (extra sch st) k = none) ∧
    (weed sch st).length + (extra sch st).length = st.length := by
  refine ⟨?_, ?_, ?_⟩
  · intro k
    by_cases h : Declares sch k
    · rw [(C14_weed sch st k).1 h, (C14_extra sch st k).1 h]; simp
    · rw [(C14_weed sch st k).2 h, (C14_extra sch st k).2 h]; simp
  · intro k
    by_cases h : Declares sch k
    · exact .inr ((C14_extra sch st k).1 h)
    · exact .inl ((C14_weed sch st k).2 h)
  · have hw : (weed sch st).length = ((dkeys st).filter (fun k => dhas sch.params k)).length := by
      have h1 : (weed sch st).length = (dkeys (weed sch st)).length := by simp [dkeys]
      rw [h1, weed, dkeys_foldl_ddel]
      congr 1
      apply List.filter_congr
      intro k hk
      have hm := @mem_undeclared_keys sch st k
      by_cases hd : dhas sch.params k = true
      · have hd' := (dhas_declares sch k).1 hd
        simp [hm, hk, hd, hd']
      · have hd' : ¬ Declares sch k := fun e => hd ((dhas_declares sch k).2 e)
        simp [hm, hk, hd, hd']
    have he : (extra sch st).length = ((dkeys st).filter (fun k => !dhas sch.params k)).length := by
      simp only [extra, dkeys, List.filter_map, List.length_map]
      rfl
    rw [hw, he]
    have := List.length_eq_length_filter_add (l := dkeys st) (fun k => dhas sch.params k)
    simp only [dkeys, List.length_map] at this ⊢
    omega

/-- **C14** (idempotent) -/
theorem C14_weed_idempotent (sch : Schema) (st : Dict) : weed sch (weed sch st) = weed sch st := by
  have : (dkeys (weed sch st)).filter (fun k => !dhas sch.params k) = [] := by
    rw [List.filter_eq_nil_iff]
    intro k hk h
    have hd : ¬ Declares sch k := fun e => by
      rw [(dhas_declares sch k).2 e] at h; simp at h
    have := (C14_weed sch st k).2 hd
    exact (dget_eq_none_iff _ _).1 this hk
  rw [weed, this]; rfl

/-- **C14** (only_extras): true iff no declared parameter is present. -/
theorem C14_only_extras (sch : Schema) (st : Dict) :
    onlyExtras sch st = true ↔ ∀ k, Declares sch k → dget st k = none := by
  simp only [onlyExtras, List.isEmpty_iff, List.filter_eq_nil_iff]
  constructor
  · intro h k hk
    rw [dget_eq_none_iff]
    intro hm
    exact h k hm ((dhas_declares sch k).2 hk)
  · intro h k hm hd
    exact (dget_eq_none_iff st k).1 (h k ((dhas_declares sch k).1 hd)) hm

/-- **C14** (by_schema): exactly the declared keywords, unchanged. -/
theorem C14_by_schema (sch : Schema) (kwa : Dict) (k : String) :
    (Declares sch k → dget (bySchema sch kwa) k = dget kwa k) ∧
    (¬ Declares sch k → dget (bySchema sch kwa) k = none) := by
  rw [bySchema, dget_filter_key kwa (fun k => dhas sch.params k) k]
  constructor
  · intro h; simp [(dhas_declares sch k).2 h]
  · intro h
    have : ¬ dhas sch.params k = true := fun e => h ((dhas_declares sch k).1 e)
    simp [this]

theorem addNonStandard_loop (s1 : Schema) (l : Dict) (hn : DNodup l) (st : Dict) :
    ∃ r, l.foldlM (m := Res) (fun st p => if dhas s1.params p.1 then .ok st else setItem s1 st p.1 p.2) st = .ok r ∧
      ∀ k, dget r k = if dhas s1.params k then dget st k else (dget l k).or (dget st k) := by
  induction l generalizing st with
  | nil => exact ⟨st, rfl, fun k => by simp⟩
  | cons p t ih =>
    obtain ⟨k₀, v₀⟩ := p
    simp only [DNodup, dkeys_cons, List.nodup_cons] at hn
    by_cases h : dhas s1.params k₀ = true
    · obtain ⟨r, hr, hk⟩ := ih hn.2 st
      refine ⟨r, by simp [List.foldlM, h]; exact hr, fun k => ?_⟩
      rw [hk k]
      by_cases e : k₀ = k
      · subst e; simp [h]
      · simp [e]
    · have hg : dget s1.params k₀ = none := by
        have : dhas s1.params k₀ = false := by simpa using h
        exact (dhas_eq_false_iff _ _).1 this
      obtain ⟨r, hr, hk⟩ := ih hn.2 (dset st k₀ v₀)
      refine ⟨r, by simp [List.foldlM, h, setItem, hg]; exact hr, fun k => ?_⟩
      rw [hk k]
      by_cases e : k₀ = k
      · subst e
        have := (dget_eq_none_iff t k₀).2 hn.1
        simp [h, this, dget_dset_same]
      · simp [e, dget_dset_ne st v₀ e]

/-- **C14** (add_non_standard): never raises; parameters declared by either message keep their
value; every other parameter takes the value of the second message if it has one. -/
theorem C14_add_non_standard (s1 s2 : Schema) (st1 st2 : Dict) (hn : DNodup st2) :
    ∃ r, addNonStandard s1 st1 s2 st2 = .ok r ∧
      ∀ k, (Declares s1 k ∨ Declares s2 k → dget r k = dget st1 k) ∧
           (¬ Declares s1 k → ¬ Declares s2 k → dget r k = (dget st2 k).or (dget st1 k)) := by
  obtain ⟨r, hr, hk⟩ := addNonStandard_loop s1 (extra s2 st2) (filter_nodup hn _) st1
  refine ⟨r, hr, fun k => ⟨?_, ?_⟩⟩
  · intro h
    rw [hk k]
    rcases h with h | h
    · simp [(dhas_declares s1 k).2 h]
    · rw [(C14_extra s2 st2 k).1 h]; simp
  · intro h1 h2
    have : ¬ dhas s1.params k = true := fun e => h1 ((dhas_declares s1 k).1 e)
    rw [hk k, (C14_extra s2 st2 k).2 h2]
    simp [this]

/-- A message with a declared and an undeclared parameter: both sides of the partition are
inhabited. -/
example :
    let sch : Schema := { cls := ⟨"t", "T"⟩, params := [("a", singleOptionalString)] }
    let st : Dict := [("x", .int 1), ("a", .str "v")]
    weed sch st = [("a", .str "v")] ∧ extra sch st = [("x", .int 1)] ∧ DNodup st ∧
    addNonStandard sch st messageSchema [("a", .int 7), ("y", .none)] =
      .ok [("x", .int 1), ("a", .str "v"), ("y", .none)] := by
  decide +kernel

/-! ## C15: rm_blanks -/

/-- **C15**: falsy parameters (including `0` and `False`) leave, truthy ones stay unchanged. -/
theorem C15_rm_blanks (st : Dict) (k : String) :
    (∀ v, dget st k = some v → v.truthy = true → dget (rmBlanks st) k = some v) ∧
    (∀ v, dget st k = some v → v.truthy = false → dget (rmBlanks st) k = none) ∧
    (dget st k = none → dget (rmBlanks st) k = none) := by
  simp only [rmBlanks, dget_foldl_ddel, List.mem_filter, falsyAt]
  refine ⟨?_, ?_, ?_⟩
  · intro v h ht; simp [h, ht]
  · intro v h ht
    have hm : k ∈ dkeys st := (dget_isSome_iff st k).1 (by simp [h])
    simp [h, ht, hm]
  · intro h; simp [h]

/-- **C15** (no blank left, idempotent, survivors keep their order). -/
theorem C15_idempotent (st : Dict) (hn : DNodup st) :
    (∀ k v, dget (rmBlanks st) k = some v → v.truthy = true ∧ dget st k = some v) ∧
    rmBlanks (rmBlanks st) = rmBlanks st ∧
    rmBlanks st = st.filter (fun p => p.2.truthy) := by
  have h1 : ∀ k v, dget (rmBlanks st) k = some v → v.truthy = true ∧ dget st k = some v := by
    intro k v h
    have h0 := C15_rm_blanks st k
    cases hd : dget st k with
    | none => rw [h0.2.2 hd] at h; cases h
    | some w =>
      cases ht : w.truthy
      · rw [h0.2.1 w hd ht] at h; cases h
      · rw [h0.1 w hd ht] at h; cases h; exact ⟨ht, rfl⟩
  refine ⟨h1, ?_, ?_⟩
  · have : (dkeys (rmBlanks st)).filter
        (falsyAt (rmBlanks st)) = [] := by
      rw [List.filter_eq_nil_iff]
      intro k _ h
      cases hd : dget (rmBlanks st) k with
      | none => simp [falsyAt, hd] at h
      | some v => simp [falsyAt, hd, (h1 k v hd).1] at h
    rw [rmBlanks, this]; rfl
  · have key : ∀ (ks : List String) (s : Dict), ks.foldl ddel s = s.filter (fun p => !decide (p.1 ∈ ks)) := by
      intro ks
      induction ks with
      | nil =>
        intro s
        exact (List.filter_eq_self.2 (by simp)).symm
      | cons x xs ih =>
        intro s
        simp only [List.foldl_cons, ih, ddel, List.filter_filter, List.mem_cons]
        congr 1; funext p
        by_cases h : p.1 ∈ xs <;> by_cases e : p.1 = x <;> simp [h, e]
    rw [rmBlanks, key]
    apply List.filter_congr
    rintro ⟨k, v⟩ hp
    have hg := mem_dget hn hp
    have hm : k ∈ dkeys st := List.mem_map.2 ⟨_, hp, rfl⟩
    simp only [List.mem_filter, hm, true_and, falsyAt, hg]
    cases v.truthy <;> simp

example : rmBlanks [("a", .int 0), ("b", .str "x"), ("c", .bool false), ("d", .list [])] = [("b", .str "x")] := by
  decide +kernel

/-! ## C16: equality -/

mutual
/-- All dicts inside a value have distinct keys (what Python guarantees). -/
def WfVal : Val → Prop
  | .list l => WfList l
  | .dict d => DNodup d ∧ WfDict d
  | .msg _ d => DNodup d ∧ WfDict d
  | _ => True
def WfList : List Val → Prop
  | [] => True
  | v :: vs => WfVal v ∧ WfList vs
def WfDict : List (String × Val) → Prop
  | [] => True
  | (_, v) :: r => WfVal v ∧ WfDict r
end

theorem WfDict.mem {d : Dict} (h : WfDict d) {k : String} {v : Val} (hm : (k, v) ∈ d) : WfVal v := by
  induction d with
  | nil => cases hm
  | cons p t ih =>
    obtain ⟨k', v'⟩ := p
    simp only [WfDict] at h
    rcases List.mem_cons.1 hm with e | e
    · cases e; exact h.1
    · exact ih h.2 e

theorem eqDict_iff (xs b : Dict) :
    Val.eqDict xs b = true ↔ ∀ k v, (k, v) ∈ xs → ∃ w, dget b k = some w ∧ Val.eq v w = true := by
  induction xs with
  | nil => simp [Val.eqDict]
  | cons p t ih =>
    obtain ⟨k', v'⟩ := p
    simp only [Val.eqDict, Bool.and_eq_true, ih, List.mem_cons]
    constructor
    · rintro ⟨h1, h2⟩ k v (e | e)
      · cases e
        cases hd : dget b k' with
        | none => simp [hd] at h1
        | some w => exact ⟨w, rfl, by simpa [hd] using h1⟩
      · exact h2 k v e
    · intro h
      refine ⟨?_, fun k v hm => h k v (.inr hm)⟩
      obtain ⟨w, hw, he⟩ := h k' v' (.inl rfl)
      simp [hw, he]

mutual
theorem val_eq_refl : (v : Val) → WfVal v → Val.eq v v = true
  | .none, _ => by simp [Val.eq]
  | .bool _, _ => by simp [Val.eq, Val.num?]
  | .int _, _ => by simp [Val.eq, Val.num?]
  | .flt _, _ => by simp [Val.eq, Val.num?]
  | .str _, _ => by simp [Val.eq]
  | .list l, h => by
    simp only [Val.eq]; exact val_eqList_refl l (by simpa [WfVal] using h)
  | .dict d, h => by
    simp only [WfVal] at h
    simp only [Val.eq, beq_self_eq_true, Bool.true_and]
    rw [eqDict_iff]
    intro k v hm
    exact ⟨v, mem_dget h.1 hm, val_eqDict_refl d h.2 k v hm⟩
  | .msg c d, h => by
    simp only [WfVal] at h
    simp only [Val.eq, beq_self_eq_true, Bool.true_and]
    rw [eqDict_iff]
    intro k v hm
    exact ⟨v, mem_dget h.1 hm, val_eqDict_refl d h.2 k v hm⟩
theorem val_eqList_refl : (l : List Val) → WfList l → Val.eqList l l = true
  | [], _ => by simp [Val.eqList]
  | v :: vs, h => by
    simp only [WfList] at h
    simp [Val.eqList, val_eq_refl v h.1, val_eqList_refl vs h.2]
theorem val_eqDict_refl : (d : Dict) → WfDict d → ∀ k v, (k, v) ∈ d → Val.eq v v = true
  | [], _ => by intro k v h; cases h
  | (k₀, v₀) :: r, h => by
    simp only [WfDict] at h
    intro k v hm
    rcases List.mem_cons.1 hm with e | e
    · cases e; exact val_eq_refl v₀ h.1
    · exact val_eqDict_refl r h.2 k v e
end

/-- Two dicts of the same size with the keys of one among the keys of the other have the same keys. -/
theorem keys_subset_rev {a b : Dict} (ha : DNodup a) (hl : a.length = b.length)
    (hs : ∀ k, k ∈ dkeys a → k ∈ dkeys b) : ∀ k, k ∈ dkeys b → k ∈ dkeys a := by
  have h1 : (dkeys a).Subperm (dkeys b) := List.subperm_of_subset ha hs
  have h2 : (dkeys a).Perm (dkeys b) := h1.perm_of_length_le (by simp [dkeys, hl])
  intro k hk
  exact h2.mem_iff.2 hk

theorem eqDict_keys {a b : Dict} (h : Val.eqDict a b = true) : ∀ k, k ∈ dkeys a → k ∈ dkeys b := by
  rw [eqDict_iff] at h
  intro k hk
  obtain ⟨⟨k', v⟩, hm, rfl⟩ := List.mem_map.1 hk
  obtain ⟨w, hw, _⟩ := h _ _ hm
  exact (dget_isSome_iff b _).1 (by simp [hw])

theorem val_eq_num {v w : Val} {x : Rat} (hv : v.num? = some x) :
    Val.eq v w = true ↔ w.num? = some x := by
  cases v <;> cases w <;> simp_all [Val.eq, Val.num?] <;> exact ⟨Eq.symm, Eq.symm⟩

theorem val_eq_num_symm {v w : Val} {x : Rat} (hv : v.num? = some x) (h : Val.eq v w = true) :
    Val.eq w v = true := (val_eq_num ((val_eq_num hv).1 h)).2 hv

mutual
theorem val_eq_symm : (v w : Val) → WfVal v → WfVal w → Val.eq v w = true → Val.eq w v = true
  | .none, w, _, _ => by cases w <;> simp [Val.eq, Val.num?]
  | .bool _, w, _, _ => val_eq_num_symm rfl
  | .int _, w, _, _ => val_eq_num_symm rfl
  | .flt _, w, _, _ => val_eq_num_symm rfl
  | .str _, w, _, _ => by cases w <;> simp [Val.eq, Val.num?]; exact Eq.symm
  | .list l, w, hv, hw => by
    cases w with
    | list l' =>
      simp only [Val.eq]
      exact val_eqList_symm l l' (by simpa [WfVal] using hv) (by simpa [WfVal] using hw)
    | _ => simp [Val.eq, Val.num?]
  | .dict d, w, hv, hw => by
    cases w with
    | dict d' =>
      simp only [WfVal] at hv hw
      simp only [Val.eq, Bool.and_eq_true, beq_iff_eq]
      rintro ⟨hl, he⟩
      refine ⟨hl.symm, ?_⟩
      exact val_eqDict_symm_aux d d' hv.1 hw.1 hl he
        (fun k v w hm hg => val_eqDict_symm d hv.2 k v hm w (hw.2.mem (dget_mem hg)))
    | _ => simp [Val.eq, Val.num?]
  | .msg c d, w, hv, hw => by
    cases w with
    | msg c' d' =>
      simp only [WfVal] at hv hw
      simp only [Val.eq, Bool.and_eq_true, beq_iff_eq]
      rintro ⟨hc, hl, he⟩
      refine ⟨hc.symm, hl.symm, ?_⟩
      exact val_eqDict_symm_aux d d' hv.1 hw.1 hl he
        (fun k v w hm hg => val_eqDict_symm d hv.2 k v hm w (hw.2.mem (dget_mem hg)))
    | _ => simp [Val.eq, Val.num?]
theorem val_eqList_symm : (l l' : List Val) → WfList l → WfList l' → Val.eqList l l' = true → Val.eqList l' l = true
  | [], l', _, _ => by cases l' <;> simp [Val.eqList]
  | v :: vs, l', h, h' => by
    cases l' with
    | nil => simp [Val.eqList]
    | cons w ws =>
      simp only [WfList] at h h'
      simp only [Val.eqList, Bool.and_eq_true]
      rintro ⟨h1, h2⟩
      exact ⟨val_eq_symm v w h.1 h'.1 h1, val_eqList_symm vs ws h.2 h'.2 h2⟩
theorem val_eqDict_symm : (d : Dict) → WfDict d → ∀ k v, (k, v) ∈ d → ∀ w, WfVal w → Val.eq v w = true → Val.eq w v = true
  | [], _ => by intro k v h; cases h
  | (k₀, v₀) :: r, h => by
    simp only [WfDict] at h
    intro k v hm w hw he
    rcases List.mem_cons.1 hm with e | e
    · cases e; exact val_eq_symm v₀ w h.1 hw he
    · exact val_eqDict_symm r h.2 k v e w hw he
theorem val_eqDict_symm_aux (d d' : Dict) (hn : DNodup d) (hn' : DNodup d') (hl : d.length = d'.length)
    (he : Val.eqDict d d' = true)
    (ih : ∀ k v w, (k, v) ∈ d → dget d' k = some w → Val.eq v w = true → Val.eq w v = true) :
    Val.eqDict d' d = true := by
  rw [eqDict_iff]
  intro k w hm
  have hkey : k ∈ dkeys d := keys_subset_rev hn hl (eqDict_keys he) k (List.mem_map.2 ⟨_, hm, rfl⟩)
  obtain ⟨v, hv⟩ := Option.isSome_iff_exists.1 ((dget_isSome_iff d k).2 hkey)
  obtain ⟨w', hw', hvw⟩ := (eqDict_iff d d').1 he k v (dget_mem hv)
  rw [mem_dget hn' hm] at hw'
  cases hw'
  exact ⟨v, hv, ih k v w (dget_mem hv) (mem_dget hn' hm) hvw⟩
end

mutual
theorem val_eq_trans : (a b c : Val) → Val.eq a b = true → Val.eq b c = true → Val.eq a c = true
  | .none, b, c => by
    intro h h'
    cases b <;> simp [Val.eq, Val.num?] at h
    exact h'
  | .bool x, b, c => by
    intro h h'
    have hx : (Val.bool x).num? = some (if x then 1 else 0) := rfl
    exact (val_eq_num hx).2 ((val_eq_num ((val_eq_num hx).1 h)).1 h')
  | .int x, b, c => by
    intro h h'
    have hx : (Val.int x).num? = some (x : Rat) := rfl
    exact (val_eq_num hx).2 ((val_eq_num ((val_eq_num hx).1 h)).1 h')
  | .flt x, b, c => by
    intro h h'
    have hx : (Val.flt x).num? = some x := rfl
    exact (val_eq_num hx).2 ((val_eq_num ((val_eq_num hx).1 h)).1 h')
  | .str s, b, c => by cases b <;> cases c <;> simp [Val.eq, Val.num?]; intro h h'; exact h.trans h'
  | .list l, b, c => by
    cases b <;> cases c <;> simp [Val.eq, Val.num?]
    rename_i l' l''
    exact val_eqList_trans l l' l''
  | .dict d, b, c => by
    cases b <;> cases c <;> simp [Val.eq, Val.num?]
    rename_i d' d''
    intro hl he hl' he'
    exact ⟨hl.trans hl', val_eqDict_trans d d' d'' he he'⟩
  | .msg n d, b, c => by
    cases b <;> cases c <;> simp [Val.eq, Val.num?]
    rename_i n' d' n'' d''
    intro hc hl he hc' hl' he'
    exact ⟨hc.trans hc', hl.trans hl', val_eqDict_trans d d' d'' he he'⟩
theorem val_eqList_trans : (a b c : List Val) → Val.eqList a b = true → Val.eqList b c = true → Val.eqList a c = true
  | [], b, c => by cases b <;> cases c <;> simp [Val.eqList]
  | v :: vs, b, c => by
    cases b with
    | nil => simp [Val.eqList]
    | cons w ws =>
      cases c with
      | nil => simp [Val.eqList]
      | cons u us =>
        simp only [Val.eqList, Bool.and_eq_true]
        rintro ⟨h1, h2⟩ ⟨h3, h4⟩
        exact ⟨val_eq_trans v w u h1 h3, val_eqList_trans vs ws us h2 h4⟩
theorem val_eqDict_trans : (a b c : Dict) → Val.eqDict a b = true → Val.eqDict b c = true → Val.eqDict a c = true
  | [], b, c => by simp [Val.eqDict]
  | (k, v) :: r, b, c => by
    simp only [Val.eqDict, Bool.and_eq_true]
    rintro ⟨h1, h2⟩ h3
    refine ⟨?_, val_eqDict_trans r b c h2 h3⟩
    cases hb : dget b k with
    | none => simp [hb] at h1
    | some w =>
      simp only [hb] at h1
      obtain ⟨u, hu, hwu⟩ := (eqDict_iff b c).1 h3 k w (dget_mem hb)
      simp only [hu]
      exact val_eq_trans v w u h1 hwu
end

/-- **C16** (equivalence): on values as Python builds them. -/
theorem C16_refl (v : Val) (h : WfVal v) : Val.eq v v = true := val_eq_refl v h
theorem C16_symm (v w : Val) (hv : WfVal v) (hw : WfVal w) : Val.eq v w = Val.eq w v := by
  cases h : Val.eq v w
  · cases h' : Val.eq w v
    · rfl
    · rw [val_eq_symm w v hw hv h'] at h; cases h
  · exact (val_eq_symm v w hv hw h).symm
theorem C16_trans (a b c : Val) (h : Val.eq a b = true) (h' : Val.eq b c = true) : Val.eq a c = true :=
  val_eq_trans a b c h h'

/-- both absent, or both present and equal -/
def OptEq : Option Val → Option Val → Prop
  | none, none => True
  | some v, some w => Val.eq v w = true
  | _, _ => False

/-- **C16** (meaning): two messages are equal iff their class names agree and they have equal
values for the same parameters; nothing else (order, module of the class) matters. -/
theorem C16_iff (c c' : Cls) (a b : Dict) (ha : DNodup a) (hb : DNodup b) :
    Val.eq (.msg c a) (.msg c' b) = true ↔ c.name = c'.name ∧ ∀ k, OptEq (dget a k) (dget b k) := by
  simp only [Val.eq, Bool.and_eq_true, beq_iff_eq]
  constructor
  · rintro ⟨hc, hl, he⟩
    refine ⟨hc, fun k => ?_⟩
    cases hk : dget a k with
    | none =>
      have : dget b k = none := by
        rw [dget_eq_none_iff]
        intro hm
        exact (dget_eq_none_iff a k).1 hk (keys_subset_rev ha hl (eqDict_keys he) k hm)
      simp [this, OptEq]
    | some v =>
      obtain ⟨w, hw, hvw⟩ := (eqDict_iff a b).1 he k v (dget_mem hk)
      simp [hw, OptEq, hvw]
  · rintro ⟨hc, h⟩
    have hkeys : ∀ k, k ∈ dkeys a ↔ k ∈ dkeys b := by
      intro k
      rw [← dget_isSome_iff, ← dget_isSome_iff]
      have := h k
      cases ha : dget a k <;> cases hb : dget b k <;> simp_all [OptEq]
    have hp : (dkeys a).Perm (dkeys b) := by
      rw [List.perm_ext_iff_of_nodup ha hb]; exact hkeys
    refine ⟨hc, by simpa [dkeys] using hp.length_eq, ?_⟩
    rw [eqDict_iff]
    intro k v hm
    have := h k
    rw [mem_dget ha hm] at this
    cases hb : dget b k with
    | none => simp [hb, OptEq] at this
    | some w => exact ⟨w, rfl, by simpa [hb, OptEq] using this⟩

mutual
/-- Two values that differ only in the order of dict and message entries, at any depth. -/
inductive SameUpToOrder : Val → Val → Prop
  | none : SameUpToOrder .none .none
  | bool b : SameUpToOrder (.bool b) (.bool b)
  | int i : SameUpToOrder (.int i) (.int i)
  | flt q : SameUpToOrder (.flt q) (.flt q)
  | str s : SameUpToOrder (.str s) (.str s)
  | list {l l'} : SameUpToOrderList l l' → SameUpToOrder (.list l) (.list l')
  | dict {d d' e} : SameUpToOrderDict d d' → d'.Perm e → SameUpToOrder (.dict d) (.dict e)
  | msg {c d d' e} : SameUpToOrderDict d d' → d'.Perm e → SameUpToOrder (.msg c d) (.msg c e)
inductive SameUpToOrderList : List Val → List Val → Prop
  | nil : SameUpToOrderList [] []
  | cons {v v' l l'} : SameUpToOrder v v' → SameUpToOrderList l l' → SameUpToOrderList (v :: l) (v' :: l')
inductive SameUpToOrderDict : List (String × Val) → List (String × Val) → Prop
  | nil : SameUpToOrderDict [] []
  | cons {k v v' l l'} : SameUpToOrder v v' → SameUpToOrderDict l l' →
      SameUpToOrderDict ((k, v) :: l) ((k, v') :: l')
end

theorem SameUpToOrderDict.keys {d d' : Dict} (h : SameUpToOrderDict d d') : dkeys d = dkeys d' := by
  induction d generalizing d' with
  | nil => cases h; rfl
  | cons p t ih => cases h with | cons _ h2 => simp [ih h2]

theorem SameUpToOrderDict.length {d d' : Dict} (h : SameUpToOrderDict d d') : d.length = d'.length := by
  have := congrArg List.length h.keys
  simpa [dkeys] using this

theorem dget_perm {d e : Dict} (hd : DNodup d) (hp : d.Perm e) (k : String) : dget e k = dget d k := by
  have he : DNodup e := (hp.map Prod.fst).nodup_iff.1 hd
  cases h : dget d k with
  | none =>
    rw [dget_eq_none_iff] at h ⊢
    intro hm
    exact h ((hp.map Prod.fst).mem_iff.2 hm)
  | some v => exact mem_dget he (hp.mem_iff.1 (dget_mem h))

mutual
theorem order_eq : (v w : Val) → WfVal v → SameUpToOrder v w → Val.eq v w = true
  | .none, _, _, h => by cases h; simp [Val.eq]
  | .bool _, _, _, h => by cases h; simp [Val.eq, Val.num?]
  | .int _, _, _, h => by cases h; simp [Val.eq, Val.num?]
  | .flt _, _, _, h => by cases h; simp [Val.eq, Val.num?]
  | .str _, _, _, h => by cases h; simp [Val.eq]
  | .list l, _, hw, h => by
    cases h with
    | list h => simp only [Val.eq]; exact order_eqList l _ (by simpa [WfVal] using hw) h
  | .dict d, _, hw, h => by
    simp only [WfVal] at hw
    cases h with
    | dict h hp =>
      simp only [Val.eq, Bool.and_eq_true, beq_iff_eq]
      refine ⟨h.length.trans hp.length_eq, ?_⟩
      have hn := hw.1
      unfold DNodup at hn
      rw [h.keys] at hn
      exact order_eqDict d _ _ hw.2 h hn (fun k v hm => by rw [dget_perm hn hp]; exact mem_dget hn hm)
  | .msg c d, _, hw, h => by
    simp only [WfVal] at hw
    cases h with
    | msg h hp =>
      simp only [Val.eq, Bool.and_eq_true, beq_iff_eq]
      refine ⟨trivial, h.length.trans hp.length_eq, ?_⟩
      have hn := hw.1
      unfold DNodup at hn
      rw [h.keys] at hn
      exact order_eqDict d _ _ hw.2 h hn (fun k v hm => by rw [dget_perm hn hp]; exact mem_dget hn hm)
theorem order_eqList : (l l' : List Val) → WfList l → SameUpToOrderList l l' → Val.eqList l l' = true
  | [], _, _, h => by cases h; simp [Val.eqList]
  | v :: vs, _, hw, h => by
    simp only [WfList] at hw
    cases h with
    | cons h1 h2 => simp [Val.eqList, order_eq v _ hw.1 h1, order_eqList vs _ hw.2 h2]
theorem order_eqDict : (d d' e : Dict) → WfDict d → SameUpToOrderDict d d' → DNodup d' →
    (∀ k v, (k, v) ∈ d' → dget e k = some v) → Val.eqDict d e = true
  | [], _, _, _, _, _, _ => by simp [Val.eqDict]
  | (k, v) :: r, _, e, hw, h, hn, hg => by
    simp only [WfDict] at hw
    cases h with
    | cons h1 h2 =>
      rename_i v' l'
      simp only [Val.eqDict, Bool.and_eq_true]
      refine ⟨?_, order_eqDict r _ e hw.2 h2 ?_ (fun k' w hm => hg k' w (List.mem_cons_of_mem _ hm))⟩
      · rw [hg k v' (by simp)]
        exact order_eq v v' hw.1 h1
      · simp only [DNodup, dkeys_cons, List.nodup_cons] at hn
        exact hn.2
end

/-- **C16** (order): reordering entries at any depth gives an equal value. -/
theorem C16_order_insensitive (v w : Val) (hv : WfVal v) (h : SameUpToOrder v w) : Val.eq v w = true :=
  order_eq v w hv h

/-- A nested message and its reordering (also inside the nested dict). -/
example : ∃ v w, SameUpToOrder v w ∧ v ≠ w ∧ WfVal v :=
  ⟨.msg ⟨"m", "M"⟩ [("a", .int 1), ("b", .dict [("x", .none), ("y", .str "t")])],
   .msg ⟨"m", "M"⟩ [("b", .dict [("y", .str "t"), ("x", .none)]), ("a", .int 1)],
   .msg (.cons (.int 1) (.cons (.dict (.cons .none (.cons (.str "t") .nil)) (List.Perm.swap _ _ _)) .nil))
     (List.Perm.swap _ _ _),
   by decide +kernel,
   by simp [WfVal, WfDict, DNodup]⟩

/-- Only the class *name* is compared: instances of same-named classes of different modules are
equal. -/
theorem C16_class_name_only (d : Dict) (h : WfVal (.dict d)) :
    Val.eq (.msg ⟨"oauth2", "AuthorizationRequest"⟩ d) (.msg ⟨"oidc", "AuthorizationRequest"⟩ d) = true := by
  simp only [WfVal] at h
  have := val_eq_refl (.dict d) (by simpa [WfVal] using h)
  simpa [Val.eq] using this

/-! ## C18: merging a request object -/

theorem dget_dropKeys (kept : String → Bool) (st : Dict) (k : String) :
    dget (dropKeys kept st) k = if kept k then dget st k else none := by
  rw [dropKeys, dget_foldl_ddel]
  simp only [List.mem_filter]
  by_cases h : kept k = true
  · simp [h]
  · by_cases hm : k ∈ dkeys st
    · simp [h, hm]
    · simp [h, (dget_eq_none_iff st k).2 hm]

/-- **C18** (strict): afterwards the message is exactly the request object. -/
theorem C18_strict (st ro : Dict) (hr : DNodup ro) (wl : Option (List String)) (k : String) :
    dget (merge st ro "strict" wl) k = dget ro k := by
  rw [merge, dget_dupdate _ hr]
  simp only [mergeBase, if_true, dget_dropKeys]
  cases h : dget ro k
  · simp [dhas, h]
  · simp

/-- **C18** (lax): the union, the request object takes precedence. -/
theorem C18_lax (st ro : Dict) (hr : DNodup ro) (wl : Option (List String)) (k : String) :
    dget (merge st ro "lax" wl) k = (dget ro k).or (dget st k) := by
  rw [merge, dget_dupdate _ hr]
  simp [mergeBase]

/-- **C18** (whitelist): own parameters survive exactly when white-listed; the request object takes
precedence. -/
theorem C18_whitelist (st ro : Dict) (hr : DNodup ro) (wl : List String) (hw : wl ≠ []) (k : String) :
    (k ∈ wl → dget (merge st ro "whitelist" (some wl)) k = (dget ro k).or (dget st k)) ∧
    (k ∉ wl → dget (merge st ro "whitelist" (some wl)) k = dget ro k) := by
  rw [merge, dget_dupdate _ hr]
  simp only [mergeBase, show ¬ ("whitelist" = "strict") by decide, show ¬ ("whitelist" = "lax") by decide,
    if_false, Option.getD_some, true_and, ne_eq, hw, not_false_eq_true, if_true, dget_dropKeys,
    List.contains_iff_mem]
  constructor
  · intro h; simp [h]
  · intro h; simp [h]

/-- **C18** (corner case): an empty white list keeps everything, like `lax`; so does an unknown
treatment. -/
theorem C18_fallthrough (st ro : Dict) (hr : DNodup ro) (t : String) (wl : Option (List String)) (k : String)
    (h : (t = "whitelist" ∧ (wl = none ∨ wl = some [])) ∨ (t ≠ "strict" ∧ t ≠ "whitelist")) :
    dget (merge st ro t wl) k = (dget ro k).or (dget st k) := by
  rw [merge, dget_dupdate _ hr]
  congr 1
  rcases h with ⟨rfl, rfl | rfl⟩ | ⟨h1, h2⟩ <;> simp_all [mergeBase]

example :
    let st : Dict := [("a", .int 1), ("b", .int 2), ("c", .int 3)]
    let ro : Dict := [("b", .int 9), ("d", .int 4)]
    merge st ro "strict" none = [("b", .int 9), ("d", .int 4)] ∧
    merge st ro "lax" none = [("a", .int 1), ("b", .int 9), ("c", .int 3), ("d", .int 4)] ∧
    merge st ro "whitelist" (some ["a"]) = [("a", .int 1), ("b", .int 9), ("d", .int 4)] ∧ DNodup ro := by
  decide +kernel

end Verif
