import Verif.Model.Labeled
import Verif.Props.Config

/-!
# The labelled dictionary: C59, C84
-/

namespace Verif

theorem dropLabel_append (lab k : String) : dropLabel lab (lab ++ k) = k := by
  rw [← String.toList_inj]
  simp [dropLabel]

theorem startsWith_append (lab k : String) : startsWith lab (lab ++ k) = true := by
  rw [startsWith_iff, String.toList_append]; exact List.prefix_append ..

theorem append_key_inj {lab k k' : String} : lab ++ k = lab ++ k' ↔ k = k' := by
  rw [← String.toList_inj, String.toList_append, String.toList_append, List.append_cancel_left_eq, String.toList_inj]

/-! ## histories -/

inductive LdOp where
  | get (k : String) (dflt : Val)
  | item (k : String)
  | set (k : String) (v : Val)
  | del (k : String)
  | has (k : String)
  | keys

inductive LdAns where
  | val (v : Val)
  | unit (r : Res Unit)
  | has (b : Bool)
  | keys (l : List String)
deriving DecidableEq

def ldStep (op : LdOp) (d : LDict) : LdAns × LDict :=
  match op with
  | .get k dflt => (.val (ldGet k dflt d), d)
  | .item k => (.val (ldItem k d), d)
  | .set k v => (.unit (.ok ()), ldSet k v d)
  | .del k => (.unit (ldDel k d).1, (ldDel k d).2)
  | .has k => (.has (ldHas k d), d)
  | .keys => (.keys (ldKeys d), d)

def ldRun : List LdOp → LDict → List LdAns × LDict
  | [], d => ([], d)
  | op :: rest, d => ((ldStep op d).1 :: (ldRun rest (ldStep op d).2).1, (ldRun rest (ldStep op d).2).2)

/-! ## the specification: a dictionary, with `None` for absent keys -/

def ldSpecStep (op : LdOp) (m : Assoc Val) : LdAns × Assoc Val :=
  match op with
  | .get k dflt => (.val ((dget m k).getD dflt), m)
  | .item k => (.val ((dget m k).getD .none), m)
  | .set k v => (.unit (.ok ()), dset m k v)
  | .del k => (.unit (if dhas m k then .ok () else .error .keyError), ddel m k)
  | .has k => (.has (dhas m k), m)
  | .keys => (.keys (dkeys m), m)

def ldSpecRun : List LdOp → Assoc Val → List LdAns × Assoc Val
  | [], m => ([], m)
  | op :: rest, m =>
    ((ldSpecStep op m).1 :: (ldSpecRun rest (ldSpecStep op m).2).1, (ldSpecRun rest (ldSpecStep op m).2).2)

/-- the entries with the label before the key -/
def labelled {α : Type} (lab : String) (m : Assoc α) : Assoc α := m.map (fun p => (lab ++ p.1, p.2))

theorem dget_labelled {α : Type} (lab : String) (m : Assoc α) (k : String) : dget (labelled lab m) (lab ++ k) = dget m k := by
  induction m with
  | nil => rfl
  | cons p t ih =>
    obtain ⟨k', v'⟩ := p
    have ih' : dget (List.map (fun p => (lab ++ p.1, p.2)) t) (lab ++ k) = dget t k := ih
    simp only [labelled, List.map_cons, dget_cons, ih', append_key_inj]

theorem dset_labelled {α : Type} (lab : String) (m : Assoc α) (k : String) (v : α) :
    dset (labelled lab m) (lab ++ k) v = labelled lab (dset m k v) := by
  induction m with
  | nil => rfl
  | cons p t ih =>
    obtain ⟨k', v'⟩ := p
    have ih' : dset (List.map (fun p => (lab ++ p.1, p.2)) t) (lab ++ k) v = labelled lab (dset t k v) := ih
    by_cases h : k' = k
    · subst h; simp [labelled, dset]
    · simp only [labelled, List.map_cons, dset, append_key_inj, if_neg h, ih']

theorem ddel_labelled {α : Type} (lab : String) (m : Assoc α) (k : String) :
    ddel (labelled lab m) (lab ++ k) = labelled lab (ddel m k) := by
  induction m with
  | nil => rfl
  | cons p t ih =>
    obtain ⟨k', v'⟩ := p
    simp only [ddel, labelled, List.map_cons] at ih ⊢
    by_cases h : k' = k
    · subst h; simpa using ih
    · simp only [List.filter_cons, append_key_inj, decide_eq_false h, Bool.not_false, if_true, List.map_cons, ih]

theorem keys_labelled {α : Type} (lab : String) (m : Assoc α) :
    ((dkeys (labelled lab m)).filter (startsWith lab)).map (dropLabel lab) = dkeys m := by
  induction m with
  | nil => rfl
  | cons p t ih =>
    have ih' : ((dkeys (List.map (fun p => (lab ++ p.1, p.2)) t)).filter (startsWith lab)).map (dropLabel lab) = dkeys t := ih
    simp only [labelled, List.map_cons, dkeys_cons, List.filter_cons, startsWith_append, if_true, dropLabel_append, ih']

theorem ldStep_spec (lab : String) (op : LdOp) (m : Assoc Val) :
    (ldStep op ⟨lab, labelled lab m⟩).1 = (ldSpecStep op m).1 ∧
    (ldStep op ⟨lab, labelled lab m⟩).2 = ⟨lab, labelled lab (ldSpecStep op m).2⟩ := by
  cases op with
  | get k dflt => simp [ldStep, ldSpecStep, ldGet, dget_labelled]
  | item k => simp [ldStep, ldSpecStep, ldItem, ldGet, dget_labelled]
  | set k v => simp [ldStep, ldSpecStep, ldSet, dset_labelled]
  | has k => simp [ldStep, ldSpecStep, ldHas, dhas, dget_labelled]
  | keys => simp [ldStep, ldSpecStep, ldKeys, keys_labelled]
  | del k =>
    simp only [ldStep, ldSpecStep, ldDel, dhas, dget_labelled, ddel_labelled]
    by_cases h : (dget m k).isSome = true
    · simp [h]
    · simp only [h, Bool.false_eq_true, if_false, true_and]
      have : ddel m k = m := by
        simp only [Bool.not_eq_true, Option.isSome_eq_false_iff, Option.isNone_iff_eq_none] at h
        rw [dget_eq_none_iff] at h
        simp only [ddel]
        rw [List.filter_eq_self]
        intro p hp
        simp only [Bool.not_eq_true', decide_eq_false_iff_not]
        rintro rfl
        exact h (List.mem_map_of_mem hp)
      rw [this]

/-- C59: the labelled dictionary answers as a dictionary does whose absent keys read as `None`, whatever the label
(also the empty one), in every history. -/
theorem C59_map (lab : String) (ops : List LdOp) :
    (ldRun ops (ldNew lab)).1 = (ldSpecRun ops []).1 := by
  have : ∀ (m : Assoc Val), (ldRun ops ⟨labelOf lab, labelled (labelOf lab) m⟩).1 = (ldSpecRun ops m).1 := by
    induction ops with
    | nil => intro m; rfl
    | cons op rest ih =>
      intro m
      obtain ⟨h1, h2⟩ := ldStep_spec (labelOf lab) op m
      simp only [ldRun, ldSpecRun, h1, h2, ih]
  exact this []

/-- a label and keys that look like each other -/
example : (ldRun [.set "k" (.int 1), .set "__a__k" (.int 2), .item "k", .del "k", .keys, .item "k", .del "k"]
      (ldNew "a")).1 =
    [.unit (.ok ()), .unit (.ok ()), .val (.int 1), .unit (.ok ()), .keys ["__a__k"], .val .none,
     .unit (.error .keyError)] := by decide +kernel

/-! ## C84 -/

theorem labelOf_length {lab : String} (h : lab ≠ "") : 5 ≤ (labelOf lab).toList.length := by
  have : lab.toList ≠ [] := fun e => h (by rw [← String.toList_inj, e]; rfl)
  have : 0 < lab.toList.length := List.length_pos_iff.mpr this
  rw [labelOf, if_neg h, String.toList_append, String.toList_append, List.length_append, List.length_append]
  simp only [show "__".toList.length = 2 from rfl]
  omega

/-- C84 fails: `update` never stores anything, and it raises `ValueError` for every argument whose text is not empty
(every dictionary). -/
theorem C84_update (shown : String) (d : LDict) (h : shown ≠ "") : ldUpdate shown d = (.error .valueError, d) := by
  have : d.label ++ shown ≠ "" := by
    intro e
    have := congrArg String.toList e
    rw [String.toList_append] at this
    exact h (by rw [← String.toList_inj]; exact (List.append_eq_nil_iff.1 this).2)
  simp [ldUpdate, dictUpdateText, this]

/-- With an argument whose text is empty there is nothing to store: without a label it succeeds, with one it raises. -/
theorem C84_update_empty (st : Assoc Val) : ldUpdate "" ⟨"", st⟩ = (.ok (), ⟨"", st⟩) ∧
    ∀ lab, lab ≠ "" → ldUpdate "" ⟨labelOf lab, st⟩ = (.error .valueError, ⟨labelOf lab, st⟩) := by
  refine ⟨rfl, fun lab h => ?_⟩
  have h5 := labelOf_length h
  have : labelOf lab ≠ "" := by
    intro e
    rw [e] at h5
    simp at h5
  simp [ldUpdate, dictUpdateText, this]

example : "{'a': 1}" ≠ "" := by decide

/-- C84 fails: iteration over a dictionary with a label yields no entry, whatever is stored. -/
theorem C84_iter (lab : String) (h : lab ≠ "") (st : Assoc Val) : (ldIter ⟨labelOf lab, st⟩).1 = [] := by
  have hs : ∀ a, startsWith (labelOf lab) (String.ofList [a]) = false := by
    intro a
    rw [Bool.eq_false_iff, Ne, startsWith_iff]
    intro hp
    have := hp.length_le
    have h5 := labelOf_length h
    rw [String.toList_ofList] at this
    simp only [List.length_cons, List.length_nil] at this
    omega
  have : ∀ ns, (ldIterLoop (labelOf lab) ns).1 = [] := by
    intro ns
    induction ns with
    | nil => rfl
    | cons s rest ih =>
      rw [ldIterLoop]
      split
      · rw [if_neg (by rw [hs]; decide), ih]
      · rfl
  exact this _

/-- With a label every stored key has at least five characters, and iterating raises `ValueError` as soon as something is
stored. -/
theorem C84_iter_raises (lab : String) (h : lab ≠ "") (k : String) (ops : List LdOp)
    (hk : ldHas k (ldRun ops (ldNew lab)).2 = true) : (ldIter (ldRun ops (ldNew lab)).2).2 = some .valueError := by
  have hrun : ∀ (ops : List LdOp) (m : Assoc Val), ∃ m', (ldRun ops ⟨labelOf lab, labelled (labelOf lab) m⟩).2 =
      ⟨labelOf lab, labelled (labelOf lab) m'⟩ := by
    intro ops
    induction ops with
    | nil => intro m; exact ⟨m, rfl⟩
    | cons op rest ih =>
      intro m
      simp only [ldRun, (ldStep_spec (labelOf lab) op m).2]
      exact ih _
  obtain ⟨m', e⟩ := hrun ops []
  have e' : (ldRun ops (ldNew lab)).2 = ⟨labelOf lab, labelled (labelOf lab) m'⟩ := e
  rw [e'] at hk ⊢
  cases m' with
  | nil => simp [ldHas, labelled, dhas] at hk
  | cons p t =>
    simp only [ldIter, labelled, List.map_cons, dkeys_cons, ldIterLoop]
    split
    · rename_i a b heq
      have := congrArg List.length heq
      rw [String.toList_append, List.length_append] at this
      have h5 := labelOf_length h
      simp only [List.length_cons, List.length_nil] at this
      omega
    · rfl

example : ldHas "k" (ldRun [.set "k" (.int 1)] (ldNew "a")).2 = true := by decide +kernel

/-- Without a label a key of two characters is taken apart: the entry `ab` is seen as `a` with the value `b`. -/
theorem C84_iter_pairs : ldIter (ldRun [.set "ab" (.int 1)] (ldNew "")).2 = ([("a", "b")], none) ∧
    (ldIter (ldRun [.set "abc" (.int 1)] (ldNew "")).2).2 = some .valueError := by decide +kernel

end Verif
