/-!
# Python dictionaries with string keys

`dict` objects (insertion ordered, Python ≥ 3.7) are association lists.  This
file has the primitive operations used by the models (`d.get(k)`, `d[k] = v`,
`del d[k]`, `k in d`, `d.update(e)`) together with their basic laws.
-/

namespace Verif

abbrev Assoc (α : Type u) := List (String × α)

section
variable {α : Type u}

/-- `d.get(k)`; `none` means "KeyError". -/
def dget : Assoc α → String → Option α
  | [], _ => none
  | (k', v) :: t, k => if k' = k then some v else dget t k

/-- `d[k] = v`: an existing key keeps its position. -/
def dset : Assoc α → String → α → Assoc α
  | [], k, v => [(k, v)]
  | (k', v') :: t, k, v => if k' = k then (k', v) :: t else (k', v') :: dset t k v

/-- `del d[k]` for a present key (no-op for an absent one). -/
def ddel (d : Assoc α) (k : String) : Assoc α := d.filter (fun p => !decide (p.1 = k))

/-- `k in d`. -/
def dhas (d : Assoc α) (k : String) : Bool := (dget d k).isSome

/-- `list(d.keys())`. -/
def dkeys (d : Assoc α) : List String := d.map (·.1)

/-- `d.update(e)`. -/
def dupdate (d e : Assoc α) : Assoc α := e.foldl (fun acc p => dset acc p.1 p.2) d

/-- The invariant every Python dict has: keys are distinct. -/
def DNodup (d : Assoc α) : Prop := (dkeys d).Nodup

instance (d : Assoc α) : Decidable (DNodup d) := inferInstanceAs (Decidable (List.Nodup _))

@[simp] theorem dget_nil (k : String) : dget ([] : Assoc α) k = none := rfl
@[simp] theorem dget_cons (k' : String) (v : α) (t : Assoc α) (k : String) :
    dget ((k', v) :: t) k = if k' = k then some v else dget t k := rfl

@[simp] theorem dkeys_nil : dkeys ([] : Assoc α) = [] := rfl
@[simp] theorem dkeys_cons (p : String × α) (t : Assoc α) : dkeys (p :: t) = p.1 :: dkeys t := rfl

theorem dget_dset_same (d : Assoc α) (k : String) (v : α) : dget (dset d k v) k = some v := by
  induction d with
  | nil => simp [dset]
  | cons p t ih =>
    obtain ⟨k', v'⟩ := p
    simp only [dset]
    split <;> simp_all

theorem dget_dset_ne (d : Assoc α) {k k' : String} (v : α) (h : k ≠ k') :
    dget (dset d k v) k' = dget d k' := by
  induction d with
  | nil => simp [dset, h]
  | cons p t ih =>
    obtain ⟨k₀, v₀⟩ := p
    simp only [dset]
    split
    · simp_all
    · simp [ih]

theorem dget_dset (d : Assoc α) (k k' : String) (v : α) :
    dget (dset d k v) k' = if k = k' then some v else dget d k' := by
  split
  · next h => subst h; exact dget_dset_same d k v
  · next h => exact dget_dset_ne d v h

theorem dget_ddel (d : Assoc α) (k k' : String) :
    dget (ddel d k) k' = if k = k' then none else dget d k' := by
  induction d with
  | nil => simp [ddel]
  | cons p t ih =>
    obtain ⟨k₀, v₀⟩ := p
    simp only [ddel] at ih ⊢
    by_cases h : k₀ = k
    · subst h; simp; rw [ih]; split <;> simp_all
    · simp [h]; rw [ih]; split
      · next e =>
        subst e
        have h' : ¬ k = k₀ := fun e => h e.symm
        simp [h']
      · rfl

theorem dget_ddel_same (d : Assoc α) (k : String) : dget (ddel d k) k = none := by
  simp [dget_ddel]

theorem dget_ddel_ne (d : Assoc α) {k k' : String} (h : k ≠ k') :
    dget (ddel d k) k' = dget d k' := by
  simp [dget_ddel, h]

theorem dget_eq_none_iff (d : Assoc α) (k : String) : dget d k = none ↔ k ∉ dkeys d := by
  induction d with
  | nil => simp
  | cons p t ih =>
    obtain ⟨k', v⟩ := p
    simp only [dget_cons, dkeys_cons, List.mem_cons, not_or]
    by_cases h : k' = k
    · simp [h]
    · simp [h, ih]; intro _ e; exact h e.symm

theorem dget_isSome_iff (d : Assoc α) (k : String) : (dget d k).isSome ↔ k ∈ dkeys d := by
  rw [Option.isSome_iff_ne_none, ne_eq, dget_eq_none_iff]; simp

theorem dhas_iff (d : Assoc α) (k : String) : dhas d k = true ↔ k ∈ dkeys d := by
  simp [dhas, dget_isSome_iff]

theorem dhas_eq_false_iff (d : Assoc α) (k : String) : dhas d k = false ↔ dget d k = none := by
  simp [dhas]

theorem dget_mem {d : Assoc α} {k : String} {v : α} (h : dget d k = some v) : (k, v) ∈ d := by
  induction d with
  | nil => simp at h
  | cons p t ih =>
    obtain ⟨k', v'⟩ := p
    simp only [dget_cons] at h
    split at h
    · next e => subst e; simp at h; simp [h]
    · exact List.mem_cons_of_mem _ (ih h)

theorem mem_dget {d : Assoc α} (hd : DNodup d) {k : String} {v : α} (h : (k, v) ∈ d) :
    dget d k = some v := by
  induction d with
  | nil => simp at h
  | cons p t ih =>
    obtain ⟨k', v'⟩ := p
    simp only [DNodup, dkeys_cons, List.nodup_cons] at hd
    rcases List.mem_cons.1 h with e | e
    · simp at e; simp [e]
    · have hk : k' ≠ k := by
        intro e'; subst e'
        exact hd.1 (List.mem_map.2 ⟨_, e, rfl⟩)
      simp [hk]; exact ih hd.2 e

theorem dkeys_dset (d : Assoc α) (k : String) (v : α) :
    dkeys (dset d k v) = if k ∈ dkeys d then dkeys d else dkeys d ++ [k] := by
  induction d with
  | nil => simp [dset]
  | cons p t ih =>
    obtain ⟨k', v'⟩ := p
    simp only [dset]
    by_cases h : k' = k
    · simp [h]
    · simp only [h, if_false, dkeys_cons, ih, List.mem_cons]
      have h' : ¬ k = k' := fun e => h e.symm
      by_cases hm : k ∈ dkeys t <;> simp [hm, h']

theorem mem_dkeys_dset (d : Assoc α) (k k' : String) (v : α) :
    k' ∈ dkeys (dset d k v) ↔ k' = k ∨ k' ∈ dkeys d := by
  rw [dkeys_dset]; split
  · constructor
    · exact Or.inr
    · rintro (h | h)
      · subst h; assumption
      · exact h
  · simp [or_comm]

theorem dset_nodup {d : Assoc α} (h : DNodup d) (k : String) (v : α) : DNodup (dset d k v) := by
  unfold DNodup at *
  rw [dkeys_dset]; split
  · exact h
  · rw [List.nodup_append]
    refine ⟨h, by simp, ?_⟩
    intro a ha b hb; simp at hb; subst hb; intro e; subst e; contradiction

theorem dkeys_ddel (d : Assoc α) (k : String) : dkeys (ddel d k) = (dkeys d).filter (fun x => !decide (x = k)) := by
  induction d with
  | nil => rfl
  | cons p t ih =>
    obtain ⟨k', v'⟩ := p
    simp only [ddel] at ih ⊢
    by_cases h : k' = k <;> simp_all

theorem ddel_nodup {d : Assoc α} (h : DNodup d) (k : String) : DNodup (ddel d k) := by
  unfold DNodup at *; rw [dkeys_ddel]; exact h.filter _

theorem dset_length (d : Assoc α) (k : String) (v : α) :
    (dset d k v).length = if k ∈ dkeys d then d.length else d.length + 1 := by
  have h := congrArg List.length (dkeys_dset d k v)
  rw [show (dkeys (dset d k v)).length = (dset d k v).length by simp [dkeys]] at h
  rw [h]; split <;> simp [dkeys]

theorem dupdate_nil (d : Assoc α) : dupdate d [] = d := rfl
theorem dupdate_cons (d : Assoc α) (p : String × α) (e : Assoc α) :
    dupdate d (p :: e) = dupdate (dset d p.1 p.2) e := rfl

theorem dupdate_append (d e f : Assoc α) : dupdate d (e ++ f) = dupdate (dupdate d e) f := by
  simp [dupdate]

theorem dupdate_nodup {d : Assoc α} (h : DNodup d) (e : Assoc α) : DNodup (dupdate d e) := by
  induction e generalizing d with
  | nil => exact h
  | cons p t ih => exact ih (dset_nodup h _ _)

/-- `d.update(e)`: the entries of `e` win (for a real dict `e`, i.e. distinct keys). -/
theorem dget_dupdate (d : Assoc α) {e : Assoc α} (he : DNodup e) (k : String) :
    dget (dupdate d e) k = (dget e k).or (dget d k) := by
  induction e generalizing d with
  | nil => simp [dupdate_nil]
  | cons p t ih =>
    obtain ⟨k', v⟩ := p
    simp only [DNodup, dkeys_cons, List.nodup_cons] at he
    rw [dupdate_cons, ih _ he.2, dget_dset]
    by_cases h : k' = k
    · subst h
      have := (dget_eq_none_iff t k').2 he.1
      simp [this]
    · simp [h]

theorem mem_dkeys_dupdate (d e : Assoc α) (k : String) :
    k ∈ dkeys (dupdate d e) ↔ k ∈ dkeys d ∨ k ∈ dkeys e := by
  induction e generalizing d with
  | nil => simp [dupdate_nil]
  | cons p t ih =>
    rw [dupdate_cons, ih, mem_dkeys_dset, dkeys_cons, List.mem_cons]
    constructor
    · rintro ((h | h) | h) <;> simp [h]
    · rintro (h | h | h) <;> simp [h]

theorem dget_filter_key (d : Assoc α) (f : String → Bool) (k : String) :
    dget (d.filter (fun p => f p.1)) k = if f k then dget d k else none := by
  induction d with
  | nil => simp
  | cons p t ih =>
    obtain ⟨k', v⟩ := p
    by_cases h : f k' = true
    · simp only [List.filter_cons, h, if_true, dget_cons, ih]
      by_cases e : k' = k
      · subst e; simp [h]
      · simp [e]
    · simp only [List.filter_cons, h, dget_cons]
      by_cases e : k' = k
      · subst e; simp [h, ih]
      · simp [e, ih]

theorem filter_nodup {d : Assoc α} (h : DNodup d) (f : String × α → Bool) :
    DNodup (d.filter f) := by
  unfold DNodup dkeys at *
  exact h.sublist ((List.filter_sublist (p := f) (l := d)).map _)

end

end Verif
