import Verif.Model.HeapCopy
import Verif.Props.Heap

/-!
# C110: a copy of a message is independent of it
-/

namespace Verif

/-! ## what `deepcopy` gives -/

/-- the memo is right: it maps to new objects with the content of the old ones -/
structure MemoOk (base : Cells) (memo : Memo) (cells : Cells) : Prop where
  pre : base <+: cells
  ok : ∀ n n', Memo.find memo n = some n' → base.length ≤ n' ∧ n' < cells.length ∧ cells.getD n' [] = base.getD n []

theorem getD_prefix {a b : Cells} (h : a <+: b) {n : Nat} (hn : n < a.length) : b.getD n [] = a.getD n [] := by
  obtain ⟨t, rfl⟩ := h
  simp [List.getD_eq_getElem?_getD, List.getElem?_append_left hn]

theorem copySlots_spec (base : Cells) : ∀ (d : List (String × Slot)) (memo : Memo) (cells : Cells),
    MemoOk base memo cells → (∀ k n, (k, Slot.cell n) ∈ d → n < base.length) →
    cells <+: (copySlots d memo cells).2 ∧
    dkeys (copySlots d memo cells).1 = dkeys d ∧
    ∀ k, (∀ v, dget d k = some (.lit v) → dget (copySlots d memo cells).1 k = some (.lit v)) ∧
      (∀ n, dget d k = some (.cell n) → ∃ n', dget (copySlots d memo cells).1 k = some (.cell n') ∧ base.length ≤ n' ∧
        n' < (copySlots d memo cells).2.length ∧ (copySlots d memo cells).2.getD n' [] = base.getD n [])
  | [], memo, cells, _, _ => by simp [copySlots, dget]
  | (k0, .lit v0) :: rest, memo, cells, hm, hd => by
    obtain ⟨h1, h2, h3⟩ := copySlots_spec base rest memo cells hm (fun k n h => hd k n (List.mem_cons_of_mem _ h))
    simp only [copySlots]
    refine ⟨h1, by simp only [dkeys_cons, h2], fun k => ?_⟩
    simp only [dget_cons]
    by_cases hk : k0 = k
    · simp [hk]
    · simp only [hk, if_false]; exact h3 k
  | (k0, .cell n0) :: rest, memo, cells, hm, hd => by
    have hn0 := hd k0 n0 (List.mem_cons_self ..)
    have hr : ∀ k n, (k, Slot.cell n) ∈ rest → n < base.length := fun k n h => hd k n (List.mem_cons_of_mem _ h)
    cases hf : memo.find n0 with
    | some n' =>
      obtain ⟨h1, h2, h3⟩ := copySlots_spec base rest memo cells hm hr
      simp only [copySlots, hf]
      refine ⟨h1, by simp only [dkeys_cons, h2], fun k => ?_⟩
      simp only [dget_cons]
      by_cases hk : k0 = k
      · simp only [hk, if_true]
        refine ⟨by simp, fun n hn => ?_⟩
        cases hn
        obtain ⟨a, b, c⟩ := hm.ok n0 n' hf
        obtain ⟨t, ht⟩ := h1
        refine ⟨n', rfl, a, ?_, ?_⟩
        · rw [← ht]; simp; omega
        · rw [getD_prefix ⟨t, ht⟩ b, c]
      · simp only [hk, if_false]; exact h3 k
    | none =>
      have hm' : MemoOk base ((n0, cells.length) :: memo) (cells ++ [cells.getD n0 []]) := by
        refine ⟨hm.pre.trans (List.prefix_append _ _), fun n n' h => ?_⟩
        simp only [Memo.find] at h
        have hl : base.length ≤ cells.length := hm.pre.length_le
        split at h
        · rename_i e
          subst e
          cases h
          refine ⟨hl, by simp, ?_⟩
          rw [← getD_prefix hm.pre hn0]
          simp [List.getD_eq_getElem?_getD]
        · obtain ⟨a, b, c⟩ := hm.ok n n' h
          refine ⟨a, by simp; omega, ?_⟩
          rw [getD_prefix (List.prefix_append cells [cells.getD n0 []]) b, c]
      obtain ⟨h1, h2, h3⟩ := copySlots_spec base rest _ _ hm' hr
      simp only [copySlots, hf]
      refine ⟨(List.prefix_append _ _).trans h1, by simp only [dkeys_cons, h2], fun k => ?_⟩
      simp only [dget_cons]
      by_cases hk : k0 = k
      · simp only [hk, if_true]
        refine ⟨by simp, fun n hn => ?_⟩
        cases hn
        obtain ⟨a, b, c⟩ := hm'.ok n0 cells.length (by simp [Memo.find])
        refine ⟨cells.length, rfl, a, Nat.lt_of_lt_of_le b h1.length_le, ?_⟩
        rw [getD_prefix h1 b, c]
      · simp only [hk, if_false]; exact h3 k

/-! ## separation -/

/-- the list objects of message `x` belong to no other message and to no class -/
structure Separate (p : Prog) (x : Nat) : Prop where
  msgs : ∀ k n m' k', p.slot x k = some (.cell n) → m' ≠ x → p.slot m' k' ≠ some (.cell n)
  classes : ∀ k n c k', p.slot x k = some (.cell n) → dget (p.classes.getD c []) k' ≠ some (.cell n)

/-- the operation changes the message `x` -/
def targets : COp → Nat → Prop
  | .base (.assign m _ _), x => m = x
  | .base (.del m _), x => m = x
  | .base (.setDefaults m), x => m = x
  | .base (.mutate m _ _), x => m = x
  | .share _ _ m2 _, x => m2 = x
  | _, _ => False

/-- the operation makes the message `x` have a list object in common with another message or a class -/
def joins : COp → Nat → Prop
  | .base (.setDefaults m), x => m = x
  | .share m _ m2 _, x => m ≠ m2 ∧ (m = x ∨ m2 = x)
  | _, _ => False

/-- where the slots come from -/
inductive SlotFrom (p : Prog) (o : COp) (m : Nat) (k : String) (s : Slot) : Prop
  | old (h : p.slot m k = some s)
  | made (c : Nat) (ho : o = .base (.new c)) (hm : m = p.msgs.length) (h : dget (p.classes.getD c []) k = some s)
  | default (c : Nat) (ho : o = .base (.setDefaults m)) (h : dget (p.classes.getD c []) k = some s)
  | assigned (v : Val) (ho : o = .base (.assign m k v)) (h : s = (allocVal v p.cells).1)
  | copied (m0 : Nat) (ho : o = .copy m0) (hm : m = p.msgs.length)
      (h : ∀ n, s = .cell n → p.cells.length ≤ n ∧ n < (cStep p o).cells.length)
  | shared (m0 : Nat) (k0 : String) (ho : o = .share m0 k0 m k) (h : p.slot m0 k0 = some s)

theorem slot_mem {p : Prog} {m : Nat} {md : Nat × Assoc Slot} (he : p.msgs[m]? = some md) {k : String} {s : Slot}
    (h : dget md.2 k = some s) : p.slot m k = some s := by simp [Prog.slot, he, h]

theorem copy_spec {p : Prog} (hw : ProgWF p) {m : Nat} {md : Nat × Assoc Slot} (he : p.msgs[m]? = some md)
    (hn : DNodup md.2) :
    p.cells <+: (copySlots md.2 [] p.cells).2 ∧ dkeys (copySlots md.2 [] p.cells).1 = dkeys md.2 ∧
    ∀ k, (∀ v, dget md.2 k = some (.lit v) → dget (copySlots md.2 [] p.cells).1 k = some (.lit v)) ∧
      (∀ n, dget md.2 k = some (.cell n) → ∃ n', dget (copySlots md.2 [] p.cells).1 k = some (.cell n') ∧
        p.cells.length ≤ n' ∧ n' < (copySlots md.2 [] p.cells).2.length ∧
        (copySlots md.2 [] p.cells).2.getD n' [] = p.cells.getD n []) := by
  refine copySlots_spec p.cells md.2 [] p.cells ⟨List.prefix_refl _, by simp [Memo.find]⟩ ?_
  intro k n hm
  exact hw.msgs m k n (slot_mem he (mem_dget hn hm))

/-- all the dictionaries are dictionaries -/
def ProgDict (p : Prog) : Prop := (∀ md ∈ p.msgs, DNodup md.2) ∧ ∀ d ∈ p.classes, DNodup d

theorem progDict_class {p : Prog} (h : ProgDict p) (c : Nat) : DNodup (p.classes.getD c []) := by
  rw [List.getD_eq_getElem?_getD]
  cases hc : p.classes[c]? with
  | none => simp [DNodup, dkeys]
  | some d => exact h.2 d (List.mem_of_getElem? hc)

theorem setDefaultsLoop_nodup : ∀ (ds : List (String × Slot)) (d : Assoc Slot), DNodup d → DNodup (setDefaultsLoop ds d)
  | [], _, h => h
  | (k, s) :: ds, d, h => by
    simp only [setDefaultsLoop]
    refine setDefaultsLoop_nodup ds _ ?_
    split
    · exact h
    · exact dset_nodup h _ _

theorem modify_dict {p : Prog} (h : ProgDict p) (m : Nat) (f : Nat → Assoc Slot → Assoc Slot)
    (hf : ∀ c d, DNodup d → DNodup (f c d)) : ProgDict (p.modify m f) := by
  refine ⟨fun md hmd => ?_, h.2⟩
  obtain ⟨i, hi⟩ := List.mem_iff_getElem?.1 hmd
  simp only [Prog.modify, List.getElem?_modify] at hi
  cases hp : p.msgs[i]? with
  | none => simp [hp] at hi
  | some md' =>
    have hd := h.1 md' (List.mem_of_getElem? hp)
    rw [hp] at hi
    split at hi
    · cases hi; exact hf _ _ hd
    · cases hi; exact hd

theorem ddel_nodup' {d : Assoc Slot} (h : DNodup d) (k : String) : DNodup (ddel d k) := by
  unfold DNodup dkeys ddel at *
  exact (List.filter_sublist.map _).nodup h

theorem copySlots_keys : ∀ (d : List (String × Slot)) (memo : Memo) (cells : Cells),
    dkeys (copySlots d memo cells).1 = dkeys d
  | [], _, _ => rfl
  | (k, .lit v) :: rest, memo, cells => by simp only [copySlots, dkeys_cons, copySlots_keys rest]
  | (k, .cell n) :: rest, memo, cells => by
    simp only [copySlots]
    split <;> simp only [dkeys_cons, copySlots_keys rest]

theorem cStep_dict {p : Prog} (o : COp) (h : ProgDict p) : ProgDict (cStep p o) := by
  have hadd : ∀ c d, DNodup d → ∀ cells, ProgDict { p with cells := cells, msgs := p.msgs ++ [(c, d)] } := by
    intro c d hd cells
    refine ⟨fun md hmd => ?_, h.2⟩
    rcases List.mem_append.1 hmd with hmd | hmd
    · exact h.1 md hmd
    · rw [List.mem_singleton] at hmd; subst hmd; exact hd
  cases o with
  | base o =>
    cases o with
    | new c => exact hadd c _ (progDict_class h c) _
    | bare c => exact hadd c _ (by simp [DNodup, dkeys]) _
    | assign m k v =>
      exact modify_dict (p := { p with cells := (allocVal v p.cells).2 }) h m _ (fun c d hd => dset_nodup hd _ _)
    | del m k => exact modify_dict h m _ (fun c d hd => ddel_nodup' hd _)
    | setDefaults m => exact modify_dict h m _ (fun c d hd => setDefaultsLoop_nodup _ _ hd)
    | mutate m k f =>
      simp only [cStep, mStep]
      split
      · exact h
      · exact h
  | copy m =>
    simp only [cStep]
    split
    · rename_i md he
      refine hadd md.1 _ ?_ _
      have := h.1 md (List.mem_of_getElem? he)
      simpa only [DNodup, copySlots_keys] using this
    · exact h
  | share m k m2 k2 =>
    simp only [cStep]
    split
    · exact modify_dict h m2 _ (fun c d hd => dset_nodup hd _ _)
    · exact h

theorem cStep_slot {p : Prog} (hw : ProgWF p) (hd : ProgDict p) (o : COp) (m : Nat) (k : String) (s : Slot)
    (h : (cStep p o).slot m k = some s) : SlotFrom p o m k s := by
  cases o with
  | base o =>
    cases o with
    | new c =>
      simp only [cStep, mStep] at h
      rw [slot_append] at h
      split at h
      · rename_i e; exact .made c rfl e h
      · exact .old h
    | setDefaults m' =>
      simp only [cStep, mStep] at h
      rw [slot_modify] at h
      split at h
      · rename_i md e
        split at h
        · rename_i e'
          subst e'
          rw [setDefaultsLoop_get] at h
          split at h
          · rename_i s' hs; exact .old (by rw [slot_mem e hs, ← h])
          · exact .default md.1 rfl h
        · exact .old (slot_mem e h)
      · cases h
    | assign m' k' v =>
      rcases mStep_slot p (.assign m' k' v) m k s h with h1 | ⟨c, h1⟩ | ⟨v', e, h1⟩
      · exact .old h1
      · simp only [cStep, mStep] at h
        rw [slot_modify] at h
        split at h
        · rename_i md e
          split at h
          · rename_i e'
            subst e'
            rw [dget_dset] at h
            split at h
            · rename_i e''
              subst e''
              cases h
              exact .assigned v rfl rfl
            · exact .old (slot_mem e h)
          · exact .old (slot_mem e h)
        · cases h
      · exact .assigned v' (by rw [e]) h1
    | bare c =>
      simp only [cStep, mStep] at h
      rw [slot_append] at h
      split at h
      · simp [dget] at h
      · exact .old h
    | del m' k' =>
      simp only [cStep, mStep] at h
      rw [slot_modify] at h
      split at h
      · rename_i md e
        split at h
        · rw [dget_ddel] at h
          split at h
          · cases h
          · exact .old (slot_mem e h)
        · exact .old (slot_mem e h)
      · cases h
    | mutate m' k' f =>
      simp only [cStep, mStep] at h
      split at h
      · exact .old h
      · exact .old h
  | copy m0 =>
    cases he : p.msgs[m0]? with
    | none => simp only [cStep, he] at h; exact .old h
    | some md =>
      have h0 := h
      simp only [cStep, he] at h
      have h' : Prog.slot { p with msgs := p.msgs ++ [(md.1, (copySlots md.2 [] p.cells).1)] } m k = some s := h
      rw [slot_append] at h'
      split at h'
      · rename_i e
        refine .copied m0 rfl e fun n hn => ?_
        subst hn
        obtain ⟨-, hk, hs⟩ := copy_spec hw he (hd.1 md (List.mem_of_getElem? he))
        have hc : (cStep p (.copy m0)).cells = (copySlots md.2 [] p.cells).2 := by simp only [cStep, he]
        rw [hc]
        cases hg : dget md.2 k with
        | none =>
          rw [dget_eq_none_iff, ← hk, ← dget_eq_none_iff, h'] at hg
          cases hg
        | some s0 =>
          cases s0 with
          | lit v => rw [(hs k).1 v hg] at h'; cases h'
          | cell n0 =>
            obtain ⟨n', h1, h2, h3, -⟩ := (hs k).2 n0 hg
            rw [h1] at h'; cases h'
            exact ⟨h2, h3⟩
      · exact .old h'
  | share m0 k0 m2 k2 =>
    simp only [cStep] at h
    split at h
    · rename_i s0 hs0
      rw [slot_modify] at h
      split at h
      · rename_i md e
        split at h
        · rename_i e'
          subst e'
          rw [dget_dset] at h
          split at h
          · rename_i e''
            subst e''
            cases h
            exact .shared m0 k0 rfl hs0
          · exact .old (slot_mem e h)
        · exact .old (slot_mem e h)
      · cases h
    · exact .old h

theorem cStep_classes (p : Prog) (o : COp) : (cStep p o).classes = p.classes := by
  cases o with
  | base o => exact mStep_classes p o
  | copy m => simp only [cStep]; split <;> rfl
  | share m k m2 k2 => simp only [cStep]; split <;> rfl

theorem copySlots_len : ∀ (d : List (String × Slot)) (memo : Memo) (cells : Cells),
    cells <+: (copySlots d memo cells).2
  | [], _, _ => List.prefix_refl _
  | (k, .lit v) :: rest, memo, cells => by simp only [copySlots]; exact copySlots_len rest _ _
  | (k, .cell n) :: rest, memo, cells => by
    simp only [copySlots]
    split
    · exact copySlots_len rest _ _
    · exact (List.prefix_append _ _).trans (copySlots_len rest _ _)

theorem cStep_len (p : Prog) (o : COp) : p.cells.length ≤ (cStep p o).cells.length := by
  cases o with
  | base o => exact mStep_len p o
  | copy m =>
    simp only [cStep]
    split
    · exact (copySlots_len _ _ _).length_le
    · exact Nat.le_refl _
  | share m k m2 k2 => simp only [cStep]; split <;> exact Nat.le_refl _

theorem cStep_msgs (p : Prog) (o : COp) : p.msgs.length ≤ (cStep p o).msgs.length := by
  cases o with
  | base o => exact mStep_msgs o
  | copy m => simp only [cStep]; split <;> simp
  | share m k m2 k2 => simp only [cStep]; split <;> simp [Prog.modify]

theorem cStep_wf {p : Prog} (o : COp) (h : ProgWF p) (hd : ProgDict p) : ProgWF (cStep p o) := by
  have hl := cStep_len p o
  constructor
  · intro m k n hs
    rcases cStep_slot h hd o m k _ hs with h1 | ⟨c, _, _, h1⟩ | ⟨c, _, h1⟩ | ⟨v, ho, h1⟩ | ⟨m0, ho, _, h1⟩ | ⟨m0, k0, _, h1⟩
    · exact Nat.lt_of_lt_of_le (h.msgs _ _ _ h1) hl
    · exact Nat.lt_of_lt_of_le (h.classes _ _ _ h1) hl
    · exact Nat.lt_of_lt_of_le (h.classes _ _ _ h1) hl
    · subst ho; exact (allocVal_len v p.cells).2.1 n h1.symm
    · exact (h1 n rfl).2
    · exact Nat.lt_of_lt_of_le (h.msgs _ _ _ h1) hl
  · intro c k n hs
    rw [cStep_classes] at hs
    exact Nat.lt_of_lt_of_le (h.classes _ _ _ hs) hl

theorem fresh_cell {v : Val} {cells : Cells} {n : Nat} (h : Slot.cell n = (allocVal v cells).1) : n = cells.length :=
  (allocVal_slot h.symm).1

/-- separation lasts until something joins -/
theorem separate_step {p : Prog} (hw : ProgWF p) (hd : ProgDict p) {x : Nat} (hx : x < p.msgs.length)
    (h : Separate p x) (o : COp) (hj : ¬ joins o x) : Separate (cStep p o) x := by
  -- what `x` holds afterwards was its own before, or is new
  have key : ∀ k n, (cStep p o).slot x k = some (.cell n) →
      (∃ k0, p.slot x k0 = some (.cell n)) ∨ (n = p.cells.length ∧ ∃ v, o = .base (.assign x k v)) := by
    intro k n hs
    rcases cStep_slot hw hd o x k _ hs with h1 | ⟨c, _, e, _⟩ | ⟨c, ho, _⟩ | ⟨v, ho, h1⟩ | ⟨m0, _, e, _⟩ | ⟨m0, k0, ho, h1⟩
    · exact .inl ⟨k, h1⟩
    · omega
    · subst ho; exact absurd rfl hj
    · exact .inr ⟨fresh_cell h1, v, ho⟩
    · omega
    · subst ho
      by_cases e : m0 = x
      · subst e; exact .inl ⟨k0, h1⟩
      · exact absurd ⟨e, .inr rfl⟩ hj
  constructor
  · intro k n m' k' hs hne hs'
    rcases key k n hs with ⟨k0, h0⟩ | ⟨e, v, ho⟩
    · have hn := hw.msgs _ _ _ h0
      rcases cStep_slot hw hd o m' k' _ hs' with h1 | ⟨c, _, _, h1⟩ | ⟨c, _, h1⟩ | ⟨v, ho, h1⟩ | ⟨m0, _, _, h1⟩ | ⟨m1, k1, ho, h1⟩
      · exact h.msgs k0 n m' k' h0 hne h1
      · exact h.classes k0 n c k' h0 h1
      · exact h.classes k0 n c k' h0 h1
      · exact absurd (fresh_cell h1) (by omega)
      · exact absurd (h1 n rfl).1 (by omega)
      · subst ho
        by_cases e : m1 = x
        · subst e; exact hj ⟨fun e => hne e.symm, .inl rfl⟩
        · exact h.msgs k0 n m1 k1 h0 e h1
    · subst ho
      rcases cStep_slot hw hd _ m' k' _ hs' with h1 | ⟨c, ho, _, _⟩ | ⟨c, ho, _⟩ | ⟨v, ho, h1⟩ | ⟨m0, ho, _, _⟩ | ⟨m1, k1, ho, _⟩
      · exact absurd (hw.msgs _ _ _ h1) (by omega)
      · cases ho
      · cases ho
      · cases ho; exact hne rfl
      · cases ho
      · cases ho
  · intro k n c k' hs hs'
    rw [cStep_classes] at hs'
    rcases key k n hs with ⟨k0, h0⟩ | ⟨e, _⟩
    · exact h.classes k0 n c k' h0 hs'
    · exact absurd (hw.classes _ _ _ hs') (by omega)

/-! ## what an operation changes -/

/-- a message that is not the target keeps its slots -/
theorem cStep_slot_same (p : Prog) (o : COp) (x : Nat) (hx : x < p.msgs.length) (ht : ¬ targets o x) (k : String) :
    (cStep p o).slot x k = p.slot x k := by
  have hmod : ∀ (p' : Prog) m f, p'.msgs = p.msgs → m ≠ x → (p'.modify m f).slot x k = p.slot x k := by
    intro p' m f he hne
    rw [slot_modify]
    simp only [he, if_neg hne]
    rfl
  cases o with
  | base o =>
    cases o with
    | new c => simp only [cStep, mStep]; rw [slot_append, if_neg (by omega)]
    | bare c => simp only [cStep, mStep]; rw [slot_append, if_neg (by omega)]
    | assign m k' v => exact hmod _ m _ rfl ht
    | del m k' => exact hmod _ m _ rfl ht
    | setDefaults m => exact hmod _ m _ rfl ht
    | mutate m k' f => simp only [cStep, mStep]; split <;> rfl
  | copy m =>
    simp only [cStep]
    split
    · rename_i md _
      have : Prog.slot { p with msgs := p.msgs ++ [(md.1, (copySlots md.2 [] p.cells).1)] } x k = p.slot x k := by
        rw [slot_append, if_neg (by omega)]
      exact this
    · rfl
  | share m k1 m2 k2 =>
    simp only [cStep]
    split
    · exact hmod _ m2 _ rfl ht
    · rfl

/-- an operation changes a list object only if it is an in-place change of it -/
theorem cStep_cell (p : Prog) (o : COp) (n : Nat) (hn : n < p.cells.length)
    (h : ∀ m k f, o = .base (.mutate m k f) → p.slot m k ≠ some (.cell n)) :
    (cStep p o).cells.getD n [] = p.cells.getD n [] := by
  cases o with
  | base o =>
    cases o with
    | mutate m k f =>
      simp only [cStep, mStep]
      split
      · rename_i n' hs
        exact modify_getD (by rintro rfl; exact h m k f rfl hs)
      · rfl
    | assign m k v => exact getD_prefix (allocVal_len v p.cells).2.2 hn
    | new c => rfl
    | bare c => rfl
    | del m k => rfl
    | setDefaults m => rfl
  | copy m =>
    simp only [cStep]
    split
    · exact getD_prefix (copySlots_len _ _ _) hn
    · rfl
  | share m k m2 k2 => simp only [cStep]; split <;> rfl

/-- an operation that is not about `x` does not change what `x` holds -/
theorem keep_self {p : Prog} (hw : ProgWF p) {x : Nat} (hx : x < p.msgs.length) (h : Separate p x) (o : COp)
    (ht : ¬ targets o x) (k : String) : (cStep p o).msgVal x k = p.msgVal x k := by
  rw [Prog.msgVal, Prog.msgVal, cStep_slot_same p o x hx ht]
  cases hs : p.slot x k with
  | none => rfl
  | some s =>
    cases s with
    | lit v => rfl
    | cell n =>
      simp only [Option.map_some, Prog.view]
      rw [cStep_cell p o n (hw.msgs _ _ _ hs)]
      rintro m k' f rfl hs'
      exact h.msgs k n m k' hs (fun e => ht e) hs'

/-- an operation on `x` that does not join anything changes nothing else -/
theorem keep_others {p : Prog} (hw : ProgWF p) {x : Nat} (h : Separate p x) (o : COp) (ht : targets o x) :
    (∀ m k, m ≠ x → m < p.msgs.length → (cStep p o).msgVal m k = p.msgVal m k) ∧
    ∀ c k, (cStep p o).clsVal c k = p.clsVal c k := by
  have hv : ∀ n, n < p.cells.length → (∀ k, p.slot x k ≠ some (.cell n)) →
      (cStep p o).cells.getD n [] = p.cells.getD n [] := by
    intro n hn hk
    refine cStep_cell p o n hn ?_
    rintro m k f rfl
    cases ht
    exact hk k
  refine ⟨fun m k hne hm => ?_, fun c k => ?_⟩
  · have hnt : ¬ targets o m := by
      intro ht'
      cases o with
      | base o => cases o <;> first | exact hne (ht'.symm.trans ht) | exact ht
      | copy _ => exact ht
      | share _ _ _ _ => exact hne (ht'.symm.trans ht)
    rw [Prog.msgVal, Prog.msgVal, cStep_slot_same p o m hm hnt]
    cases hs : p.slot m k with
    | none => rfl
    | some s =>
      cases s with
      | lit v => rfl
      | cell n =>
        simp only [Option.map_some, Prog.view]
        rw [hv n (hw.msgs _ _ _ hs) (fun k0 h0 => h.msgs k0 n m k h0 hne hs)]
  · rw [Prog.clsVal, Prog.clsVal, cStep_classes]
    cases hs : dget (p.classes.getD c []) k with
    | none => rfl
    | some s =>
      cases s with
      | lit v => rfl
      | cell n =>
        simp only [Option.map_some, Prog.view]
        rw [hv n (hw.classes _ _ _ hs) (fun k0 h0 => h.classes k0 n c k h0 hs)]

/-! ## C110 -/

/-- a program that can occur: classes are loaded, then operations are performed -/
def Occurs (p : Prog) : Prop :=
  ∃ (ds : List Dict) (os : List COp), (∀ d ∈ ds, DNodup d) ∧ p = cRun os (loadClasses ds ⟨[], [], []⟩)

theorem cRun_inv (os : List COp) : ∀ {p : Prog}, ProgWF p → ProgDict p → ProgWF (cRun os p) ∧ ProgDict (cRun os p) := by
  induction os with
  | nil => exact fun h1 h2 => ⟨h1, h2⟩
  | cons o os ih => exact fun h1 h2 => ih (cStep_wf o h1 h2) (cStep_dict o h2)

theorem allocDict_keys : ∀ (d : List (String × Val)) (cells : Cells), dkeys (allocDict d cells).1 = dkeys d
  | [], _ => rfl
  | (k, v) :: d, cells => by simp only [allocDict, dkeys_cons, allocDict_keys d]

theorem loadClasses_dict (ds : List Dict) : ∀ {p : Prog}, ProgDict p → (∀ d ∈ ds, DNodup d) → ProgDict (loadClasses ds p) := by
  induction ds with
  | nil => exact fun h _ => h
  | cons d ds ih =>
    intro p h hd
    refine ih ⟨h.1, fun d' hd' => ?_⟩ (fun d' h' => hd d' (List.mem_cons_of_mem _ h'))
    rcases List.mem_append.1 hd' with h1 | h1
    · exact h.2 d' h1
    · rw [List.mem_singleton] at h1
      subst h1
      have := hd d (List.mem_cons_self ..)
      simpa only [DNodup, allocDict_keys] using this

theorem occurs_inv {p : Prog} (h : Occurs p) : ProgWF p ∧ ProgDict p := by
  obtain ⟨ds, os, hd, rfl⟩ := h
  exact cRun_inv os (loadClasses_wf ds ⟨by simp [Prog.slot], by simp [dget]⟩)
    (loadClasses_dict ds ⟨by simp, by simp⟩ hd)

/-- C110: a copy is of the same class and has the same parameters with the same values; making it changes no message and
no class. -/
theorem C110_equal {p : Prog} (hp : Occurs p) {m : Nat} {md : Nat × Assoc Slot} (hm : p.msgs[m]? = some md) :
    let q := cStep p (.copy m)
    q.msgs.length = p.msgs.length + 1 ∧ (q.msgs[p.msgs.length]?).map Prod.fst = some md.1 ∧
    (∀ k, q.msgVal p.msgs.length k = p.msgVal m k) ∧
    (∀ m' k, m' < p.msgs.length → q.msgVal m' k = p.msgVal m' k) ∧ ∀ c k, q.clsVal c k = p.clsVal c k := by
  obtain ⟨hw, hd⟩ := occurs_inv hp
  have hs := copy_spec hw hm (hd.1 md (List.mem_of_getElem? hm))
  have hq : cStep p (.copy m) = { p with
        cells := (copySlots md.2 [] p.cells).2
        msgs := p.msgs ++ [(md.1, (copySlots md.2 [] p.cells).1)] } := by simp only [cStep, hm]
  have hcell : ∀ n, n < p.cells.length → (cStep p (.copy m)).cells.getD n [] = p.cells.getD n [] := by
    intro n hn
    exact cStep_cell p _ n hn (by intro _ _ _ e; cases e)
  refine ⟨by rw [hq]; simp, by rw [hq]; simp, fun k => ?_, fun m' k hm' => ?_, fun c k => ?_⟩
  · have h1 : (cStep p (.copy m)).slot p.msgs.length k = dget (copySlots md.2 [] p.cells).1 k := by
      rw [hq]
      have : Prog.slot { p with msgs := p.msgs ++ [(md.1, (copySlots md.2 [] p.cells).1)] } p.msgs.length k =
        dget (copySlots md.2 [] p.cells).1 k := by rw [slot_append, if_pos rfl]
      exact this
    have h2 : p.slot m k = dget md.2 k := by simp [Prog.slot, hm]
    rw [Prog.msgVal, Prog.msgVal, h1, h2]
    cases hg : dget md.2 k with
    | none =>
      rw [dget_eq_none_iff, ← hs.2.1, ← dget_eq_none_iff] at hg
      rw [hg]; rfl
    | some s =>
      cases s with
      | lit v => rw [(hs.2.2 k).1 v hg]; rfl
      | cell n =>
        obtain ⟨n', a, -, -, b⟩ := (hs.2.2 k).2 n hg
        rw [a]
        simp only [Option.map_some, Prog.view]
        rw [hq]
        exact congrArg (fun l => some (Val.list l)) b
  · rw [Prog.msgVal, Prog.msgVal, cStep_slot_same p (.copy m) m' hm' (fun h => h)]
    cases h : p.slot m' k with
    | none => rfl
    | some s =>
      cases s with
      | lit v => rfl
      | cell n => simp only [Option.map_some, Prog.view]; rw [hcell n (hw.msgs _ _ _ h)]
  · rw [Prog.clsVal, Prog.clsVal, cStep_classes]
    cases h : dget (p.classes.getD c []) k with
    | none => rfl
    | some s =>
      cases s with
      | lit v => rfl
      | cell n => simp only [Option.map_some, Prog.view]; rw [hcell n (hw.classes _ _ _ h)]

/-- a fresh copy shares nothing -/
theorem copy_separate {p : Prog} (hp : Occurs p) {m : Nat} {md : Nat × Assoc Slot} (hm : p.msgs[m]? = some md) :
    Separate (cStep p (.copy m)) p.msgs.length := by
  obtain ⟨hw, hd⟩ := occurs_inv hp
  have key : ∀ k n, (cStep p (.copy m)).slot p.msgs.length k = some (.cell n) → p.cells.length ≤ n := by
    intro k n hs
    rcases cStep_slot hw hd _ _ k _ hs with h1 | ⟨c, ho, _, _⟩ | ⟨c, ho, _⟩ | ⟨v, ho, _⟩ | ⟨m0, ho, _, h1⟩ | ⟨m1, k1, ho, _⟩
    · simp [Prog.slot] at h1
    · cases ho
    · cases ho
    · cases ho
    · exact (h1 n rfl).1
    · cases ho
  constructor
  · intro k n m' k' hs hne hs'
    have h1 := key k n hs
    rcases cStep_slot hw hd _ _ k' _ hs' with h2 | ⟨c, ho, _, _⟩ | ⟨c, ho, _⟩ | ⟨v, ho, _⟩ | ⟨m0, _, e, _⟩ | ⟨m1, k1, ho, _⟩
    · exact absurd (hw.msgs _ _ _ h2) (by omega)
    · cases ho
    · cases ho
    · cases ho
    · exact hne e
    · cases ho
  · intro k n c k' hs hs'
    rw [cStep_classes] at hs'
    exact absurd (hw.classes _ _ _ hs') (by have := key k n hs; omega)

/-- everything that matters about a state after the copy was made -/
structure After (q : Prog) (x : Nat) : Prop where
  wf : ProgWF q
  dict : ProgDict q
  lt : x < q.msgs.length
  sep : Separate q x

theorem after_run (os : List COp) : ∀ {q : Prog} {x : Nat}, After q x → (∀ o ∈ os, ¬ joins o x) → After (cRun os q) x := by
  induction os with
  | nil => exact fun h _ => h
  | cons o os ih =>
    intro q x h hj
    have ho := hj o (List.mem_cons_self ..)
    exact ih ⟨cStep_wf o h.wf h.dict, cStep_dict o h.dict, Nat.lt_of_lt_of_le h.lt (cStep_msgs q o),
      separate_step h.wf h.dict h.lt h.sep o ho⟩ (fun o' h' => hj o' (List.mem_cons_of_mem _ h'))

theorem after_copy {p : Prog} (hp : Occurs p) {m : Nat} {md : Nat × Assoc Slot} (hm : p.msgs[m]? = some md) :
    After (cStep p (.copy m)) p.msgs.length := by
  obtain ⟨hw, hd⟩ := occurs_inv hp
  refine ⟨cStep_wf _ hw hd, cStep_dict _ hd, ?_, copy_separate hp hm⟩
  rw [(C110_equal hp hm).1]; omega

/-- C110: in every program, as long as nothing is shared anew with the copy, no operation on another message (in-place
changes of its lists included) changes the copy. -/
theorem C110_copy_unaffected {p : Prog} (hp : Occurs p) {m : Nat} {md : Nat × Assoc Slot} (hm : p.msgs[m]? = some md)
    (os : List COp) (hj : ∀ o ∈ os, ¬ joins o p.msgs.length) (ht : ∀ o ∈ os, ¬ targets o p.msgs.length) (k : String) :
    (cRun os (cStep p (.copy m))).msgVal p.msgs.length k = p.msgVal m k := by
  rw [← (C110_equal hp hm).2.2.1 k]
  have ha := after_copy hp hm
  generalize cStep p (.copy m) = q at *
  generalize p.msgs.length = x at *
  clear hm hp
  induction os generalizing q with
  | nil => rfl
  | cons o os ih =>
    have h1 := hj o (List.mem_cons_self ..)
    have h2 := ht o (List.mem_cons_self ..)
    rw [cRun, ih (cStep q o) (fun o' h' => hj o' (List.mem_cons_of_mem _ h')) (fun o' h' => ht o' (List.mem_cons_of_mem _ h'))
      (after_run [o] ha (by simpa using h1))]
    exact keep_self ha.wf ha.lt ha.sep o h2 k

/-- C110: and no operation on the copy changes another message, or a class. -/
theorem C110_others_unaffected {p : Prog} (hp : Occurs p) {m : Nat} {md : Nat × Assoc Slot} (hm : p.msgs[m]? = some md)
    (os : List COp) (hj : ∀ o ∈ os, ¬ joins o p.msgs.length) (ht : ∀ o ∈ os, targets o p.msgs.length) :
    (∀ m' k, m' < p.msgs.length → (cRun os (cStep p (.copy m))).msgVal m' k = p.msgVal m' k) ∧
    ∀ c k, (cRun os (cStep p (.copy m))).clsVal c k = p.clsVal c k := by
  have he := (C110_equal hp hm).2.2.2
  have ha := after_copy hp hm
  suffices h : ∀ (q : Prog), After q p.msgs.length →
      (∀ m' k, m' < p.msgs.length → (cRun os q).msgVal m' k = q.msgVal m' k) ∧ ∀ c k, (cRun os q).clsVal c k = q.clsVal c k by
    obtain ⟨h1, h2⟩ := h _ ha
    exact ⟨fun m' k hl => (h1 m' k hl).trans (he.1 m' k hl), fun c k => (h2 c k).trans (he.2 c k)⟩
  clear he ha
  induction os with
  | nil => exact fun q _ => ⟨fun _ _ _ => rfl, fun _ _ => rfl⟩
  | cons o os ih =>
    intro q ha
    have h1 := hj o (List.mem_cons_self ..)
    have h2 := ht o (List.mem_cons_self ..)
    obtain ⟨i1, i2⟩ := ih (fun o' h' => hj o' (List.mem_cons_of_mem _ h')) (fun o' h' => ht o' (List.mem_cons_of_mem _ h')) _
      (after_run [o] ha (by simpa using h1))
    obtain ⟨k1, k2⟩ := keep_others ha.wf ha.sep o h2
    have hl := ha.lt
    exact ⟨fun m' k hm' => (i1 m' k hm').trans (k1 m' k (by omega) (by omega)), fun c k => (i2 c k).trans (k2 c k)⟩

/-- C110 is false for the other ways of making a message from another: after `m2[k2] = m[k]`, and so after `update` and
`Cls(**m.to_dict())`, an in-place change of the list of one is a change of the other. -/
theorem C110_counterexample_share (p : Prog) (m : Nat) (k : String) (n : Nat) (c : Nat) (f : List Val → List Val)
    (hs : p.slot m k = some (.cell n)) (hn : n < p.cells.length) :
    (cRun [.base (.bare c), .share m k p.msgs.length k, .base (.mutate p.msgs.length k f)] p).msgVal m k =
      some (.list (f (p.cells.getD n []))) := by
  have hm : m < p.msgs.length := by
    apply Classical.byContradiction; intro hc
    simp [Prog.slot, List.getElem?_eq_none (Nat.not_lt.mp hc)] at hs
  have h1 : (cStep p (.base (.bare c))).slot m k = some (.cell n) := by
    simp only [cStep, mStep]; rw [slot_append, if_neg (by omega)]; exact hs
  have h2 : cStep (cStep p (.base (.bare c))) (.share m k p.msgs.length k) =
      (cStep p (.base (.bare c))).modify p.msgs.length (fun _ d => dset d k (.cell n)) := by
    simp only [cStep] at h1 ⊢; simp only [h1]
  have h3 : ((cStep p (.base (.bare c))).modify p.msgs.length (fun _ d => dset d k (.cell n))).slot p.msgs.length k =
      some (.cell n) := by
    rw [slot_modify]; simp [cStep, mStep, dget_dset_same]
  have h4 : ((cStep p (.base (.bare c))).modify p.msgs.length (fun _ d => dset d k (.cell n))).slot m k =
      some (.cell n) := by
    rw [slot_modify]
    have : (cStep p (.base (.bare c))).msgs[m]? = p.msgs[m]? := by
      simp [cStep, mStep, List.getElem?_append_left hm]
    rw [this]
    have hs' := hs
    unfold Prog.slot at hs'
    cases he : p.msgs[m]? with
    | none => rw [he] at hs'; cases hs'
    | some md => rw [he] at hs'; simp only [if_neg (show ¬ p.msgs.length = m by omega)]; exact hs'
  simp only [cRun]
  rw [h2]
  generalize hq : (cStep p (.base (.bare c))).modify p.msgs.length (fun _ d => dset d k (.cell n)) = q at *
  have hc : q.cells = p.cells := by subst hq; rfl
  have : cStep q (.base (.mutate p.msgs.length k f)) = { q with cells := q.cells.modify n f } := by
    simp only [cStep, mStep, h3]
  rw [this, Prog.msgVal]
  have : Prog.slot { q with cells := q.cells.modify n f } m k = some (.cell n) := h4
  rw [this]
  simp only [Option.map_some, Prog.view, hc]
  rw [modify_getD_same hn]

/-- `RegistrationRequest` with its list default and an assigned list -/
def copyDemo : Prog := cRun [.base (.new 0), .base (.assign 0 "contacts" (.list [.str "a"]))] regProg

example : Occurs copyDemo :=
  ⟨[oidc_RegistrationRequest.default], _, by intro d hd; rw [List.mem_singleton] at hd; subst hd; decide +kernel, rfl⟩
example : copyDemo.msgs[0]? = some (0, copyDemo.msgs[0]!.2) ∧ copyDemo.msgs.length = 1 ∧
    copyDemo.msgVal 0 "contacts" = some (.list [.str "a"]) := by decide +kernel
example : (cRun [.copy 0, .base (.mutate 1 "contacts" (· ++ [.str "b"])), .base (.mutate 0 "response_types" (fun _ => []))]
    copyDemo).msgVal 1 "response_types" = some (.list [.str "code"]) := by decide +kernel
example : (cRun [.base (.bare 0), .share 0 "contacts" 1 "contacts", .base (.mutate 1 "contacts" (· ++ [.str "b"]))]
    copyDemo).msgVal 0 "contacts" = some (.list [.str "a", .str "b"]) := by decide +kernel

end Verif
