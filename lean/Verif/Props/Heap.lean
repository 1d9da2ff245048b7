import Verif.Model.Heap
import Verif.Props.Tokens
import Verif.Props.C01_C05

/-!
# Shared objects: C61, C65, C66
-/

namespace Verif

/-! ## C61 -/

/-- nothing that existed before is changed; objects are only added -/
theorem addIssuerLoop_frame (issuer : String) (conf : List (String × SecVal)) :
    ∀ res h, h <+: (addIssuerLoop issuer conf res h).2 := by
  induction conf with
  | nil => intro res h; exact List.prefix_refl _
  | cons p rest ih =>
    obtain ⟨key, val⟩ := p
    intro res h
    unfold addIssuerLoop
    split
    · exact ih _ _
    · split
      · exact (List.prefix_append h _).trans (ih _ _)
      · exact List.prefix_refl _

/-- C61: the input is not modified, also when an exception is raised: every dictionary object that existed is as
before. -/
theorem C61_input (conf : Assoc SecVal) (issuer : String) (h : Objs) (n : Nat) (hn : n < h.length) :
    (addIssuer conf issuer h).2[n]? = h[n]? := by
  obtain ⟨t, ht⟩ := addIssuerLoop_frame issuer conf [] h
  unfold addIssuer
  rw [← ht, List.getElem?_append_left hn]

theorem addIssuerLoop_keeps (issuer : String) (conf : List (String × SecVal)) :
    ∀ res h r h' k, addIssuerLoop issuer conf res h = (.ok r, h') → k ∉ dkeys conf → dget r k = dget res k := by
  induction conf with
  | nil => intro res h r h' k e _; simp [addIssuerLoop] at e; rw [e.1]
  | cons p rest ih =>
    obtain ⟨key, val⟩ := p
    intro res h r h' k e hk
    simp only [dkeys, List.map_cons, List.mem_cons, not_or] at hk
    unfold addIssuerLoop at e
    split at e
    · rw [ih _ _ _ _ k e hk.2, dget_dset_ne _ _ (fun x => hk.1 x.symm)]
    · split at e
      · rw [ih _ _ _ _ k e hk.2, dget_dset_ne _ _ (fun x => hk.1 x.symm)]
      · simp at e

theorem addIssuerLoop_spec (issuer : String) (conf : List (String × SecVal)) :
    ∀ res h r h', addIssuerLoop issuer conf res h = (.ok r, h') → DNodup conf → DNodup res →
      (∀ k ∈ dkeys conf, k ∉ dkeys res) →
      dkeys r = dkeys res ++ dkeys conf ∧
      ∀ key val, (key, val) ∈ conf →
        (key = "abstract_storage_cls" → dget r key = some val) ∧
        (key ≠ "abstract_storage_cls" → ∃ n n' d, val = .obj n ∧ dget r key = some (.obj n') ∧ h.length ≤ n' ∧
          (∃ g, h <+: g ∧ d = g.getD n []) ∧
          h'[n']? = some (dset d "issuer" (.str (quotePlus issuer)))) := by
  induction conf with
  | nil => intro res h r h' e _ _ _; simp [addIssuerLoop] at e; simp [e.1, dkeys]
  | cons p rest ih =>
    obtain ⟨key, val⟩ := p
    intro res h r h' e hd hr hdis
    have hd' : key ∉ dkeys rest ∧ DNodup rest := by simpa [DNodup, dkeys] using hd
    have hkr : key ∉ dkeys res := hdis key (by simp [dkeys])
    have hk : ∀ v : SecVal, dkeys (dset res key v) = dkeys res ++ [key] := by
      intro v; rw [dkeys_dset]; simp [hkr]
    have hdis' : ∀ v : SecVal, ∀ k ∈ dkeys rest, k ∉ dkeys (dset res key v) := by
      intro v k hk'
      rw [hk]
      simp only [List.mem_append, List.mem_singleton, not_or]
      refine ⟨hdis k ?_, ?_⟩
      · simp only [dkeys, List.map_cons, List.mem_cons]; exact .inr hk'
      · rintro rfl; exact hd'.1 hk'
    unfold addIssuerLoop at e
    split at e
    · rename_i hc
      obtain ⟨h1, h2⟩ := ih _ _ _ _ e hd'.2 (dset_nodup hr _ _) (hdis' _)
      refine ⟨by rw [h1, hk]; simp [dkeys], ?_⟩
      intro key' val' hm
      rcases List.mem_cons.mp hm with hm | hm
      · cases hm
        refine ⟨fun _ => ?_, fun h => absurd hc h⟩
        rw [addIssuerLoop_keeps _ _ _ _ _ _ _ e hd'.1, dget_dset_same]
      · exact h2 _ _ hm
    · rename_i hc
      split at e
      · rename_i n
        obtain ⟨h1, h2⟩ := ih _ _ _ _ e hd'.2 (dset_nodup hr _ _) (hdis' _)
        refine ⟨by rw [h1, hk]; simp [dkeys], ?_⟩
        intro key' val' hm
        rcases List.mem_cons.mp hm with hm | hm
        · cases hm
          refine ⟨fun h => absurd h hc, fun _ => ?_⟩
          refine ⟨n, h.length, h.getD n [], rfl, ?_, Nat.le_refl _, ⟨h, List.prefix_refl _, rfl⟩, ?_⟩
          · rw [addIssuerLoop_keeps _ _ _ _ _ _ _ e hd'.1, dget_dset_same]
          · have hf := addIssuerLoop_frame issuer rest (dset res key (.obj h.length))
              (h ++ [dset (h.getD n []) "issuer" (.str (quotePlus issuer))])
            rw [e] at hf
            obtain ⟨t, ht⟩ := hf
            simp only at ht
            rw [← ht]
            simp
        · obtain ⟨g1, g2⟩ := h2 _ _ hm
          refine ⟨g1, fun hne => ?_⟩
          obtain ⟨n1, n2, d, a1, a2, a3, ⟨g, a4, a5⟩, a6⟩ := g2 hne
          refine ⟨n1, n2, d, a1, a2, ?_, ⟨g, (List.prefix_append _ _).trans a4, a5⟩, a6⟩
          simp at a3; omega
      · simp at e

/-- C61: the result has the same sections in the same order; the class name is passed on; every other section is a new
dictionary with the percent-encoded issuer and all the other settings of the old one. -/
theorem C61_sections (conf : Assoc SecVal) (issuer : String) (h : Objs) (r : Assoc SecVal) (h' : Objs)
    (e : addIssuer conf issuer h = (.ok r, h')) (hd : DNodup conf) (hw : ∀ k n, (k, .obj n) ∈ conf → n < h.length) :
    dkeys r = dkeys conf ∧
    (∀ val, ("abstract_storage_cls", val) ∈ conf → dget r "abstract_storage_cls" = some val) ∧
    (∀ key val, (key, val) ∈ conf → key ≠ "abstract_storage_cls" →
      ∃ n n' d d', val = .obj n ∧ h[n]? = some d ∧ dget r key = some (.obj n') ∧ h.length ≤ n' ∧ h'[n']? = some d' ∧
        dget d' "issuer" = some (.str (quotePlus issuer)) ∧ ∀ k, k ≠ "issuer" → dget d' k = dget d k) := by
  obtain ⟨h1, h2⟩ := addIssuerLoop_spec issuer conf [] h r h' e hd (by simp [DNodup, dkeys]) (by simp [dkeys])
  refine ⟨by simpa [dkeys] using h1, fun val hm => (h2 _ _ hm).1 rfl, fun key val hm hne => ?_⟩
  obtain ⟨n, n', d, a1, a2, a3, ⟨g, ⟨t, a4⟩, a5⟩, a6⟩ := (h2 _ _ hm).2 hne
  subst a1
  have hn := hw _ _ hm
  refine ⟨n, n', d, _, rfl, ?_, a2, a3, a6, dget_dset_same _ _ _, fun k hk => dget_dset_ne _ _ (fun x => hk x.symm)⟩
  rw [a5, ← a4, List.getD_eq_getElem?_getD, List.getElem?_append_left hn, List.getElem?_eq_getElem hn]
  rfl

/-- C61: it fails, with a `TypeError`, exactly when some other section is not a dictionary. -/
theorem C61_errors (conf : Assoc SecVal) (issuer : String) (h : Objs) :
    ((∃ e, (addIssuer conf issuer h).1 = .error e) ↔ ∃ k v, (k, .other v) ∈ conf ∧ k ≠ "abstract_storage_cls") ∧
      ∀ e, (addIssuer conf issuer h).1 = .error e → e = .typeError := by
  unfold addIssuer
  generalize ([] : Assoc SecVal) = res
  induction conf generalizing res h with
  | nil => simp [addIssuerLoop]
  | cons p rest ih =>
    obtain ⟨key, val⟩ := p
    unfold addIssuerLoop
    split
    · rename_i hc
      refine ⟨(ih _ _).1.trans ?_, (ih _ _).2⟩
      constructor
      · rintro ⟨k, v, hm, hk⟩; exact ⟨k, v, by simp [hm], hk⟩
      · rintro ⟨k, v, hm, hk⟩
        rcases List.mem_cons.mp hm with hm | hm
        · cases hm; exact absurd hc hk
        · exact ⟨k, v, hm, hk⟩
    · rename_i hc
      split
      · refine ⟨(ih _ _).1.trans ?_, (ih _ _).2⟩
        constructor
        · rintro ⟨k, v, hm, hk⟩; exact ⟨k, v, by simp [hm], hk⟩
        · rintro ⟨k, v, hm, hk⟩
          rcases List.mem_cons.mp hm with hm | hm
          · cases hm
          · exact ⟨k, v, hm, hk⟩
      · rename_i v
        exact ⟨⟨fun _ => ⟨key, v, by simp, hc⟩, fun _ => ⟨_, rfl⟩⟩, by simp⟩

example : addIssuer [("default", .obj 0), ("abstract_storage_cls", .other (.str "x.Y"))] "https://a/" [[("fdir", .str "db")]]
    = (.ok [("default", .obj 1), ("abstract_storage_cls", .other (.str "x.Y"))],
        [[("fdir", .str "db")], [("fdir", .str "db"), ("issuer", .str "https%3A%2F%2Fa%2F")]]) := by decide +kernel

/-! ## C65 -/

theorem modify_getD {l : Cells} {n : Nat} {f : List Val → List Val} {m : Nat} (h : m ≠ n) :
    (l.modify n f).getD m [] = l.getD m [] := by
  simp [List.getD_eq_getElem?_getD, List.getElem?_modify, h.symm]

theorem modify_getD_same {l : Cells} {n : Nat} {f : List Val → List Val} (h : n < l.length) :
    (l.modify n f).getD n [] = f (l.getD n []) := by
  simp [List.getD_eq_getElem?_getD, List.getElem?_modify, h]

/-- C65 fails for every class with a list among its defaults: a change of the list of one instance is a change of the
class default and of the list of every other instance that was made with the defaults. -/
theorem C65_counterexample (p : Prog) (c : Nat) (k : String) (n : Nat) (f : List Val → List Val)
    (hc : dget (p.classes.getD c []) k = some (.cell n)) (hn : n < p.cells.length) :
    let q := mRun [.new c, .new c, .mutate p.msgs.length k f] p
    q.msgVal (p.msgs.length + 1) k = some (.list (f (p.cells.getD n []))) ∧
      q.clsVal c k = some (.list (f (p.cells.getD n []))) ∧
      (mStep q (.new c)).msgVal (p.msgs.length + 2) k = some (.list (f (p.cells.getD n []))) := by
  have hs : ((mRun [.new c, .new c] p).slot p.msgs.length k) = some (.cell n) := by
    simp [mRun, mStep, Prog.slot, hc, -List.getD_eq_getElem?_getD]
  have : mRun [.new c, .new c, .mutate p.msgs.length k f] p =
      { mRun [.new c, .new c] p with cells := p.cells.modify n f } := by
    show mStep (mRun [.new c, .new c] p) (.mutate p.msgs.length k f) = _
    simp only [mStep, hs]
    simp [mRun, mStep]
  simp only [this]
  have hv : (p.cells.modify n f).getD n [] = f (p.cells.getD n []) := modify_getD_same hn
  refine ⟨?_, ?_, ?_⟩
  · simp [mRun, mStep, Prog.msgVal, Prog.slot, hc, Prog.view, hv, -List.getD_eq_getElem?_getD]
  · simp [mRun, mStep, Prog.clsVal, Prog.view, hc, hv, -List.getD_eq_getElem?_getD]
  · simp [mRun, mStep, Prog.msgVal, Prog.slot, hc, Prog.view, hv, -List.getD_eq_getElem?_getD]

/-- the class `RegistrationRequest` -/
def regProg : Prog := loadClasses [oidc_RegistrationRequest.default] ⟨[], [], []⟩

/-- C65 fails in the library: `RegistrationRequest()["response_types"].append("token")` changes what the next
`RegistrationRequest()` is. -/
theorem C65_registration :
    (mRun [.new 0, .mutate 0 "response_types" (· ++ [.str "token"]), .new 0] regProg).msgVal 1 "response_types" =
      some (.list [.str "code", .str "token"]) ∧
    (mRun [.new 0, .new 0] regProg).msgVal 1 "response_types" = some (.list [.str "code"]) := by
  decide +kernel

/-- the slot holds the list object `n` -/
def Prog.holds (p : Prog) (n m : Nat) (k : String) : Prop := p.slot m k = some (.cell n)

/-- `n` belongs to the message `m` at `k` alone -/
structure Private (p : Prog) (n m : Nat) (k : String) : Prop where
  holds : p.slot m k = some (.cell n)
  lt : n < p.cells.length
  alone : ∀ m' k', p.slot m' k' = some (.cell n) → m' = m ∧ k' = k
  noClass : ∀ c k', dget (p.classes.getD c []) k' ≠ some (.cell n)

/-- all addresses are allocated -/
structure ProgWF (p : Prog) : Prop where
  msgs : ∀ m k n, p.slot m k = some (.cell n) → n < p.cells.length
  classes : ∀ c k n, dget (p.classes.getD c []) k = some (.cell n) → n < p.cells.length

theorem slot_modify (p : Prog) (m : Nat) (f : Nat → Assoc Slot → Assoc Slot) (m' : Nat) (k : String) :
    (p.modify m f).slot m' k =
      match p.msgs[m']? with
      | some md => if m = m' then dget (f md.1 md.2) k else dget md.2 k
      | none => none := by
  simp only [Prog.slot, Prog.modify, List.getElem?_modify]
  cases p.msgs[m']? with
  | none => simp
  | some md => by_cases h : m = m' <;> simp [h]

theorem slot_append (p : Prog) (c : Nat) (d : Assoc Slot) (m : Nat) (k : String) :
    Prog.slot { p with msgs := p.msgs ++ [(c, d)] } m k =
      if m = p.msgs.length then dget d k else p.slot m k := by
  simp only [Prog.slot]
  rcases Nat.lt_trichotomy m p.msgs.length with h | h | h
  · rw [List.getElem?_append_left h, if_neg (by omega)]
  · subst h; simp
  · rw [if_neg (by omega), List.getElem?_eq_none (by simp; omega), List.getElem?_eq_none (by omega)]

theorem allocVal_slot {v : Val} {cells : Cells} {n : Nat} (h : (allocVal v cells).1 = .cell n) :
    n = cells.length ∧ ∃ l, v = .list l := by
  unfold allocVal at h
  split at h
  · simp at h; exact ⟨h.symm, _, rfl⟩
  · simp at h

theorem allocVal_len (v : Val) (cells : Cells) : cells.length ≤ (allocVal v cells).2.length ∧
    (∀ n, (allocVal v cells).1 = .cell n → n < (allocVal v cells).2.length) ∧ cells <+: (allocVal v cells).2 := by
  unfold allocVal
  split
  · refine ⟨by simp, ?_, List.prefix_append _ _⟩
    intro n h; simp at h; simp; omega
  · exact ⟨Nat.le_refl _, by simp, List.prefix_refl _⟩

/-- `set_defaults` gives a slot of the message or one of the class -/
theorem setDefaultsLoop_get (ds : List (String × Slot)) (d : Assoc Slot) (k : String) :
    dget (setDefaultsLoop ds d) k = match dget d k with
      | some s => some s
      | none => dget ds k := by
  induction ds generalizing d with
  | nil => cases h : dget d k <;> simp [setDefaultsLoop, dget, h]
  | cons p rest ih =>
    obtain ⟨k', s⟩ := p
    simp only [setDefaultsLoop]
    rw [ih]
    by_cases hh : dhas d k'
    · rw [if_pos hh]
      cases h : dget d k with
      | some s => rfl
      | none =>
        have : k' ≠ k := by rintro rfl; simp [dhas, h] at hh
        simp [dget, this]
    · rw [if_neg hh, dget_dset]
      by_cases hk : k' = k
      · subst hk
        have : dget d k' = none := by simpa [dhas] using hh
        simp [dget, this]
      · have hk' : ¬ k = k' := fun e => hk e.symm
        cases h : dget d k <;> simp [dget, hk, h]

theorem mStep_classes (p : Prog) (o : MOp) : (mStep p o).classes = p.classes := by
  cases o with
  | mutate m k f => simp only [mStep]; split <;> rfl
  | _ => rfl

theorem mStep_len (p : Prog) (o : MOp) : p.cells.length ≤ (mStep p o).cells.length := by
  cases o with
  | mutate m k f => simp only [mStep]; split <;> simp
  | assign m k v => exact (allocVal_len v p.cells).1
  | _ => exact Nat.le_refl _

/-- where the slots come from -/
theorem mStep_slot (p : Prog) (o : MOp) (m : Nat) (k : String) (s : Slot) (h : (mStep p o).slot m k = some s) :
    p.slot m k = some s ∨ (∃ c, dget (p.classes.getD c []) k = some s) ∨
      (∃ v, o = .assign m k v ∧ s = (allocVal v p.cells).1) := by
  cases o with
  | new c =>
    simp only [mStep] at h
    rw [slot_append] at h
    split at h
    · exact .inr (.inl ⟨c, h⟩)
    · exact .inl h
  | bare c =>
    simp only [mStep] at h
    rw [slot_append] at h
    split at h
    · simp [dget] at h
    · exact .inl h
  | assign m' k' v =>
    simp only [mStep] at h
    rw [slot_modify] at h
    simp only [Prog.slot]
    split at h
    · rename_i md e
      simp only at e
      rw [e]
      split at h
      · rename_i hm
        subst hm
        rw [dget_dset] at h
        split at h
        · rename_i hk
          subst hk
          simp at h
          exact .inr (.inr ⟨v, rfl, h.symm⟩)
        · exact .inl h
      · exact .inl h
    · simp at h
  | del m' k' =>
    simp only [mStep] at h
    rw [slot_modify] at h
    simp only [Prog.slot]
    split at h
    · rename_i md e
      rw [e]
      split at h
      · rw [dget_ddel] at h
        split at h
        · simp at h
        · exact .inl h
      · exact .inl h
    · simp at h
  | setDefaults m' =>
    simp only [mStep] at h
    rw [slot_modify] at h
    simp only [Prog.slot]
    split at h
    · rename_i md e
      rw [e]
      split at h
      · rw [setDefaultsLoop_get] at h
        split at h
        · rename_i s' hs; simp only; rw [hs]; exact .inl h
        · exact .inr (.inl ⟨md.1, h⟩)
      · exact .inl h
    · simp at h
  | mutate m' k' f =>
    simp only [mStep] at h
    split at h
    · exact .inl h
    · exact .inl h

theorem mStep_wf {p : Prog} (o : MOp) (h : ProgWF p) : ProgWF (mStep p o) := by
  constructor
  · intro m k n hs
    rcases mStep_slot p o m k _ hs with h1 | ⟨c, h1⟩ | ⟨v, rfl, h1⟩
    · exact Nat.lt_of_lt_of_le (h.msgs _ _ _ h1) (mStep_len p o)
    · exact Nat.lt_of_lt_of_le (h.classes _ _ _ h1) (mStep_len p o)
    · exact (allocVal_len v p.cells).2.1 n h1.symm
  · intro c k n hs
    rw [mStep_classes] at hs
    exact Nat.lt_of_lt_of_le (h.classes _ _ _ hs) (mStep_len p o)

theorem mRun_wf {p : Prog} (os : List MOp) (h : ProgWF p) : ProgWF (mRun os p) := by
  induction os generalizing p with
  | nil => exact h
  | cons o os ih => exact ih (mStep_wf o h)

theorem allocDict_spec (d : List (String × Val)) : ∀ cells, cells.length ≤ (allocDict d cells).2.length ∧
    ∀ k n, dget (allocDict d cells).1 k = some (.cell n) → n < (allocDict d cells).2.length := by
  induction d with
  | nil => intro cells; simp [allocDict, dget]
  | cons p rest ih =>
    obtain ⟨k, v⟩ := p
    intro cells
    have h1 := allocVal_len v cells
    have h2 := ih (allocVal v cells).2
    refine ⟨Nat.le_trans h1.1 h2.1, ?_⟩
    intro k' n h
    simp only [allocDict, dget] at h
    split at h
    · simp at h; exact Nat.lt_of_lt_of_le (h1.2.1 n h) h2.1
    · exact h2.2 k' n h

theorem loadClasses_wf (ds : List Dict) {p : Prog} (h : ProgWF p) : ProgWF (loadClasses ds p) := by
  induction ds generalizing p with
  | nil => exact h
  | cons d ds ih =>
    refine ih ?_
    have h1 := allocDict_spec d p.cells
    constructor
    · intro m k n hs; exact Nat.lt_of_lt_of_le (h.msgs m k n hs) h1.1
    · intro c k n hs
      simp only at hs
      rcases Nat.lt_trichotomy c p.classes.length with hc | hc | hc
      · rw [List.getD_eq_getElem?_getD, List.getElem?_append_left hc, ← List.getD_eq_getElem?_getD] at hs
        exact Nat.lt_of_lt_of_le (h.classes c k n hs) h1.1
      · subst hc
        simp at hs
        exact h1.2 k n hs
      · rw [List.getD_eq_getElem?_getD, List.getElem?_eq_none (by simp; omega)] at hs
        simp [dget] at hs

/-- an assigned list is the message's own -/
theorem assign_private {p : Prog} (h : ProgWF p) {m : Nat} (hm : m < p.msgs.length) (k : String) (l : List Val) :
    Private (mStep p (.assign m k (.list l))) p.cells.length m k := by
  constructor
  · simp only [mStep, allocVal]
    rw [slot_modify]
    simp [hm, dget_dset_same]
  · simp [mStep, allocVal, Prog.modify]
  · intro m' k' hs
    rcases mStep_slot p _ m' k' _ hs with h1 | ⟨c, h1⟩ | ⟨v, e, _⟩
    · exact absurd (h.msgs _ _ _ h1) (by omega)
    · exact absurd (h.classes _ _ _ h1) (by omega)
    · simp at e; exact ⟨e.1.symm, e.2.1.symm⟩
  · intro c k' hs
    rw [mStep_classes] at hs
    exact absurd (h.classes _ _ _ hs) (by omega)

theorem holds_step {p : Prog} {m : Nat} {k : String} {s : Slot} (o : MOp)
    (h : p.slot m k = some s) (hd : o ≠ .del m k) (ha : ∀ v, o ≠ .assign m k v) :
    (mStep p o).slot m k = some s := by
  have hm : m < p.msgs.length := by
    apply Classical.byContradiction; intro hc
    simp [Prog.slot, List.getElem?_eq_none (Nat.not_lt.mp hc)] at h
  have he : p.msgs[m]? = some p.msgs[m] := by simp [hm]
  have h' : dget p.msgs[m].2 k = some s := by simpa [Prog.slot, he] using h
  cases o with
  | new c => simp only [mStep]; rw [slot_append, if_neg (by omega)]; exact h
  | bare c => simp only [mStep]; rw [slot_append, if_neg (by omega)]; exact h
  | assign m' k' v =>
    simp only [mStep]
    rw [slot_modify]
    simp only [he]
    split
    · rename_i hx
      subst hx
      rw [dget_dset_ne _ _ (by rintro rfl; exact ha v rfl)]; exact h'
    · exact h'
  | del m' k' =>
    simp only [mStep]
    rw [slot_modify]
    simp only [he]
    split
    · rename_i hx
      subst hx
      rw [dget_ddel_ne _ (by rintro rfl; exact hd rfl)]; exact h'
    · exact h'
  | setDefaults m' =>
    simp only [mStep]
    rw [slot_modify]
    simp only [he]
    split
    · rw [setDefaultsLoop_get, h']
    · exact h'
  | mutate m' k' f => simp only [mStep]; split <;> exact h

theorem private_step {p : Prog} {n m : Nat} {k : String} (o : MOp) (h : Private p n m k)
    (hd : o ≠ .del m k) (ha : ∀ v, o ≠ .assign m k v) : Private (mStep p o) n m k := by
  refine ⟨holds_step o h.holds hd ha, Nat.lt_of_lt_of_le h.lt (mStep_len p o), ?_, ?_⟩
  · intro m' k' hs
    rcases mStep_slot p o m' k' _ hs with h1 | ⟨c, h1⟩ | ⟨v, e, h1⟩
    · exact h.alone _ _ h1
    · exact absurd h1 (h.noClass _ _)
    · have := (allocVal_slot h1.symm).1
      exact absurd h.lt (by omega)
  · intro c k' hs
    rw [mStep_classes] at hs
    exact h.noClass _ _ hs

theorem mStep_msgs {p : Prog} (o : MOp) : p.msgs.length ≤ (mStep p o).msgs.length := by
  cases o with
  | mutate m k f => simp only [mStep]; split <;> exact Nat.le_refl _
  | new c => simp [mStep]
  | bare c => simp [mStep]
  | _ => simp [mStep, Prog.modify]

/-- after a list has been assigned, and unless the key is deleted, the message has its own list there -/
theorem run_private {p : Prog} (hw : ProgWF p) {m : Nat} {k : String} (os : List MOp)
    (hp : ∃ n, Private p n m k) (hd : ∀ o ∈ os, o ≠ .del m k ∧ ∀ v, o = .assign m k v → ∃ l, v = .list l) :
    ∃ n, Private (mRun os p) n m k := by
  induction os generalizing p with
  | nil => exact hp
  | cons o os ih =>
    refine ih (mStep_wf o hw) ?_ (fun o' ho => hd o' (by simp [ho]))
    obtain ⟨n, hp⟩ := hp
    by_cases ha : ∃ v, o = .assign m k v
    · obtain ⟨v, rfl⟩ := ha
      obtain ⟨l, rfl⟩ := (hd _ (by simp)).2 v rfl
      have hm : m < p.msgs.length := by
        apply Classical.byContradiction; intro hc
        have := hp.holds
        simp [Prog.slot, List.getElem?_eq_none (Nat.not_lt.mp hc)] at this
      exact ⟨_, assign_private hw hm k l⟩
    · exact ⟨n, private_step o hp (hd _ (by simp)).1 (fun v e => ha ⟨v, e⟩)⟩

/-- C65, what holds: a list that was assigned to a message belongs to it.  In every program, changing it in place
changes no other message and no class default. -/
theorem C65_assigned_partial (ds : List Dict) (before after : List MOp) (m : Nat) (k : String) (l : List Val)
    (f : List Val → List Val)
    (hm : m < (mRun before (loadClasses ds ⟨[], [], []⟩)).msgs.length)
    (hd : ∀ o ∈ after, o ≠ .del m k ∧ ∀ v, o = .assign m k v → ∃ l, v = .list l) :
    let p := mRun after (mStep (mRun before (loadClasses ds ⟨[], [], []⟩)) (.assign m k (.list l)))
    (∀ m' k', (m', k') ≠ (m, k) → (mStep p (.mutate m k f)).msgVal m' k' = p.msgVal m' k') ∧
      (∀ c k', (mStep p (.mutate m k f)).clsVal c k' = p.clsVal c k') ∧
      ∃ l', p.msgVal m k = some (.list l') ∧ (mStep p (.mutate m k f)).msgVal m k = some (.list (f l')) := by
  have hw0 : ProgWF ⟨[], [], []⟩ := ⟨by simp [Prog.slot], by simp [dget]⟩
  have hw := mRun_wf before (loadClasses_wf ds hw0)
  have hw1 := mStep_wf (.assign m k (.list l)) hw
  obtain ⟨n, hp⟩ := run_private hw1 after ⟨_, assign_private hw hm k l⟩ hd
  intro p
  have hp : Private p n m k := hp
  have hq : mStep p (.mutate m k f) = { p with cells := p.cells.modify n f } := by
    simp only [mStep, hp.holds]
  have hview : ∀ s, s ≠ .cell n → (mStep p (.mutate m k f)).view s = p.view s := by
    intro s hs
    rw [hq]
    cases s with
    | lit v => rfl
    | cell n' => simp only [Prog.view]; rw [modify_getD (by rintro rfl; exact hs rfl)]
  refine ⟨?_, ?_, ?_⟩
  · intro m' k' hne
    have : (mStep p (.mutate m k f)).slot m' k' = p.slot m' k' := by rw [hq]; rfl
    rw [Prog.msgVal, Prog.msgVal, this]
    cases hs : p.slot m' k' with
    | none => rfl
    | some s =>
      simp only [Option.map_some]
      rw [hview]
      rintro rfl
      obtain ⟨e1, e2⟩ := hp.alone _ _ hs
      exact hne (by rw [e1, e2])
  · intro c k'
    rw [Prog.clsVal, Prog.clsVal, mStep_classes]
    cases hs : dget (p.classes.getD c []) k' with
    | none => rfl
    | some s =>
      simp only [Option.map_some]
      rw [hview]
      rintro rfl
      exact hp.noClass _ _ hs
  · refine ⟨p.cells.getD n [], by simp [Prog.msgVal, hp.holds, Prog.view], ?_⟩
    rw [hq]
    have : Prog.slot { p with cells := p.cells.modify n f } m k = some (.cell n) := hp.holds
    rw [Prog.msgVal, this]
    simp only [Option.map_some, Prog.view]
    rw [modify_getD_same hp.lt]

/-- C65, what holds: a default that is not a list is never changed, in any program. -/
theorem C65_scalar_partial (p : Prog) (os : List MOp) (c : Nat) (k : String) (v : Val)
    (h : dget (p.classes.getD c []) k = some (.lit v)) :
    (mRun os p).clsVal c k = some v ∧ (mStep (mRun os p) (.new c)).msgVal (mRun os p).msgs.length k = some v := by
  have hc : (mRun os p).classes = p.classes := by
    induction os generalizing p with
    | nil => rfl
    | cons o os ih =>
      rw [mRun, ih _ (by rw [mStep_classes]; exact h), mStep_classes]
  refine ⟨by simp [Prog.clsVal, hc, h, Prog.view, -List.getD_eq_getElem?_getD], ?_⟩
  rw [Prog.msgVal]
  simp only [mStep]
  rw [slot_append]
  simp [hc, h, Prog.view, -List.getD_eq_getElem?_getD]

example : dget (regProg.classes.getD 0 []) "application_type" = some (.lit (.str "web")) ∧
    dget (regProg.classes.getD 0 []) "response_types" = some (.cell 0) ∧ 0 < regProg.cells.length := by
  decide +kernel

/-! ## C66 -/

theorem oauth2_once (s : Loaded) (h : s.oauth2.isSome) : loadOauth2 s = s := by
  unfold loadOauth2; split
  · rfl
  · rename_i e; simp [e] at h

/-- the state of the two classes after any imports -/
inductive LState : Loaded → Prop
  | none : LState ⟨[], none, none⟩
  | oauth2 : LState ⟨[oauth2ErrorCodes], some [("error", 0)], none⟩
  | both : LState ⟨[oauth2ErrorCodes ++ oidcErrorCodes], some [("error", 0)], some [("error", 0)]⟩

theorem lstate_import {s : Loaded} (h : LState s) (m : Mod) : LState (importMod s m) := by
  cases h <;> cases m <;> first | exact .none | exact .oauth2 | exact .both

theorem lstate_all (ms : List Mod) : ∀ s, LState s → LState (ms.foldl importMod s) := by
  induction ms with
  | nil => exact fun s h => h
  | cons m ms ih => exact fun s h => ih _ (lstate_import h m)

theorem import_oidc_iff (ms : List Mod) :
    ∀ s, LState s → ((ms.foldl importMod s).oidc.isSome ↔ s.oidc.isSome ∨ Mod.oidc ∈ ms) := by
  induction ms with
  | nil => simp
  | cons m ms ih =>
    intro s h
    rw [List.foldl_cons, ih _ (lstate_import h m)]
    cases h <;> cases m <;> simp [importMod, loadOidc, loadOauth2]

theorem import_oauth2_iff (ms : List Mod) :
    ∀ s, LState s → ((ms.foldl importMod s).oauth2.isSome ↔ s.oauth2.isSome ∨ Mod.oidc ∈ ms ∨ Mod.oauth2 ∈ ms) := by
  induction ms with
  | nil => simp
  | cons m ms ih =>
    intro s h
    rw [List.foldl_cons, ih _ (lstate_import h m)]
    cases h <;> cases m <;> simp [importMod, loadOidc, loadOauth2]

/-- The allowed codes depend on whether `oidc` has been imported, before or after. -/
theorem allowed_after (ms : List Mod) (h : Mod.oauth2 ∈ ms ∨ Mod.oidc ∈ ms) :
    (importAll ms).schema.allowed =
      if Mod.oidc ∈ ms then [("error", oauth2ErrorCodes ++ oidcErrorCodes)] else [("error", oauth2ErrorCodes)] := by
  have hl := lstate_all ms _ LState.none
  have h1 := import_oidc_iff ms _ LState.none
  have h2 := import_oauth2_iff ms _ LState.none
  have h3 : Mod.oidc ∈ ms ∨ Mod.oauth2 ∈ ms := h.symm
  unfold importAll
  generalize ms.foldl importMod ⟨[], none, none⟩ = s at *
  cases hl with
  | none => simp at h2; simp [h2] at h3
  | oauth2 => simp at h1; simp [h1, Loaded.schema]
  | both => simp at h1; simp [h1, Loaded.schema]

theorem responseVerify_ok {sch : Schema} {st : Dict} (h : responseVerify sch st = .ok ()) : verifyBase sch st = .ok () := by
  unfold responseVerify at h
  cases hv : verifyBase sch st with
  | error e => rw [hv] at h; cases h
  | ok u => rfl

/-- C66, what holds: as long as `oidc` has not been imported, only the seven codes are accepted. -/
theorem C66_partial (ms : List Mod) (h2 : Mod.oauth2 ∈ ms) (hi : Mod.oidc ∉ ms) (st : Dict) (v : Val)
    (hv : dget st "error" = some v) (ht : v.truthy = true)
    (h : responseVerify (importAll ms).schema st = .ok ()) :
    v = .str "invalid_request" ∨ v = .str "unauthorized_client" ∨ v = .str "access_denied" ∨
      v = .str "unsupported_response_type" ∨ v = .str "invalid_scope" ∨ v = .str "server_error" ∨
      v = .str "temporarily_unavailable" := by
  have ha := allowed_after ms (.inl h2)
  rw [if_neg hi] at ha
  have hacc := (C04_verify_iff _ _).mp (responseVerify_ok h)
  have := (hacc "error" singleOptionalString (by simp [Loaded.schema, oauth2_AuthorizationErrorResponse]) (by decide)).2 v
    oauth2ErrorCodes hv (.inl ht) (by rw [ha]; rfl)
  obtain ⟨w, hw, he⟩ := this
  have hstr : ∃ s, w = .str s := by
    simp only [oauth2ErrorCodes, List.mem_cons, List.not_mem_nil, or_false] at hw
    rcases hw with e | e | e | e | e | e | e <;> exact ⟨_, e⟩
  obtain ⟨s, rfl⟩ := hstr
  have hvw : v = .str s := (eq_str_iff v s).mp he
  subst hvw
  simpa [oauth2ErrorCodes] using hw

/-- C66 fails: once `oidc` has been imported, in whatever order, `oauth2.AuthorizationErrorResponse` also accepts the
nine codes of OpenID Connect. -/
theorem C66_counterexample (ms : List Mod) (hi : Mod.oidc ∈ ms) (code : Val) (hc : code ∈ oidcErrorCodes) :
    responseVerify (importAll ms).schema [("error", code)] = .ok () := by
  have ha := allowed_after ms (.inr hi)
  rw [if_pos hi] at ha
  have hsch : (importAll ms).schema =
      { oauth2_AuthorizationErrorResponse with allowed := [("error", oauth2ErrorCodes ++ oidcErrorCodes)] } := by
    rw [← ha]; rfl
  rw [hsch]
  simp only [oidcErrorCodes, List.mem_cons, List.not_mem_nil, or_false] at hc
  rcases hc with e | e | e | e | e | e | e | e | e <;> subst e <;> decide +kernel

/-- with both modules imported the class is the one used in the rest of the model -/
theorem schema_after_both (ms : List Mod) (hi : Mod.oidc ∈ ms) :
    (importAll ms).schema.allowed = oauth2_AuthorizationErrorResponse.allowed := by
  rw [allowed_after ms (.inr hi), if_pos hi]; rfl

example : Mod.oidc ∈ [Mod.oauth2, .other, .oidc] ∧ Val.str "login_required" ∈ oidcErrorCodes := by decide +kernel
example : responseVerify (importAll [.other, .oauth2]).schema [("error", .str "login_required")] = .error .notAllowedValue ∧
    responseVerify (importAll [.other, .oauth2]).schema [("error", .str "access_denied")] = .ok () := by decide +kernel

end Verif
