import Verif.Props.LabeledDict
import Verif.Props.StoreShared

/-!
# Labelled file storages over one directory: C60, C85
-/

namespace Verif

/-! ## the part of a dictionary with certain names -/

def restrict {α : Type} (p : String → Bool) (d : Assoc α) : Assoc α := d.filter (fun q => p q.1)

section
variable {α : Type} {p : String → Bool}

theorem dget_restrict (d : Assoc α) {n : String} (h : p n = true) : dget (restrict p d) n = dget d n := by
  rw [restrict, dget_filter_key, if_pos h]

theorem restrict_dset_in (d : Assoc α) {n : String} (v : α) (h : p n = true) :
    restrict p (dset d n v) = dset (restrict p d) n v := by
  induction d with
  | nil => simp [restrict, dset, h]
  | cons q t ih =>
    obtain ⟨k, v'⟩ := q
    simp only [restrict] at ih ⊢
    by_cases e : k = n
    · subst e; simp [dset, h]
    · by_cases hk : p k = true
      · simp [dset, e, hk, ih]
      · simp [dset, e, hk, ih]

theorem restrict_dset_out (d : Assoc α) {n : String} (v : α) (h : p n = false) :
    restrict p (dset d n v) = restrict p d := by
  induction d with
  | nil => simp [restrict, dset, h]
  | cons q t ih =>
    obtain ⟨k, v'⟩ := q
    simp only [restrict] at ih ⊢
    by_cases e : k = n
    · subst e; simp [dset, h]
    · by_cases hk : p k = true
      · simp [dset, e, hk, ih]
      · simp [dset, e, hk, ih]

theorem restrict_ddel (d : Assoc α) (n : String) : restrict p (ddel d n) = ddel (restrict p d) n := by
  simp only [restrict, ddel, List.filter_filter, Bool.and_comm]

theorem restrict_ddel_out (d : Assoc α) {n : String} (h : p n = false) : restrict p (ddel d n) = restrict p d := by
  simp only [restrict, ddel, List.filter_filter]
  apply List.filter_congr
  intro q _
  by_cases e : q.1 = n
  · rw [e, h]; rfl
  · simp [e]

theorem dkeys_restrict (d : Assoc α) : dkeys (restrict p d) = (dkeys d).filter p := by
  induction d with
  | nil => rfl
  | cons q t ih =>
    simp only [restrict] at ih
    by_cases h : p q.1 = true <;> simp [restrict, h, ih]

end

/-! ## two states that agree on the names in `p` -/

structure Same (p : String → Bool) (i : Inst) (dir : Dir) (i' : Inst) (dir' : Dir) : Prop where
  cache : restrict p i.cache = restrict p i'.cache
  fmtime : restrict p i.fmtime = restrict p i'.fmtime
  dir : restrict p dir = restrict p dir'

structure SameO {α : Type} (p : String → Bool) (o o' : Out α) : Prop where
  res : o.res = o'.res
  st : Same p o.inst o.dir o'.inst o'.dir

section
variable {p : String → Bool} {i i' : Inst} {dir dir' : Dir} {n : String}

theorem Same.refl (p : String → Bool) (i : Inst) (dir : Dir) : Same p i dir i dir := ⟨rfl, rfl, rfl⟩

theorem Same.symm (h : Same p i dir i' dir') : Same p i' dir' i dir := ⟨h.cache.symm, h.fmtime.symm, h.dir.symm⟩

theorem Same.trans {i'' : Inst} {dir'' : Dir} (h : Same p i dir i' dir') (h' : Same p i' dir' i'' dir'') :
    Same p i dir i'' dir'' := ⟨h.cache.trans h'.cache, h.fmtime.trans h'.fmtime, h.dir.trans h'.dir⟩

theorem Same.getC (h : Same p i dir i' dir') (hn : p n = true) : dget i.cache n = dget i'.cache n := by
  rw [← dget_restrict i.cache hn, h.cache, dget_restrict _ hn]

theorem Same.getM (h : Same p i dir i' dir') (hn : p n = true) : dget i.fmtime n = dget i'.fmtime n := by
  rw [← dget_restrict i.fmtime hn, h.fmtime, dget_restrict _ hn]

theorem Same.getD (h : Same p i dir i' dir') (hn : p n = true) : dget dir n = dget dir' n := by
  rw [← dget_restrict dir hn, h.dir, dget_restrict _ hn]

theorem Same.setC (h : Same p i dir i' dir') (hn : p n = true) (v : Val) :
    Same p { i with cache := dset i.cache n v } dir { i' with cache := dset i'.cache n v } dir' :=
  ⟨by simp only [restrict_dset_in _ v hn, h.cache], h.fmtime, h.dir⟩

theorem Same.setM (h : Same p i dir i' dir') (hn : p n = true) (t : Nat) :
    Same p { i with fmtime := dset i.fmtime n t } dir { i' with fmtime := dset i'.fmtime n t } dir' :=
  ⟨h.cache, by simp only [restrict_dset_in _ t hn, h.fmtime], h.dir⟩

theorem Same.setD (h : Same p i dir i' dir') (hn : p n = true) (f : File) :
    Same p i (dset dir n f) i' (dset dir' n f) :=
  ⟨h.cache, h.fmtime, by simp only [restrict_dset_in _ f hn, h.dir]⟩

theorem Same.outD (h : Same p i dir i' dir') (hn : p n = false) (f f' : File) :
    Same p i (dset dir n f) i' (dset dir' n f') :=
  ⟨h.cache, h.fmtime, by simp only [restrict_dset_out _ _ hn, h.dir]⟩

theorem Same.outD1 (h : Same p i dir i' dir') (hn : p n = false) (f : File) :
    Same p i (dset dir n f) i' dir' :=
  ⟨h.cache, h.fmtime, by simp only [restrict_dset_out _ _ hn, h.dir]⟩

theorem Same.delD (h : Same p i dir i' dir') (n : String) : Same p i (ddel dir n) i' (ddel dir' n) :=
  ⟨h.cache, h.fmtime, by simp only [restrict_ddel, h.dir]⟩

theorem Same.drop (h : Same p i dir i' dir') (n : String) : Same p (dropCache n i) dir (dropCache n i') dir' :=
  ⟨by simp only [dropCache, restrict_ddel, h.cache], h.fmtime, h.dir⟩

theorem Same.hasD (h : Same p i dir i' dir') (hn : p n = true) : dhas dir n = dhas dir' n := by
  rw [dhas, h.getD hn, dhas]

theorem Same.hasM (h : Same p i dir i' dir') (hn : p n = true) : dhas i.fmtime n = dhas i'.fmtime n := by
  rw [dhas, h.getM hn, dhas]

theorem acquire_two (now : Nat) (dir dir' : Dir) (n : String) :
    (acquire now dir n = .ok (dset dir (lockName n) ⟨"", now⟩) ∧
      acquire now dir' n = .ok (dset dir' (lockName n) ⟨"", now⟩)) ∨
    (acquire now dir n = .error .osError ∧ acquire now dir' n = .error .osError) := by
  unfold acquire
  split
  · exact .inl ⟨rfl, rfl⟩
  · exact .inr ⟨rfl, rfl⟩

/-! ## operations on names in `p` -/

variable (hp : ∀ n, p (lockName n) = false)
include hp

theorem fsSet_same (conv : Conv) (now : Nat) (k : String) (v : Val) (h : Same p i dir i' dir')
    (hk : p (quotePlus k) = true) : SameO p (fsSet conv now k v i dir) (fsSet conv now k v i' dir') := by
  unfold fsSet
  rcases acquire_two now dir dir' (quotePlus k) with ⟨ha, ha'⟩ | ⟨ha, ha'⟩
  · rw [ha, ha']
    simp only
    have h1 := h.outD (hp (quotePlus k)) ⟨"", now⟩ ⟨"", now⟩
    split
    · exact ⟨rfl, h1⟩
    · split
      · exact ⟨rfl, h1.setD hk _⟩
      · exact ⟨rfl, ((h1.setC hk v).setM hk now).setD hk _⟩
  · rw [ha, ha']
    exact ⟨rfl, h⟩

theorem readInfo_same (conv : Conv) (now : Nat) (h : Same p i dir i' dir') (hn : p n = true) :
    (readInfo conv now dir n).1 = (readInfo conv now dir' n).1 ∧
    Same p i (readInfo conv now dir n).2 i' (readInfo conv now dir' n).2 := by
  unfold readInfo
  rw [← h.getD hn]
  cases dget dir n with
  | none => exact ⟨rfl, h⟩
  | some f =>
    simp only
    rcases acquire_two now dir dir' n with ⟨ha, ha'⟩ | ⟨ha, ha'⟩ <;> rw [ha, ha']
    · exact ⟨rfl, h.outD (hp n) _ _⟩
    · exact ⟨rfl, h⟩

theorem refresh_same (conv : Conv) (now : Nat) (h : Same p i dir i' dir') (hn : p n = true) :
    SameO p (refresh conv now n i dir) (refresh conv now n i' dir') := by
  have := readInfo_same hp conv now h hn
  unfold refresh
  generalize readInfo conv now dir n = r at *
  generalize readInfo conv now dir' n = r' at *
  obtain ⟨r, d⟩ := r
  obtain ⟨r', d'⟩ := r'
  obtain ⟨e, hd⟩ := this
  simp only at e hd
  subst e
  cases r with
  | error e => exact ⟨rfl, hd⟩
  | ok v => exact ⟨rfl, hd.setC hn v⟩

theorem refreshChanged_same (conv : Conv) (now : Nat) (h : Same p i dir i' dir') (hn : p n = true) :
    SameO p (refreshChanged conv now n i dir) (refreshChanged conv now n i' dir') := by
  unfold refreshChanged isChanged
  rw [← h.getD hn, ← h.getM hn]
  cases dget dir n with
  | none => exact ⟨rfl, h⟩
  | some f =>
    simp only
    cases dget i.fmtime n with
    | none => exact refresh_same hp conv now (h.setM hn _) hn
    | some t =>
      simp only
      by_cases ht : f.mtime > t
      · simp only [if_pos ht]; exact refresh_same hp conv now (h.setM hn _) hn
      · simp only [if_neg ht]; exact ⟨rfl, h⟩

theorem fsGetD_same (conv : Conv) (now : Nat) (k : String) (h : Same p i dir i' dir')
    (hk : p (quotePlus k) = true) : SameO p (fsGetD conv now k i dir) (fsGetD conv now k i' dir') := by
  have := refreshChanged_same hp conv now h hk
  unfold fsGetD fsGet
  generalize refreshChanged conv now (quotePlus k) i dir = o at *
  generalize refreshChanged conv now (quotePlus k) i' dir' = o' at *
  obtain ⟨r, j, d⟩ := o
  obtain ⟨r', j', d'⟩ := o'
  obtain ⟨e, hs⟩ := this
  simp only at e hs
  subst e
  cases r with
  | error e =>
    simp only
    cases e <;> exact ⟨rfl, hs⟩
  | ok u =>
    simp only [fromCache]
    rw [← hs.getC hk]
    cases dget j.cache (quotePlus k) with
    | none => exact ⟨rfl, hs⟩
    | some v => exact ⟨rfl, hs⟩

theorem fsDel_same (now : Nat) (k : String) (h : Same p i dir i' dir')
    (hk : ∀ n, resolveRaw k = .inside n → p n = true) : SameO p (fsDel now k i dir) (fsDel now k i' dir') := by
  unfold fsDel
  cases hr : resolveRaw k with
  | outside s => exact ⟨rfl, h⟩
  | notFile => exact ⟨rfl, h.drop k⟩
  | inside n =>
    have hn := hk n hr
    simp only
    rw [← h.hasD hn]
    split
    · rcases acquire_two now dir dir' n with ⟨ha, ha'⟩ | ⟨ha, ha'⟩ <;> rw [ha, ha']
      · exact ⟨rfl, (h.drop k |>.outD (hp n) _ _).delD n⟩
      · exact ⟨rfl, h⟩
    · exact ⟨rfl, h.drop k⟩

theorem firstSeen_same (conv : Conv) (now : Nat) (f : File) (h : Same p i dir i' dir') (hn : p n = true) :
    SameO p (firstSeen conv now n f i dir) (firstSeen conv now n f i' dir') := by
  have := readInfo_same hp conv now h hn
  unfold firstSeen
  generalize readInfo conv now dir n = r at *
  generalize readInfo conv now dir' n = r' at *
  obtain ⟨r, d⟩ := r
  obtain ⟨r', d'⟩ := r'
  obtain ⟨e, hd⟩ := this
  simp only at e hd
  subst e
  cases r with
  | error e => exact ⟨rfl, hd⟩
  | ok v => exact ⟨rfl, (hd.setC hn v).setM hn _⟩

theorem synchOne_same (conv : Conv) (now : Nat) (h : Same p i dir i' dir') (hn : p n = true) :
    SameO p (synchOne conv now n i dir) (synchOne conv now n i' dir') := by
  unfold synchOne
  rw [← h.getD hn]
  cases dget dir n with
  | none => exact ⟨rfl, h⟩
  | some f =>
    simp only
    rw [← h.hasM hn]
    split
    · exact ⟨rfl, h⟩
    · split
      · exact refreshChanged_same hp conv now h hn
      · exact firstSeen_same hp conv now f h hn

end

/-! ## operations on other names -/

/-- the files with other names can be read -/
def Fine (conv : Conv) (p : String → Bool) (dir : Dir) : Prop :=
  ∀ n f, p n = false → isLock n = false → dget dir n = some f →
    n.utf8ByteSize ≤ 250 ∧ ∃ v, conv.deser (readText f.content) = .ok v

theorem Fine.lock {conv : Conv} {p : String → Bool} {dir : Dir} (h : Fine conv p dir) (n : String) (f : File) :
    Fine conv p (dset dir (lockName n) f) := by
  intro n' f' h1 h2 h3
  rw [dget_dset_ne _ _ (lock_ne h2)] at h3
  exact h n' f' h1 h2 h3

theorem Fine.del {conv : Conv} {p : String → Bool} {dir : Dir} (h : Fine conv p dir) (n : String) :
    Fine conv p (ddel dir n) := by
  intro n' f' h1 h2 h3
  rw [dget_ddel] at h3
  split at h3
  · cases h3
  · exact h n' f' h1 h2 h3

theorem Fine.own {conv : Conv} {p : String → Bool} {dir : Dir} (h : Fine conv p dir) {n : String} (hn : p n = true)
    (f : File) : Fine conv p (dset dir n f) := by
  intro n' f' h1 h2 h3
  rw [dget_dset_ne _ _ (by rintro rfl; rw [hn] at h1; cases h1)] at h3
  exact h n' f' h1 h2 h3

theorem readInfo_dir (conv : Conv) (now : Nat) (dir : Dir) (n : String) :
    (readInfo conv now dir n).2 = dir ∨ (readInfo conv now dir n).2 = dset dir (lockName n) ⟨"", now⟩ := by
  unfold readInfo
  cases dget dir n with
  | none => exact .inl rfl
  | some f =>
    simp only
    rcases acquire_cases now dir n with ha | ⟨ha, _⟩ <;> rw [ha]
    · exact .inr rfl
    · exact .inl rfl

theorem refresh_dir (conv : Conv) (now : Nat) (n : String) (i : Inst) (dir : Dir) :
    (refresh conv now n i dir).dir = dir ∨ (refresh conv now n i dir).dir = dset dir (lockName n) ⟨"", now⟩ := by
  have := readInfo_dir conv now dir n
  unfold refresh
  generalize readInfo conv now dir n = r at *
  obtain ⟨r, d⟩ := r
  cases r <;> exact this

theorem refreshChanged_dir (conv : Conv) (now : Nat) (n : String) (i : Inst) (dir : Dir) :
    (refreshChanged conv now n i dir).dir = dir ∨
    (refreshChanged conv now n i dir).dir = dset dir (lockName n) ⟨"", now⟩ := by
  unfold refreshChanged
  generalize isChanged i dir n = c
  obtain ⟨c, j⟩ := c
  cases c with
  | error e => exact .inl rfl
  | ok b =>
    cases b with
    | false => exact .inl rfl
    | true => exact refresh_dir conv now n j dir

theorem fsGetD_dir (conv : Conv) (now : Nat) (k : String) (i : Inst) (dir : Dir) :
    (fsGetD conv now k i dir).dir = dir ∨
    (fsGetD conv now k i dir).dir = dset dir (lockName (quotePlus k)) ⟨"", now⟩ := by
  have := refreshChanged_dir conv now (quotePlus k) i dir
  unfold fsGetD fsGet
  generalize refreshChanged conv now (quotePlus k) i dir = o at *
  obtain ⟨r, j, d⟩ := o
  cases r with
  | error e => cases e <;> exact this
  | ok u =>
    simp only [fromCache]
    cases dget j.cache (quotePlus k) <;> exact this

theorem synchOne_dir (conv : Conv) (now : Nat) (n : String) (i : Inst) (dir : Dir) :
    (synchOne conv now n i dir).dir = dir ∨ (synchOne conv now n i dir).dir = dset dir (lockName n) ⟨"", now⟩ := by
  unfold synchOne
  cases dget dir n with
  | none => exact .inl rfl
  | some f =>
    simp only
    split
    · exact .inl rfl
    · split
      · exact refreshChanged_dir conv now n i dir
      · have := readInfo_dir conv now dir n
        unfold firstSeen
        generalize readInfo conv now dir n = r at *
        obtain ⟨r, d⟩ := r
        cases r <;> exact this

/-- a property of directories that lock files do not matter for is kept by a listing -/
theorem synchAll_dir (P : Dir → Prop) (hP : ∀ dir n f, P dir → P (dset dir (lockName n) f)) (conv : Conv) (now : Nat) :
    ∀ (ns : List String) (i : Inst) (dir : Dir), P dir → P (synchAll conv now ns i dir).dir := by
  intro ns
  induction ns with
  | nil => intro i dir h; exact h
  | cons n ns ih =>
    intro i dir h
    have h1 : P (synchOne conv now n i dir).dir := by
      rcases synchOne_dir conv now n i dir with e | e <;> rw [e]
      · exact h
      · exact hP _ _ _ h
    unfold synchAll
    generalize synchOne conv now n i dir = o at *
    obtain ⟨r, j, d⟩ := o
    cases r with
    | error e => exact h1
    | ok u => exact ih j d h1

section
variable {p : String → Bool} {i i' : Inst} {dir dir' : Dir} {n : String}

theorem Same.outC (h : Same p i dir i' dir') (hn : p n = false) (v : Val) :
    Same p { i with cache := dset i.cache n v } dir i' dir' :=
  ⟨by simp only [restrict_dset_out _ v hn, h.cache], h.fmtime, h.dir⟩

theorem Same.outM (h : Same p i dir i' dir') (hn : p n = false) (t : Nat) :
    Same p { i with fmtime := dset i.fmtime n t } dir i' dir' :=
  ⟨h.cache, by simp only [restrict_dset_out _ t hn, h.fmtime], h.dir⟩

/-- looking at a readable file with another name: no exception, nothing changes -/
theorem synchOne_other (hp : ∀ n, p (lockName n) = false) {conv : Conv} (hf : Fine conv p dir) (now : Nat)
    (hn : p n = false) :
    (synchOne conv now n i dir).res = .ok () ∧
    Same p (synchOne conv now n i dir).inst (synchOne conv now n i dir).dir i dir := by
  unfold synchOne
  cases hd : dget dir n with
  | none => exact ⟨rfl, .refl ..⟩
  | some f =>
    simp only
    cases hl : isLock n with
    | true => exact ⟨rfl, .refl ..⟩
    | false =>
      obtain ⟨h250, v, hv⟩ := hf n f hn hl hd
      have hr : readInfo conv now dir n = (.ok v, dset dir (lockName n) ⟨"", now⟩) := by
        simp only [readInfo, hd, acquire_ok h250, hv]
      have hs : Same p i (dset dir (lockName n) ⟨"", now⟩) i dir := (Same.refl p i dir).outD1 (hp n) _
      simp only [Bool.false_eq_true, if_false]
      split
      · unfold refreshChanged isChanged
        rw [hd]
        simp only
        cases dget i.fmtime n with
        | none =>
          simp only [refresh, hr]
          exact ⟨trivial, (hs.outM hn _).outC hn _⟩
        | some t =>
          simp only
          by_cases ht : f.mtime > t
          · simp only [if_pos ht, refresh, hr]
            exact ⟨trivial, (hs.outM hn _).outC hn _⟩
          · simp only [if_neg ht]
            exact ⟨trivial, .refl ..⟩
      · simp only [firstSeen, hr]
        exact ⟨trivial, (hs.outM hn _).outC hn _⟩

/-- A listing sees the names in `p` as if there were no others. -/
theorem synchAll_same (hp : ∀ n, p (lockName n) = false) {conv : Conv} (now : Nat) :
    ∀ (ns : List String) (i : Inst) (dir : Dir) (i' : Inst) (dir' : Dir), Same p i dir i' dir' → Fine conv p dir →
    SameO p (synchAll conv now ns i dir) (synchAll conv now (ns.filter p) i' dir') := by
  intro ns
  induction ns with
  | nil => intro i dir i' dir' h _; exact ⟨rfl, h⟩
  | cons n ns ih =>
    intro i dir i' dir' h hf
    have hf' : Fine conv p (synchOne conv now n i dir).dir := by
      rcases synchOne_dir conv now n i dir with e | e <;> rw [e]
      · exact hf
      · exact hf.lock _ _
    cases hn : p n with
    | true =>
      have h1 := synchOne_same hp conv now h hn
      rw [List.filter_cons_of_pos hn]
      unfold synchAll
      generalize synchOne conv now n i dir = o at *
      generalize synchOne conv now n i' dir' = o' at *
      obtain ⟨r, j, d⟩ := o
      obtain ⟨r', j', d'⟩ := o'
      obtain ⟨e, hs⟩ := h1
      simp only at e hs
      subst e
      cases r with
      | error e => exact ⟨rfl, hs⟩
      | ok u => exact ih _ _ _ _ hs hf'
    | false =>
      have h1 := synchOne_other (i := i) hp hf now hn
      rw [List.filter_cons_of_neg (by simp [hn])]
      rw [synchAll]
      generalize synchOne conv now n i dir = o at *
      obtain ⟨r, j, d⟩ := o
      obtain ⟨e, hs⟩ := h1
      simp only at e hs
      subst e
      exact ih _ _ _ _ (hs.trans h) hf'

theorem synch_same (hp : ∀ n, p (lockName n) = false) {conv : Conv} (now : Nat) (h : Same p i dir i' dir')
    (hf : Fine conv p dir) (hf' : Fine conv p dir') : SameO p (synch conv now i dir) (synch conv now i' dir') := by
  have h1 := synchAll_same hp now (dkeys dir) i dir i dir (.refl ..) hf
  have h2 := synchAll_same hp now (dkeys dir') i' dir' i dir h.symm hf'
  have e : (dkeys dir).filter p = (dkeys dir').filter p := by rw [← dkeys_restrict, h.dir, dkeys_restrict]
  rw [← e] at h2
  exact ⟨h1.res.trans h2.res.symm, h1.st.trans h2.st.symm⟩

end

/-! ## labels and file names -/

/-- characters that are their own encoding: letters, digits and `_.-~` -/
def SafeText (s : String) : Prop := ∀ c ∈ s.toList, isSafeByte c.toNat = true

instance (s : String) : Decidable (SafeText s) := inferInstanceAs (Decidable (∀ _ ∈ _, _))

theorem quotePlusC_cons (c : Char) (cs : List Char) :
    quotePlusC (c :: cs) = (utf8Char c).flatMap quoteByte ++ quotePlusC cs := by
  simp [quotePlusC, utf8Encode]

theorem quote_safe {c : Char} (h : isSafeByte c.toNat = true) : (utf8Char c).flatMap quoteByte = [c] := by
  have h1 : utf8Char c = [c.toNat] := by simp [utf8Char, isSafeByte_lt h]
  have h2 : quoteByte c.toNat = [c] := by
    unfold quoteByte
    have : c.toNat ≠ 32 := by
      intro e; rw [e] at h; exact absurd h (by decide)
    rw [if_neg this, if_pos h, Char.ofNat_toNat]
  simp [h1, h2]

theorem utf8Char_head (c : Char) : ∃ b r, utf8Char c = b :: r ∧ (b = c.toNat ∨ 128 ≤ b) := by
  unfold utf8Char
  simp only
  split
  · exact ⟨_, _, rfl, .inl rfl⟩
  · split
    · exact ⟨_, _, rfl, .inr (by omega)⟩
    · split
      · exact ⟨_, _, rfl, .inr (by omega)⟩
      · exact ⟨_, _, rfl, .inr (by omega)⟩

theorem quote_unsafe {c : Char} (h : isSafeByte c.toNat = false) :
    ∃ x r, (utf8Char c).flatMap quoteByte = x :: r ∧ isSafeByte x.toNat = false := by
  obtain ⟨b, r, e, hb⟩ := utf8Char_head c
  have hs : isSafeByte b = false := by
    rcases hb with rfl | hb
    · exact h
    · rw [Bool.eq_false_iff]; intro h'; have := isSafeByte_lt h'; omega
  rw [e, List.flatMap_cons]
  unfold quoteByte
  split
  · exact ⟨_, _, rfl, by decide⟩
  · rw [if_neg (by simp [hs])]
    exact ⟨_, _, rfl, by decide⟩

/-- a name begins with a safe text exactly when the key does -/
theorem quote_prefix : ∀ {t : List Char}, (∀ c ∈ t, isSafeByte c.toNat = true) → ∀ s : List Char,
    t <+: quotePlusC s ↔ t <+: s := by
  intro t
  induction t with
  | nil => intro _ s; simp
  | cons c cs ih =>
    intro h s
    have hc := h c List.mem_cons_self
    have ih' := ih (fun x hx => h x (List.mem_cons_of_mem _ hx))
    cases s with
    | nil => rw [quotePlusC_eq_nil.2 rfl]
    | cons d ds =>
      rw [quotePlusC_cons]
      cases hd : isSafeByte d.toNat with
      | true => rw [quote_safe hd, List.singleton_append, List.cons_prefix_cons, List.cons_prefix_cons, ih']
      | false =>
        obtain ⟨x, r, e, hx⟩ := quote_unsafe hd
        rw [e, List.cons_append, List.cons_prefix_cons, List.cons_prefix_cons]
        constructor
        · rintro ⟨rfl, _⟩; rw [hc] at hx; cases hx
        · rintro ⟨rfl, _⟩; rw [hc] at hd; cases hd

theorem startsWith_quote {lab : String} (h : SafeText lab) (k : String) :
    startsWith lab (quotePlus k) = startsWith lab k := by
  rw [Bool.eq_iff_iff, startsWith_iff, startsWith_iff, quotePlus, String.toList_ofList, quote_prefix h]

theorem labelOf_eq {l : String} (h : l ≠ "") : labelOf l = "__" ++ l ++ "__" := by rw [labelOf, if_neg h]

theorem safe_labelOf {l : String} (h : SafeText l) : SafeText (labelOf l) := by
  unfold labelOf
  split
  · intro c hc; exact absurd hc (by simp)
  · intro c hc
    have hu : ∀ c ∈ "__".toList, isSafeByte c.toNat = true := by decide
    rw [String.toList_append, String.toList_append] at hc
    rcases List.mem_append.1 hc with hc | hc
    · rcases List.mem_append.1 hc with hc | hc
      · exact hu c hc
      · exact h c hc
    · exact hu c hc

theorem labelOf_last {l : String} (h : l ≠ "") : ∃ t, (labelOf l).toList = t ++ ['_'] := by
  refine ⟨"__".toList ++ l.toList ++ ['_'], ?_⟩
  rw [labelOf_eq h, String.toList_append, String.toList_append]
  simp

/-- a labelled key is reserved exactly when the key is -/
theorem reserved_label {l : String} (h : l ≠ "") (k : String) : Reserved (labelOf l ++ k) ↔ Reserved k := by
  unfold Reserved
  rw [String.toList_append]
  constructor
  · rintro ⟨t, e⟩
    rcases List.append_eq_append_iff.1 e with ⟨a, e1, e2⟩ | ⟨a, e1, e2⟩
    · rcases List.eq_nil_or_concat a with rfl | ⟨a', x, rfl⟩
      · rw [List.nil_append] at e2; exact ⟨[], by rw [e2]; rfl⟩
      · obtain ⟨u, hu⟩ := labelOf_last h
        rw [hu, List.concat_eq_append, ← List.append_assoc] at e1
        have := (List.append_inj' e1 rfl).2
        simp at this
        subst this
        have hm : '_' ∈ ".lock".toList := by rw [e2]; simp
        exact absurd hm (by decide)
    · exact ⟨a, e2.symm⟩
  · rintro ⟨t, e⟩; exact ⟨(labelOf l).toList ++ t, by rw [← e, List.append_assoc]⟩

/-- neither label begins with the other -/
def Apart (a b : String) : Prop :=
  ¬ (labelOf a).toList <+: (labelOf b).toList ∧ ¬ (labelOf b).toList <+: (labelOf a).toList

instance (a b : String) : Decidable (Apart a b) := inferInstanceAs (Decidable (_ ∧ _))

theorem Apart.ne_empty {a b : String} (h : Apart a b) : a ≠ "" ∧ b ≠ "" := by
  constructor
  · rintro rfl; exact h.1 (by simp [labelOf])
  · rintro rfl; exact h.2 (by simp [labelOf])

theorem Apart.starts {a b : String} (h : Apart a b) (k : String) : startsWith (labelOf a) (labelOf b ++ k) = false := by
  rw [Bool.eq_false_iff, Ne, startsWith_iff, String.toList_append]
  intro hp
  rcases List.prefix_or_prefix_of_prefix hp (List.prefix_append (labelOf b).toList k.toList) with h' | h'
  · exact h.1 h'
  · exact h.2 h'

/-- Different labels without underscores are apart. -/
theorem apart_of_ne {a b : String} (ha : a ≠ "") (hb : b ≠ "") (hne : a ≠ b) (hua : '_' ∉ a.toList)
    (hub : '_' ∉ b.toList) : Apart a b := by
  have key : ∀ a b : String, a ≠ "" → b ≠ "" → a ≠ b → '_' ∉ a.toList → '_' ∉ b.toList →
      ¬ (labelOf a).toList <+: (labelOf b).toList := by
    intro a b ha hb hne hua hub
    rw [labelOf_eq ha, labelOf_eq hb]
    simp only [String.toList_append, List.append_assoc]
    rw [List.prefix_append_right_inj]
    rintro ⟨t, e⟩
    rw [List.append_assoc] at e
    rcases List.append_eq_append_iff.1 e with ⟨x, e1, e2⟩ | ⟨x, e1, e2⟩
    · cases x with
      | nil => exact hne (by rw [← String.toList_inj, e1, List.append_nil])
      | cons c cs =>
        rw [e1] at hub
        have : c = '_' := by
          have := congrArg List.head? e2
          simpa using this.symm
        exact hub (by rw [this]; simp)
    · cases x with
      | nil => exact hne (by rw [← String.toList_inj, e1, List.append_nil])
      | cons c cs =>
        rw [e1] at hua
        have : c = '_' := by
          have := congrArg List.head? e2
          simpa using this.symm
        exact hua (by rw [this]; simp)
  exact ⟨key a b ha hb hne hua hub, key b a hb ha (Ne.symm hne) hub hua⟩

example : Apart "client" "session" := by decide +kernel

/-- the deletion of a labelled key concerns at most the file with that very name -/
theorem resolveRaw_label {l : String} (h : l ≠ "") (k n : String)
    (hr : resolveRaw (labelOf l ++ k) = .inside n) : n = labelOf l ++ k := by
  by_cases hs : '/' ∈ (labelOf l ++ k).toList
  · exfalso
    have h0 : ∃ r, (labelOf l ++ k).toList = '_' :: '_' :: r := by
      rw [labelOf_eq h]; simp only [String.toList_append, List.append_assoc]; exact ⟨_, rfl⟩
    obtain ⟨r, h0⟩ := h0
    unfold resolveRaw at hr
    rw [if_neg (by rw [h0]; simp)] at hr
    have h1 : ∃ c cs, pySplit '/' (labelOf l ++ k) = c :: cs ∧ cs ≠ [] ∧ c ≠ "" ∧ c ≠ "." ∧ c ≠ ".." := by
      cases hq : splitC '/' r with
      | nil => exact absurd hq (splitC_ne_nil _ _)
      | cons q qs =>
        have e : splitC '/' (labelOf l ++ k).toList = ('_' :: '_' :: q) :: qs := by
          rw [h0]; simp [splitC, hq]
        refine ⟨String.ofList ('_' :: '_' :: q), qs.map String.ofList, by rw [pySplit, e]; rfl, ?_, ?_, ?_, ?_⟩
        · intro e'
          have e' := List.map_eq_nil_iff.1 e'
          subst e'
          have h2 := splitC_not_mem '/' r q (by rw [hq]; exact List.mem_cons_self)
          have h3 := joinC_splitC '/' r
          rw [hq] at h3
          simp only [joinC] at h3
          rw [h0, ← h3] at hs
          simp [h2] at hs
        all_goals
          intro e'
          have := congrArg String.toList e'
          rw [String.toList_ofList] at this
          simp at this
    obtain ⟨c, cs, e, hcs, hc1, hc2, hc3⟩ := h1
    rw [e] at hr
    cases cs with
    | nil => exact hcs rfl
    | cons d ds => simp [resolveComps, hc1, hc2, hc3] at hr
  · rw [resolveRaw_plain hs] at hr
    split at hr
    · cases hr
    · cases hr; rfl

end Verif
