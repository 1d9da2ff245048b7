import Verif.Props.FileStore

/-!
# The file storage over time: reopening, clearing, failed writes: C49, C51, C56
-/

namespace Verif

/-! ## C49 -/

/-- the value comes back from the text written for it -/
def RoundTrips (conv : Conv) (v : Val) : Prop := ∃ t, conv.ser v = .ok t ∧ conv.deser (readText t) = .ok v

/-- only lock files differ -/
def SameData (d d' : Dir) : Prop := ∀ n, isLock n = false → dget d' n = dget d n

/-- the state of the loop of `synch` in a new instance over a directory representing `m`, with `done` handled -/
structure Opening (conv : Conv) (dir0 : Dir) (m : Assoc Val) (done : List String) (i : Inst) (dir : Dir)
    (m1 : Assoc Val) : Prop where
  nodup : DNodup m1
  dnodup : DNodup dir
  cache : i.cache = cacheOf m1
  same : SameData dir0 dir
  got : ∀ k, dget m1 k = if quotePlus k ∈ done then dget m k else none
  seen : ∀ k v, dget m1 k = some v → ∃ f, dget dir (quotePlus k) = some f ∧ dget i.fmtime (quotePlus k) = some f.mtime
  unseen : ∀ n, n ∉ done → dget i.fmtime n = none

theorem opening_step {conv : Conv} {i0 : Inst} {dir0 : Dir} {m : Assoc Val} (h : Inv conv i0 dir0 m)
    (hv : ∀ k v, dget m k = some v → RoundTrips conv v) (now : Nat) {done : List String} {i : Inst} {dir : Dir}
    {m1 : Assoc Val} (ho : Opening conv dir0 m done i dir m1) (n : String) (hn : n ∉ done) :
    ∃ i' dir' m1', synchOne conv now n i dir = ⟨.ok (), i', dir'⟩ ∧ Opening conv dir0 m (done ++ [n]) i' dir' m1' := by
  have hkeep : (∀ k, quotePlus k = n → dget m k = none) → Opening conv dir0 m (done ++ [n]) i dir m1 := by
    intro hno
    refine ⟨ho.nodup, ho.dnodup, ho.cache, ho.same, fun k => ?_, ho.seen, fun n' hn' => ho.unseen n' (fun x => hn' (by simp [x]))⟩
    rw [ho.got k]
    by_cases e : quotePlus k = n
    · rw [hno k e]; simp
    · have : (quotePlus k ∈ done ++ [n]) ↔ quotePlus k ∈ done := by simp [e]
      simp only [this]
  unfold synchOne
  cases hd : dget dir n with
  | none =>
    refine ⟨i, dir, m1, rfl, hkeep ?_⟩
    intro k e
    cases hk : dget m k with
    | none => rfl
    | some v =>
      obtain ⟨f, hf, _⟩ := h.file k v hk
      have := ho.same (quotePlus k) (not_lock (h.good k v hk).1)
      rw [e, hd, ← e, hf] at this
      simp at this
  | some f =>
    simp only
    cases hl : isLock n with
    | true =>
      refine ⟨i, dir, m1, by simp, hkeep ?_⟩
      intro k e
      cases hk : dget m k with
      | none => rfl
      | some v =>
        have := not_lock (h.good k v hk).1
        rw [e, hl] at this; simp at this
    | false =>
      simp only [Bool.false_eq_true, if_false, dhas, ho.unseen n hn, Option.isSome_none]
      have hd0 : dget dir0 n = some f := by rw [← ho.same n hl]; exact hd
      obtain ⟨k, hk, e⟩ := h.only n hl (by simp [dhas, hd0])
      subst e
      obtain ⟨v, hkv⟩ := Option.isSome_iff_exists.1 hk
      obtain ⟨f', hf', _, hser⟩ := h.file k v hkv
      rw [hd0] at hf'; cases hf'
      obtain ⟨t, ht, htv⟩ := hv k v hkv
      rw [hser] at ht; cases ht
      have hu := (h.good k v hkv).2
      refine ⟨⟨dset i.cache (quotePlus k) v, dset i.fmtime (quotePlus k) f.mtime⟩,
        dset dir (lockName (quotePlus k)) ⟨"", now⟩, dset m1 k v, ?_, ?_⟩
      · simp only [firstSeen, readInfo, hd, acquire_ok hu.2.2.2, htv]
      · refine ⟨dset_nodup ho.nodup _ _, dset_nodup ho.dnodup _ _, ?_, ?_, fun k' => ?_, fun k' v' hk' => ?_,
          fun n' hn' => ?_⟩
        · simp only; rw [ho.cache, dset_cacheOf]
        · intro n' hl'
          rw [dget_dset_ne _ _ (lock_ne hl')]
          exact ho.same n' hl'
        · rw [dget_dset]
          by_cases e : k = k'
          · subst e; simp [hkv]
          · have e' : quotePlus k' ≠ quotePlus k := fun x => e (quotePlus_inj x.symm)
            rw [if_neg e, ho.got k']
            have : (quotePlus k' ∈ done ++ [quotePlus k]) ↔ quotePlus k' ∈ done := by simp [e']
            simp only [this]
        · rw [dget_dset] at hk'
          simp only
          by_cases e : k = k'
          · subst e
            rw [dget_dset_same, dget_dset_ne _ _ (lock_ne hl)]
            exact ⟨f, hd, rfl⟩
          · rw [if_neg e] at hk'
            have e' : quotePlus k ≠ quotePlus k' := fun x => e (quotePlus_inj x)
            obtain ⟨g, h1, h2⟩ := ho.seen k' v' hk'
            have hm : dget m k' = some v' := by
              have := ho.got k'
              rw [hk'] at this
              split at this
              · exact this.symm
              · simp at this
            rw [dget_dset_ne _ _ (lock_ne (not_lock (h.good k' v' hm).1)), dget_dset_ne _ _ e']
            exact ⟨g, h1, h2⟩
        · have : quotePlus k ≠ n' := by
            rintro rfl
            exact hn' (by simp)
          simp only
          rw [dget_dset_ne _ _ this]
          exact ho.unseen n' (fun x => hn' (by simp [x]))

theorem opening_all {conv : Conv} {i0 : Inst} {dir0 : Dir} {m : Assoc Val} (h : Inv conv i0 dir0 m)
    (hv : ∀ k v, dget m k = some v → RoundTrips conv v) (now : Nat) (ns : List String) :
    ∀ (done : List String) (i : Inst) (dir : Dir) (m1 : Assoc Val), Opening conv dir0 m done i dir m1 →
      (∀ n ∈ ns, n ∉ done) → ns.Nodup →
      ∃ i' dir' m1', synchAll conv now ns i dir = ⟨.ok (), i', dir'⟩ ∧ Opening conv dir0 m (done ++ ns) i' dir' m1' := by
  induction ns with
  | nil => intro done i dir m1 ho _ _; exact ⟨i, dir, m1, rfl, by simpa using ho⟩
  | cons n ns ih =>
    intro done i dir m1 ho hd hnd
    obtain ⟨i1, dir1, m2, e1, ho1⟩ := opening_step h hv now ho n (hd n (by simp))
    rw [List.nodup_cons] at hnd
    obtain ⟨i2, dir2, m3, e2, ho2⟩ := ih (done ++ [n]) i1 dir1 m2 ho1
      (by
        intro x hx hx'
        rcases List.mem_append.1 hx' with h1 | h1
        · exact hd x (by simp [hx]) h1
        · simp at h1; subst h1; exact hnd.1 hx) hnd.2
    refine ⟨i2, dir2, m3, ?_, by simpa using ho2⟩
    rw [synchAll, e1]
    exact e2

/-- C49: whatever instance a directory was written by, a new instance over it represents the same dictionary: every
key has its value and no other key appears.  (With `C47_map`, all its further answers follow.) -/
theorem C49_reopen {conv : Conv} {i0 : Inst} {dir0 : Dir} {m : Assoc Val} (h : Inv conv i0 dir0 m)
    (hv : ∀ k v, dget m k = some v → RoundTrips conv v) (now : Nat) :
    ∃ m', (fsOpen conv now dir0).res = .ok () ∧
      Inv conv (fsOpen conv now dir0).inst (fsOpen conv now dir0).dir m' ∧ ∀ k, dget m' k = dget m k := by
  have hopen : Opening conv dir0 m [] ⟨[], []⟩ dir0 [] := by
    refine ⟨by simp [DNodup], h.dnodup, rfl, fun n _ => rfl, fun k => by simp, fun k v hk => by simp at hk, fun n _ => rfl⟩
  obtain ⟨i, dir, m1, e, ho⟩ := opening_all h hv now (dkeys dir0) [] _ _ _ hopen (by simp) h.dnodup
  simp only [List.nil_append] at ho
  have hget : ∀ k, dget m1 k = dget m k := by
    intro k
    rw [ho.got k]
    split
    · rfl
    · rename_i hk
      cases hm : dget m k with
      | none => rfl
      | some v =>
        obtain ⟨f, hf, _⟩ := h.file k v hm
        exact absurd ((dhas_iff _ _).1 (by simp [dhas, hf])) hk
  have e' : fsOpen conv now dir0 = ⟨.ok (), i, dir⟩ := e
  refine ⟨m1, by rw [e'], ?_, hget⟩
  rw [e']
  refine ⟨ho.nodup, ho.dnodup, ho.cache, fun k v hk => h.good k v (by rw [← hget k]; exact hk), fun k v hk => ?_,
    fun n hl hd => ?_⟩
  · obtain ⟨f, h1, h2⟩ := ho.seen k v hk
    rw [hget k] at hk
    obtain ⟨f', h3, _, h4⟩ := h.file k v hk
    have := ho.same (quotePlus k) (not_lock (h.good k v hk).1)
    rw [h1, h3] at this; cases this
    exact ⟨f, h1, h2, h4⟩
  · rw [dhas, ho.same n hl] at hd
    obtain ⟨k, hk, en⟩ := h.only n hl hd
    exact ⟨k, by rw [dhas, hget k]; exact hk, en⟩

/-- C49 in the words of the claim: write any history, reopen, and read -/
theorem C49_history {conv : Conv} (ops : List (Nat × FsOp)) (hl : ∀ o ∈ ops, o.2.Legal conv)
    (hv : ∀ k v, dget (mapRun (ops.map (·.2)) []).2 k = some v → RoundTrips conv v) (now now' : Nat) (k : String)
    (hr : ¬ Reserved k) :
    let dir := (fsRun conv ops ⟨[], []⟩ []).2.2
    (fsGet conv now' k (fsOpen conv now dir).inst (fsOpen conv now dir).dir).res =
      (match dget (mapRun (ops.map (·.2)) []).2 k with | some v => .ok v | none => .error .keyError) := by
  intro dir
  obtain ⟨_, h⟩ := C47_map conv ops _ _ _ (inv_empty conv) hl
  obtain ⟨m', _, h2, h3⟩ := C49_reopen h hv now
  rw [fsGet_map h2 now' k hr]
  simp only [h3 k]
  cases dget (mapRun (ops.map (·.2)) []).2 k <;> rfl

/-! ### which values survive -/

theorem univ_id (s : List Char) (h : '\r' ∉ s) : univNewlines false s = s := by
  induction s with
  | nil => rfl
  | cons c cs ih =>
    have h1 : c ≠ '\r' := by rintro rfl; simp at h
    have h2 : '\r' ∉ cs := fun x => h (by simp [x])
    simp [univNewlines, h1, ih h2]

theorem lstripC_id {s : List Char} (h : ∀ c, s.head? = some c → pyIsSpace c = false) : lstripC s = s := by
  cases s with
  | nil => rfl
  | cons c cs => simp [lstripC, h c rfl]

theorem stripC_id {s : List Char} (h : ∀ c, s.head? = some c → pyIsSpace c = false)
    (h' : ∀ c, s.getLast? = some c → pyIsSpace c = false) : stripC s = s := by
  unfold stripC
  rw [lstripC_id h, rstripC, lstripC_id (by simpa using h'), List.reverse_reverse]

theorem readText_id {s : String} (h0 : '\r' ∉ s.toList) (h : ∀ c, s.toList.head? = some c → pyIsSpace c = false)
    (h' : ∀ c, s.toList.getLast? = some c → pyIsSpace c = false) : readText s = s := by
  unfold readText
  rw [univ_id _ h0, stripC_id h h', String.ofList_toList]

/-- Texts stored as they are survive if they have no carriage return and no white space at the ends. -/
theorem C49_passThru (s : String) (h0 : '\r' ∉ s.toList) (h : ∀ c, s.toList.head? = some c → pyIsSpace c = false)
    (h' : ∀ c, s.toList.getLast? = some c → pyIsSpace c = false) : RoundTrips passThru (.str s) :=
  ⟨s, rfl, by simp [passThru, readText_id h0 h h']⟩

example : RoundTrips passThru (.str "two words\nand a line") := C49_passThru _ (by decide) (by decide) (by decide)

/-- the characters `str.strip` removes -/
def whiteSpace : List Nat := [9, 10, 11, 12, 13, 28, 29, 30, 31, 32, 0x85, 0xA0, 0x1680, 0x2000, 0x2001, 0x2002, 0x2003,
  0x2004, 0x2005, 0x2006, 0x2007, 0x2008, 0x2009, 0x200A, 0x2028, 0x2029, 0x202F, 0x205F, 0x3000]

theorem space_iff (c : Char) : pyIsSpace c = true ↔ c.toNat ∈ whiteSpace := by
  simp only [pyIsSpace, whiteSpace, Bool.or_eq_true, Bool.and_eq_true, decide_eq_true_eq, beq_iff_eq, List.mem_cons,
    List.not_mem_nil, or_false]
  omega

theorem univ_no_cr (b : Bool) (s : List Char) : '\r' ∉ univNewlines b s := by
  induction s generalizing b with
  | nil => cases b <;> simp [univNewlines]
  | cons c cs ih =>
    unfold univNewlines
    split
    · simp [ih]
    · split
      · exact ih _
      · rename_i hc _
        simp only [List.mem_cons, not_or]
        exact ⟨fun e => hc e.symm, ih _⟩

theorem lstripC_mem {c : Char} {s : List Char} (h : c ∈ lstripC s) : c ∈ s := by
  induction s with
  | nil => exact h
  | cons x xs ih =>
    simp only [lstripC] at h
    split at h
    · exact List.mem_cons_of_mem _ (ih h)
    · exact h

theorem lstripC_length (s : List Char) : (lstripC s).length ≤ s.length := by
  induction s with
  | nil => exact Nat.le_refl _
  | cons x xs ih =>
    simp only [lstripC]
    split
    · simp only [List.length_cons]; omega
    · exact Nat.le_refl _

theorem lstripC_fixed {s : List Char} (h : (lstripC s).length = s.length) : ∀ c, s.head? = some c → pyIsSpace c = false := by
  intro c hc
  cases s with
  | nil => cases hc
  | cons x xs =>
    cases hc
    simp only [lstripC] at h
    split at h
    · have := lstripC_length xs
      simp only [List.length_cons] at h
      omega
    · rename_i hx; simpa using hx

/-- C49 for texts stored as they are, exactly: a text survives reopening if and only if it has no carriage return and no
white space at its ends. -/
theorem C49_text_iff (s : String) : RoundTrips passThru (.str s) ↔ '\r' ∉ s.toList ∧
    (∀ c, s.toList.head? = some c → c.toNat ∉ whiteSpace) ∧ ∀ c, s.toList.getLast? = some c → c.toNat ∉ whiteSpace := by
  constructor
  · rintro ⟨t, h1, h2⟩
    simp only [passThru, Except.ok.injEq] at h1
    subst h1
    have h3 : stripC (univNewlines false s.toList) = s.toList := by
      simp only [passThru, readText, Except.ok.injEq, Val.str.injEq] at h2
      have := congrArg String.toList h2
      rwa [String.toList_ofList] at this
    have hcr : '\r' ∉ s.toList := by
      intro hm
      rw [← h3] at hm
      simp only [stripC, rstripC, List.mem_reverse] at hm
      exact univ_no_cr _ _ (lstripC_mem (List.mem_reverse.1 (lstripC_mem hm)))
    rw [univ_id _ hcr] at h3
    have l1 := lstripC_length s.toList
    have l2 := lstripC_length (lstripC s.toList).reverse
    have l3 := congrArg List.length h3
    simp only [stripC, rstripC, List.length_reverse] at l3 l2
    have e1 := lstripC_fixed (s := s.toList) (by omega)
    have e2 := lstripC_fixed (s := s.toList.reverse) (by
      rw [lstripC_id e1] at l3; rw [List.length_reverse]; exact l3)
    refine ⟨hcr, fun c hc => ?_, fun c hc => ?_⟩
    · rw [← space_iff, e1 c hc]; simp
    · rw [← space_iff, e2 c (by simpa using hc)]; simp
  · rintro ⟨h0, h1, h2⟩
    refine C49_passThru s h0 (fun c hc => ?_) (fun c hc => ?_)
    · have := h1 c hc; rw [← space_iff] at this; simpa using this
    · have := h2 c hc; rw [← space_iff] at this; simpa using this

/-- C49: without the condition it fails: white space at the ends is lost on reopening, carriage returns change. -/
theorem C49_counterexample :
    let dir := (fsRun passThru [(1, .set "k" (.str " x\n"))] ⟨[], []⟩ []).2.2
    (fsGet passThru 3 "k" (fsOpen passThru 2 dir).inst (fsOpen passThru 2 dir).dir).res = .ok (.str "x") ∧
    ¬ RoundTrips passThru (.str "a\rb") := by
  refine ⟨by decide +kernel, ?_⟩
  rintro ⟨t, h1, h2⟩
  simp only [passThru, Except.ok.injEq] at h1
  subst h1
  exact absurd h2 (by decide +kernel)

/-- visible ASCII, or a blank -/
def printable (s : List Char) : Prop := ∀ c ∈ s, 32 ≤ c.toNat ∧ c.toNat ≤ 126

theorem printable_append {a b : List Char} (ha : printable a) (hb : printable b) : printable (a ++ b) := by
  intro c hc
  rcases List.mem_append.1 hc with h | h
  · exact ha c h
  · exact hb c h

theorem printable_cons {c : Char} {a : List Char} (hc : 32 ≤ c.toNat ∧ c.toNat ≤ 126) (ha : printable a) :
    printable (c :: a) := by
  intro x hx
  rcases List.mem_cons.1 hx with h | h
  · subst h; exact hc
  · exact ha x h

theorem hexDigitL_printable {n : Nat} (h : n < 16) : 32 ≤ (hexDigitL n).toNat ∧ (hexDigitL n).toNat ≤ 126 := by
  have : ∀ m : Fin 16, 32 ≤ (hexDigitL m.val).toNat ∧ (hexDigitL m.val).toNat ≤ 126 := by decide
  exact this ⟨n, h⟩

theorem uEsc_printable (n : Nat) : printable (uEsc n) := by
  unfold uEsc
  refine printable_cons (by decide) (printable_cons (by decide) (printable_cons (hexDigitL_printable (by omega))
    (printable_cons (hexDigitL_printable (by omega)) (printable_cons (hexDigitL_printable (by omega))
    (printable_cons (hexDigitL_printable (by omega)) ?_)))))
  intro c hc; simp at hc

theorem jsonEscChar_printable (c : Char) : printable (jsonEscChar c) := by
  unfold jsonEscChar
  repeat' split
  all_goals first
    | exact uEsc_printable _
    | exact printable_append (uEsc_printable _) (uEsc_printable _)
    | (rename_i h; intro x hx; simp at hx; subst hx; exact h)
    | (intro x hx; simp at hx; rcases hx with rfl | rfl <;> decide)

theorem jsonStr_printable (s : String) : printable (jsonStr s) := by
  unfold jsonStr
  refine printable_cons (by decide) (printable_append ?_ ?_)
  · intro c hc
    simp only [jsonEsc, List.mem_flatMap] at hc
    obtain ⟨d, _, h⟩ := hc
    exact jsonEscChar_printable d c h
  · intro c hc; simp at hc; subst hc; decide

/-- printable, not empty, and no blank at the ends -/
structure Solid (s : List Char) : Prop where
  print : printable s
  head : ∃ c, s.head? = some c ∧ c.toNat ≠ 32
  last : ∃ c, s.getLast? = some c ∧ c.toNat ≠ 32

theorem digits_solid {s : List Char} (h : ∀ c ∈ s, isDigitC c = true) (hne : s ≠ []) : Solid s := by
  have hd : ∀ c ∈ s, 48 ≤ c.toNat ∧ c.toNat ≤ 57 := by
    intro c hc
    have := h c hc
    simp [isDigitC] at this
    exact this
  refine ⟨fun c hc => ?_, ?_, ?_⟩
  · have := hd c hc; omega
  · cases s with
    | nil => exact absurd rfl hne
    | cons c cs => exact ⟨c, rfl, by have := hd c (by simp); omega⟩
  · exact ⟨s.getLast hne, List.getLast?_eq_some_getLast hne, by have := hd _ (List.getLast_mem hne); omega⟩

theorem solid_cons {c : Char} {s : List Char} (hc : 32 < c.toNat ∧ c.toNat ≤ 126) (hp : printable s)
    (hl : ∃ d, s.getLast? = some d ∧ d.toNat ≠ 32) : Solid (c :: s) := by
  refine ⟨printable_cons (by omega) hp, ⟨c, rfl, by omega⟩, ?_⟩
  obtain ⟨d, h1, h2⟩ := hl
  refine ⟨d, ?_, h2⟩
  rw [List.getLast?_cons, h1]; rfl

theorem last_append {a b : List Char} (h : ∃ d, b.getLast? = some d ∧ d.toNat ≠ 32) :
    ∃ d, (a ++ b).getLast? = some d ∧ d.toNat ≠ 32 := by
  obtain ⟨d, h1, h2⟩ := h
  exact ⟨d, by rw [List.getLast?_append, h1]; rfl, h2⟩

theorem last_cons {c : Char} {b : List Char} (h : ∃ d, b.getLast? = some d ∧ d.toNat ≠ 32) :
    ∃ d, (c :: b).getLast? = some d ∧ d.toNat ≠ 32 := last_append (a := [c]) h

theorem solid_of_all {s : List Char} (h : ∀ c ∈ s, 32 < c.toNat ∧ c.toNat ≤ 126) (hne : s ≠ []) : Solid s := by
  refine ⟨fun c hc => ?_, ?_, ?_⟩
  · have := h c hc; omega
  · cases s with
    | nil => exact absurd rfl hne
    | cons c cs => exact ⟨c, rfl, by have := h c (by simp); omega⟩
  · exact ⟨s.getLast hne, List.getLast?_eq_some_getLast hne, by have := h _ (List.getLast_mem hne); omega⟩

/-- The text of a float has no blank. -/
theorem numText_chars {t : NumText} (ht : t.Ok) : ∀ c ∈ t.text, 32 < c.toNat ∧ c.toNat ≤ 126 := by
  have hdig : ∀ c, isDigitC c = true → 32 < c.toNat ∧ c.toNat ≤ 126 := by
    intro c hc
    simp [isDigitC] at hc
    omega
  intro c hc
  unfold NumText.text at hc
  rw [List.mem_append, List.mem_append] at hc
  rcases hc with hc | hc | hc
  · exact hdig c (ht.int_digits c hc)
  · split at hc
    · cases hc
    · rcases List.mem_cons.1 hc with rfl | hc
      · decide
      · exact hdig c (ht.frac_digits c hc)
  · split at hc
    · cases hc
    · next neg ed he =>
      rcases List.mem_cons.1 hc with rfl | hc
      · decide
      · rcases List.mem_cons.1 hc with rfl | hc
        · split <;> decide
        · exact hdig c ((ht.exp_digits neg ed he).1 c hc)

theorem floatRepr_solid {q : Rat} (hq : isDouble q = true) : Solid (floatRepr q) := by
  obtain ⟨m, hm, _, hu, _⟩ := isDouble_elim hq
  obtain ⟨t, t1, t2, _⟩ := unitsRepr_text hm
  obtain ⟨c, r, hr, _⟩ := floatRepr_start q
  refine solid_of_all ?_ (by rw [hr]; simp)
  intro c hc
  unfold floatRepr at hc
  rw [hu, t2] at hc
  split at hc
  · rcases List.mem_cons.1 hc with rfl | hc
    · decide
    · exact numText_chars t1 c hc
  · exact numText_chars t1 c hc

mutual
theorem dumpsC_solid : (v : Val) → (s : List Char) → dumpsC v = .ok s → Solid s
  | .none, s, h => by
    simp only [dumpsC, Except.ok.injEq] at h; subst h
    exact ⟨by unfold printable; decide, ⟨_, rfl, by decide⟩, ⟨_, rfl, by decide⟩⟩
  | .bool true, s, h => by
    simp only [dumpsC, Except.ok.injEq] at h; subst h
    exact ⟨by unfold printable; decide, ⟨_, rfl, by decide⟩, ⟨_, rfl, by decide⟩⟩
  | .bool false, s, h => by
    simp only [dumpsC, Except.ok.injEq] at h; subst h
    exact ⟨by unfold printable; decide, ⟨_, rfl, by decide⟩, ⟨_, rfl, by decide⟩⟩
  | .int i, s, h => by
    simp only [dumpsC, Except.ok.injEq] at h; subst h
    cases i with
    | ofNat n => exact digits_solid (natDigits_digit n) (natDigits_ne_nil n)
    | negSucc n =>
      have := digits_solid (natDigits_digit (n + 1)) (natDigits_ne_nil (n + 1))
      exact solid_cons (by decide) this.print this.last
  | .flt q, s, h => by
    rw [dumpsC] at h
    obtain ⟨hq, rfl⟩ := floatText_ok h
    exact floatRepr_solid hq
  | .str t, s, h => by
    simp only [dumpsC, Except.ok.injEq] at h; subst h
    refine ⟨jsonStr_printable t, ⟨_, rfl, by decide⟩, last_cons (last_append ⟨'"', rfl, by decide⟩)⟩
  | .list [], s, h => by
    simp only [dumpsC, Except.ok.injEq] at h; subst h
    exact ⟨by unfold printable; decide, ⟨_, rfl, by decide⟩, ⟨_, rfl, by decide⟩⟩
  | .list (v :: vs), s, h => by
    cases ha : dumpsC v with
    | error e => simp [dumpsC, ha, bind, Except.bind] at h
    | ok a =>
      cases hb : dumpsList vs with
      | error e => simp [dumpsC, ha, hb, bind, Except.bind] at h
      | ok b =>
        simp only [dumpsC, ha, hb, bind, Except.bind, Except.ok.injEq] at h
        subst h
        have h1 := dumpsC_solid v a ha
        have h2 := dumpsList_solid vs b hb
        exact solid_cons (by decide) (printable_append h1.print h2.1) (last_append h2.2)
  | .dict [], s, h => by
    simp only [dumpsC, Except.ok.injEq] at h; subst h
    exact ⟨by unfold printable; decide, ⟨_, rfl, by decide⟩, ⟨_, rfl, by decide⟩⟩
  | .dict ((k, v) :: d), s, h => by
    cases ha : dumpsC v with
    | error e => simp [dumpsC, ha, bind, Except.bind] at h
    | ok a =>
      cases hb : dumpsDict d with
      | error e => simp [dumpsC, ha, hb, bind, Except.bind] at h
      | ok b =>
        simp only [dumpsC, ha, hb, bind, Except.bind, Except.ok.injEq] at h
        subst h
        have h1 := dumpsC_solid v a ha
        have h2 := dumpsDict_solid d b hb
        exact solid_cons (by decide) (printable_append (jsonStr_printable k) (printable_cons (by decide)
          (printable_cons (by decide) (printable_append h1.print h2.1))))
          (last_append (last_cons (last_cons (last_append h2.2))))
  | .msg _ _, s, h => by simp [dumpsC] at h
theorem dumpsList_solid : (l : List Val) → (s : List Char) → dumpsList l = .ok s →
    printable s ∧ ∃ d, s.getLast? = some d ∧ d.toNat ≠ 32
  | [], s, h => by
    simp only [dumpsList, Except.ok.injEq] at h; subst h
    exact ⟨by unfold printable; decide, ⟨_, rfl, by decide⟩⟩
  | v :: vs, s, h => by
    cases ha : dumpsC v with
    | error e => simp [dumpsList, ha, bind, Except.bind] at h
    | ok a =>
      cases hb : dumpsList vs with
      | error e => simp [dumpsList, ha, hb, bind, Except.bind] at h
      | ok b =>
        simp only [dumpsList, ha, hb, bind, Except.bind, Except.ok.injEq] at h
        subst h
        have h1 := dumpsC_solid v a ha
        have h2 := dumpsList_solid vs b hb
        exact ⟨printable_cons (by decide) (printable_cons (by decide) (printable_append h1.print h2.1)),
          last_cons (last_cons (last_append h2.2))⟩
theorem dumpsDict_solid : (l : List (String × Val)) → (s : List Char) → dumpsDict l = .ok s →
    printable s ∧ ∃ d, s.getLast? = some d ∧ d.toNat ≠ 32
  | [], s, h => by
    simp only [dumpsDict, Except.ok.injEq] at h; subst h
    exact ⟨by unfold printable; decide, ⟨_, rfl, by decide⟩⟩
  | (k, v) :: vs, s, h => by
    cases ha : dumpsC v with
    | error e => simp [dumpsDict, ha, bind, Except.bind] at h
    | ok a =>
      cases hb : dumpsDict vs with
      | error e => simp [dumpsDict, ha, hb, bind, Except.bind] at h
      | ok b =>
        simp only [dumpsDict, ha, hb, bind, Except.bind, Except.ok.injEq] at h
        subst h
        have h1 := dumpsC_solid v a ha
        have h2 := dumpsDict_solid vs b hb
        exact ⟨printable_cons (by decide) (printable_cons (by decide) (printable_append (jsonStr_printable k)
          (printable_cons (by decide) (printable_cons (by decide) (printable_append h1.print h2.1))))),
          last_cons (last_cons (last_append (last_cons (last_cons (last_append h2.2)))))⟩
end

theorem space_of_printable {c : Char} (h : 32 ≤ c.toNat ∧ c.toNat ≤ 126) (h' : c.toNat ≠ 32) : pyIsSpace c = false := by
  unfold pyIsSpace
  simp
  omega

/-- JSON data always survive with the JSON converter. -/
theorem C49_json (v : Val) (h : v.isJson = true) : RoundTrips jsonConv v := by
  obtain ⟨s, hs, hl⟩ := loads_dumps v h
  refine ⟨s, hs, ?_⟩
  have hsol : Solid s.toList := by
    unfold dumps at hs
    cases hd : dumpsC v with
    | error e => rw [hd] at hs; simp [Except.map] at hs
    | ok cs =>
      rw [hd] at hs
      simp only [Except.map, Except.ok.injEq] at hs
      subst hs
      rw [String.toList_ofList]
      exact dumpsC_solid v cs hd
  have : readText s = s := by
    refine readText_id ?_ ?_ ?_
    · intro hc
      have := hsol.print _ hc
      exact absurd this (by decide)
    · intro c hc
      obtain ⟨d, h1, h2⟩ := hsol.head
      rw [hc] at h1; cases h1
      exact space_of_printable (hsol.print c (List.mem_of_head? hc)) h2
    · intro c hc
      obtain ⟨d, h1, h2⟩ := hsol.last
      rw [hc] at h1; cases h1
      exact space_of_printable (hsol.print c (List.mem_of_getLast? hc)) h2
  simp only [jsonConv, this, hl]

example : RoundTrips jsonConv (.dict [("a", .list [.int 1, .str " x\r\n", .none])]) := C49_json _ (by decide +kernel)

/-! ## C51 -/

/-- With the JSON converter the empty text cannot be read back (it is what a write leaves that fails or dies half way, see
`Props/Concurrent.lean`). -/
theorem C51_crash_json : jsonConv.deser (readText "") = .error .jsonDecodeError := by decide +kernel

/-- C51 fails without any crash when the value cannot be serialised: the file is emptied first.  Afterwards the same
instance raises for a key that was fine before, and after reopening the key is gone. -/
theorem C51_counterexample :
    (fsRun jsonConv [(1, .set "k" (.int 1)), (2, .set "k" (.msg ⟨"message", "Message"⟩ [])), (2, .get "k"), (2, .get "k")]
      ⟨[], []⟩ []).1 = [.unit (.ok ()), .unit (.error .typeError), .val (.error .jsonDecodeError), .val (.ok (.int 1))] ∧
    (let dir := (fsRun jsonConv [(1, .set "k" (.int 1)), (2, .set "k" (.msg ⟨"message", "Message"⟩ []))] ⟨[], []⟩ []).2.2
     (fsRun jsonConv [(3, .keys), (3, .get "k")] (fsOpen jsonConv 3 dir).inst (fsOpen jsonConv 3 dir).dir).1 =
       [.keys (.ok []), .val (.error .jsonDecodeError)]) := by decide +kernel

/-- C51, exactly what a failing serialisation does: the file of the key is emptied; every other data file, the cache and
the recorded times are untouched. -/
theorem C51_failed_write_partial {conv : Conv} (now : Nat) (k : String) (v : Val) (i : Inst) (dir : Dir) (e : Exc)
    (hu : Usable k) (hs : conv.ser v = .error e) :
    (fsSet conv now k v i dir).res = .error e ∧ (fsSet conv now k v i dir).inst = i ∧
    (¬ Reserved k → dget (fsSet conv now k v i dir).dir (quotePlus k) = some ⟨"", now⟩) ∧
    ∀ n, isLock n = false → n ≠ quotePlus k → dget (fsSet conv now k v i dir).dir n = dget dir n := by
  unfold fsSet
  simp only [acquire_ok hu.2.2.2, usable_not_dirName hu, Bool.false_eq_true, if_false, hs]
  refine ⟨trivial, trivial, fun _ => dget_dset_same _ _ _, fun n hl hn => ?_⟩
  rw [dget_dset_ne _ _ (Ne.symm hn), dget_dset_ne _ _ (lock_ne hl)]

/-- C51, the part that holds: a write refused because of its key (directory names, names too long) changes no data file
and nothing in the instance. -/
theorem C51_refused_partial {conv : Conv} (now : Nat) (k : String) (v : Val) (i : Inst) (dir : Dir) (hu : ¬ Usable k) :
    (fsSet conv now k v i dir).res = .error .osError ∧ (fsSet conv now k v i dir).inst = i ∧
    ∀ n, isLock n = false → dget (fsSet conv now k v i dir).dir n = dget dir n := by
  unfold fsSet
  rcases acquire_cases now dir (quotePlus k) with ha | ⟨ha, hsz⟩
  · rw [ha]
    rcases dirName_usable k hu with hd | hd
    · simp only [hd, if_true]
      exact ⟨trivial, trivial, fun n hl => dget_dset_ne _ _ (lock_ne hl)⟩
    · unfold acquire at ha; rw [size_lockName, if_neg (by omega)] at ha; simp at ha
  · rw [ha]; exact ⟨rfl, rfl, fun _ _ => rfl⟩

example : ¬ Usable ".." ∧ Usable "a b" := by decide +kernel

end Verif
