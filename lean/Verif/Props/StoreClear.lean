import Verif.Props.StoreReopen

/-!
# Clearing the file storage: C56
-/

namespace Verif

/-- a proper file name: one path component, not the name of a directory -/
def FileName (n : String) : Prop := '/' ∉ n.toList ∧ isDirName n = false

/-- every name in the directory is a proper file name of at most `b` bytes -/
def Short (b : Nat) (dir : Dir) : Prop := ∀ n ∈ dkeys dir, FileName n ∧ n.utf8ByteSize ≤ b

theorem fileName_lockName {n : String} (h : '/' ∉ n.toList) : FileName (lockName n) := by
  constructor
  · rw [lockName, String.toList_append]
    simp only [List.mem_append, not_or]
    exact ⟨h, by decide⟩
  · rw [← Bool.not_eq_true]
    intro hd
    have h := isLock_lockName n
    simp only [isDirName, Bool.or_eq_true, beq_iff_eq] at hd
    rcases hd with (e | e) | e <;> rw [e] at h <;> exact absurd h (by decide)

theorem fsDel_file {n : String} (hf : FileName n) (hs : n.utf8ByteSize ≤ 250) (now : Nat) (i : Inst) (dir : Dir) :
    fsDel now n i dir = if dhas dir n then ⟨.ok (), dropCache n i, ddel (dset dir (lockName n) ⟨"", now⟩) n⟩
      else ⟨.ok (), dropCache n i, dir⟩ := by
  unfold fsDel
  rw [resolveRaw_plain hf.1, hf.2]
  simp only [Bool.false_eq_true, if_false, acquire_ok hs]

theorem fsDel_long {n : String} (hf : FileName n) (hs : ¬ n.utf8ByteSize ≤ 250) (now : Nat) (i : Inst) (dir : Dir)
    (hd : dhas dir n = true) : fsDel now n i dir = ⟨.error .osError, i, dir⟩ := by
  unfold fsDel
  rw [resolveRaw_plain hf.1, hf.2]
  simp only [Bool.false_eq_true, if_false, hd, if_true]
  rcases acquire_cases now dir n with h | ⟨h, _⟩
  · unfold acquire at h
    rw [size_lockName, if_neg (by omega)] at h
    simp at h
  · rw [h]

theorem ne_lockName (n : String) : n ≠ lockName n := by
  intro e
  have := size_lockName n
  rw [← e] at this
  omega

/-- what the loop of `clear` does, for names short enough: exactly these names leave the cache, and of the directory
stay the names not listed and new lock files -/
theorem delEach_spec (now : Nat) (ns : List String) :
    ∀ (i : Inst) (dir : Dir), (∀ n ∈ ns, FileName n ∧ n.utf8ByteSize ≤ 250) → DNodup dir →
    ∃ i' dir', delEach now ns i dir = ⟨.ok (), i', dir'⟩ ∧ i'.fmtime = i.fmtime ∧ DNodup dir' ∧
      i'.cache = i.cache.filter (fun p => !ns.contains p.1) ∧
      ∀ n, dhas dir' n = true → (dhas dir n = true ∧ n ∉ ns) ∨ ∃ n' ∈ ns, n = lockName n' := by
  induction ns with
  | nil =>
    intro i dir _ hd
    exact ⟨i, dir, rfl, rfl, hd, (List.filter_eq_self.2 (fun _ _ => rfl)).symm, fun n hn => .inl ⟨hn, by simp⟩⟩
  | cons n ns ih =>
    intro i dir hs hd
    have hn := hs n (by simp)
    have hstep : ∃ dir1, fsDel now n i dir = ⟨.ok (), dropCache n i, dir1⟩ ∧ DNodup dir1 ∧
        ∀ x, dhas dir1 x = true → (dhas dir x = true ∧ x ≠ n) ∨ x = lockName n := by
      rw [fsDel_file hn.1 hn.2]
      by_cases h : dhas dir n = true
      · rw [if_pos h]
        refine ⟨_, rfl, ddel_nodup (dset_nodup hd _ _) _, fun x hx => ?_⟩
        rw [dhas, dget_ddel] at hx
        split at hx
        · simp at hx
        · rename_i hne
          rw [dget_dset] at hx
          split at hx
          · rename_i e; exact .inr e.symm
          · exact .inl ⟨hx, fun e => hne e.symm⟩
      · rw [if_neg h]
        refine ⟨_, rfl, hd, fun x hx => .inl ⟨hx, ?_⟩⟩
        rintro rfl; exact h hx
    obtain ⟨dir1, e1, hd1, hx1⟩ := hstep
    obtain ⟨i', dir', e2, h1, h2, h3, h4⟩ := ih (dropCache n i) dir1 (fun x hx => hs x (by simp [hx])) hd1
    refine ⟨i', dir', by rw [delEach, e1]; exact e2, h1, h2, ?_, fun x hx => ?_⟩
    · rw [h3]
      simp only [dropCache, ddel, List.filter_filter]
      congr 1
      funext p
      simp only [List.contains_cons]
      by_cases e : p.1 = n <;> simp [e]
    · rcases h4 x hx with ⟨ha, hb⟩ | ⟨n', hn', rfl⟩
      · rcases hx1 x ha with ⟨hc, hd⟩ | rfl
        · exact .inl ⟨hc, by simp [hb, hd]⟩
        · exact .inr ⟨n, by simp, rfl⟩
      · exact .inr ⟨n', by simp [hn'], rfl⟩

/-- C56: if no file name, lock files included, has more than 250 bytes, `clear` succeeds and leaves an instance and a
directory that represent the empty dictionary, so that every further answer is that of an empty dictionary
(`C47_map`). -/
theorem C56_partial {conv : Conv} {i : Inst} {dir : Dir} {m : Assoc Val} (h : Inv conv i dir m) (now : Nat)
    (hs : Short 250 dir) :
    (fsClear now i dir).res = .ok () ∧ Inv conv (fsClear now i dir).inst (fsClear now i dir).dir [] := by
  obtain ⟨i', dir', e, h1, h2, h3, h4⟩ := delEach_spec now (dkeys dir) i dir hs h.dnodup
  unfold fsClear
  rw [e]
  refine ⟨rfl, ⟨by simp [DNodup], h2, ?_, fun k v hk => by simp at hk, fun k v hk => by simp at hk, fun n hl hd => ?_⟩⟩
  · rw [h3, h.cache]
    simp only [cacheOf, List.map_nil, List.filter_eq_nil_iff]
    intro p hp
    obtain ⟨q, hq, rfl⟩ := List.mem_map.1 hp
    obtain ⟨f, hf, _⟩ := h.file q.1 q.2 (mem_dget h.nodup hq)
    have : quotePlus q.1 ∈ dkeys dir := (dhas_iff _ _).1 (by simp [dhas, hf])
    simp [this]
  · exfalso
    rcases h4 n hd with ⟨ha, hb⟩ | ⟨n', _, rfl⟩
    · exact hb ((dhas_iff _ _).1 ha)
    · rw [isLock_lockName] at hl; simp at hl

/-- C56 in the words of the claim -/
theorem C56_empty_partial {conv : Conv} {i : Inst} {dir : Dir} {m : Assoc Val} (h : Inv conv i dir m) (now now' : Nat)
    (hs : Short 250 dir) :
    let o := fsClear now i dir
    fsLen o.dir = 0 ∧ (fsKeys conv now' o.inst o.dir).res = .ok [] ∧
    ∀ k, ¬ Reserved k → (fsGet conv now' k o.inst o.dir).res = .error .keyError := by
  intro o
  obtain ⟨_, h2⟩ := C56_partial h now hs
  refine ⟨h2.fsLen, ?_, fun k hr => ?_⟩
  · simp only [fsKeys, o, synch, synch_map h2 now']
    rw [h2.cache]; rfl
  · simp only [o, fsGet_map h2 now' k hr, dget_nil]

/-! ### from histories -/

/-- the keys an operation may create files for -/
def FsOp.writes : FsOp → List String
  | .set k _ => [k]
  | .update ava => ava.map (·.1)
  | _ => []

theorem short_set {b : Nat} {dir : Dir} (h : Short b dir) {n : String} (f : File) (hn : FileName n ∧ n.utf8ByteSize ≤ b) :
    Short b (dset dir n f) := by
  intro x hx
  rcases (mem_dkeys_dset dir n x f).1 hx with rfl | hx
  · exact hn
  · exact h x hx

theorem fsSet_short {conv : Conv} {b : Nat} (now : Nat) (k : String) (v : Val) {i : Inst} {dir : Dir} (h : Short b dir)
    (hk : (quotePlus k).utf8ByteSize + 5 ≤ b) : Short b (fsSet conv now k v i dir).dir := by
  have hl : FileName (lockName (quotePlus k)) ∧ (lockName (quotePlus k)).utf8ByteSize ≤ b :=
    ⟨fileName_lockName (C46_single_component k).1, by rw [size_lockName]; exact hk⟩
  have h1 := fun f => short_set h f hl
  unfold fsSet
  rcases acquire_cases now dir (quotePlus k) with ha | ⟨ha, _⟩
  · rw [ha]
    simp only
    cases hd : isDirName (quotePlus k) with
    | true => simp only [if_true]; exact h1 _
    | false =>
      have hq : FileName (quotePlus k) ∧ (quotePlus k).utf8ByteSize ≤ b := ⟨⟨(C46_single_component k).1, hd⟩, by omega⟩
      simp only [Bool.false_eq_true, if_false]
      cases conv.ser v with
      | error e => exact short_set (h1 _) _ hq
      | ok t => exact short_set (h1 _) _ hq
  · rw [ha]; exact h

theorem fsUpdate_short {conv : Conv} {b : Nat} (now : Nat) (ava : List (String × Val)) :
    ∀ {i : Inst} {dir : Dir}, Short b dir → (∀ p ∈ ava, (quotePlus p.1).utf8ByteSize + 5 ≤ b) →
      Short b (fsUpdate conv now ava i dir).dir := by
  induction ava with
  | nil => intro i dir h _; exact h
  | cons p rest ih =>
    obtain ⟨k, v⟩ := p
    intro i dir h hk
    have h1 := fsSet_short (conv := conv) now k v (i := i) h (hk (k, v) (by simp))
    simp only [fsUpdate]
    revert h1
    generalize fsSet conv now k v i dir = o
    obtain ⟨r, i', dir'⟩ := o
    intro h1
    cases r with
    | error e => exact h1
    | ok u => exact ih h1 (fun q hq => hk q (by simp [hq]))

theorem fsDel_short {b : Nat} (now : Nat) (k : String) (i : Inst) {dir : Dir} (h : Short b dir)
    (hk : quotePlus k = k) (hb : k.utf8ByteSize + 5 ≤ b ∨ dhas dir k = false) : Short b (fsDel now k i dir).dir := by
  unfold fsDel
  rw [resolveRaw_plain (noSlash_of_self hk)]
  cases hd : isDirName k with
  | true => exact h
  | false =>
    simp only [Bool.false_eq_true, if_false]
    cases hh : dhas dir k with
    | false => exact h
    | true =>
      have hb' : k.utf8ByteSize + 5 ≤ b := by
        rcases hb with x | x
        · exact x
        · rw [hh] at x; simp at x
      simp only [if_true]
      rcases acquire_cases now dir k with ha | ⟨ha, _⟩
      · rw [ha]
        simp only
        intro x hx
        rw [dkeys_ddel] at hx
        have hx' := (List.mem_filter.1 hx).1
        exact short_set h _ ⟨fileName_lockName (noSlash_of_self hk), by rw [size_lockName]; exact hb'⟩ x hx'
      · rw [ha]; exact h

/-- dictionary keys of a short directory -/
theorem fsStep_short {conv : Conv} {b : Nat} {i : Inst} {dir : Dir} {m : Assoc Val} (h : Inv conv i dir m)
    (hs : Short b dir) (hm : ∀ k, dhas m k = true → (quotePlus k).utf8ByteSize + 5 ≤ b) (now : Nat) (op : FsOp)
    (hl : op.Legal conv) (hw : ∀ k ∈ op.writes, (quotePlus k).utf8ByteSize + 5 ≤ b) :
    Short b (fsStep conv now op i dir).2.2 ∧
    ∀ k, dhas (mapStep op m).2 k = true → (quotePlus k).utf8ByteSize + 5 ≤ b := by
  cases op with
  | set k v =>
    refine ⟨fsSet_short now k v hs (hw k (by simp [FsOp.writes])), fun k' hk' => ?_⟩
    simp only [mapStep, mapSet] at hk'
    split at hk'
    · rw [dhas, dget_dset] at hk'
      split at hk'
      · rename_i e; subst e; exact hw k (by simp [FsOp.writes])
      · exact hm k' hk'
    · exact hm k' hk'
  | get k => simp only [fsStep, mapStep, fsGet_map h now k hl]; exact ⟨hs, hm⟩
  | has k => exact ⟨hs, hm⟩
  | keys => simp only [fsStep, mapStep, fsKeys, synch, synch_map h now]; exact ⟨hs, hm⟩
  | items => simp only [fsStep, mapStep, fsItems, synch, synch_map h now]; exact ⟨hs, hm⟩
  | len => exact ⟨hs, hm⟩
  | update ava =>
    refine ⟨fsUpdate_short now ava hs (fun p hp => hw p.1 (List.mem_map.2 ⟨p, hp, rfl⟩)), ?_⟩
    simp only [mapStep]
    have : ∀ (ava : List (String × Val)) (m : Assoc Val), (∀ p ∈ ava, (quotePlus p.1).utf8ByteSize + 5 ≤ b) →
        (∀ k, dhas m k = true → (quotePlus k).utf8ByteSize + 5 ≤ b) →
        ∀ k, dhas (mapUpdate ava m).2 k = true → (quotePlus k).utf8ByteSize + 5 ≤ b := by
      intro ava
      induction ava with
      | nil => intro m _ hm k hk; exact hm k hk
      | cons p rest ih =>
        intro m hp hm k hk
        simp only [mapUpdate] at hk
        split at hk
        · refine ih _ (fun q hq => hp q (by simp [hq])) ?_ k hk
          intro k' hk'
          rw [dhas, dget_dset] at hk'
          split at hk'
          · rename_i e; rw [← e]; exact hp p (by simp)
          · exact hm k' hk'
        · exact hm k hk
    exact this ava m (fun p hp => hw p.1 (List.mem_map.2 ⟨p, hp, rfl⟩)) hm
  | del k =>
    refine ⟨fsDel_short now k i hs hl.2 ?_, fun k' hk' => ?_⟩
    · cases hk : dget m k with
      | none =>
        right
        have := h.absent hl.1 hk
        rw [hl.2] at this
        simp [dhas, this]
      | some v =>
        left
        have := hm k (by simp [dhas, hk])
        rwa [hl.2] at this
    · simp only [mapStep] at hk'
      rw [dhas, dget_ddel] at hk'
      split at hk'
      · simp at hk'
      · exact hm k' hk'

theorem fsRun_short {conv : Conv} {b : Nat} (ops : List (Nat × FsOp)) :
    ∀ (i : Inst) (dir : Dir) (m : Assoc Val), Inv conv i dir m → Short b dir →
    (∀ k, dhas m k = true → (quotePlus k).utf8ByteSize + 5 ≤ b) → (∀ o ∈ ops, o.2.Legal conv) →
    (∀ o ∈ ops, ∀ k ∈ o.2.writes, (quotePlus k).utf8ByteSize + 5 ≤ b) → Short b (fsRun conv ops i dir).2.2 := by
  induction ops with
  | nil => intro i dir m _ hs _ _ _; exact hs
  | cons o rest ih =>
    obtain ⟨now, op⟩ := o
    intro i dir m h hs hm hl hw
    obtain ⟨_, h2⟩ := fsStep_map h now op (hl (now, op) (by simp))
    obtain ⟨h3, h4⟩ := fsStep_short h hs hm now op (hl (now, op) (by simp)) (hw (now, op) (by simp))
    exact ih _ _ _ h2 h3 h4 (fun o ho => hl o (by simp [ho])) (fun o ho => hw o (by simp [ho]))

/-- C56, for every history of legal operations whose keys have at most 245 bytes when encoded: clearing empties the
storage. -/
theorem C56_history_partial {conv : Conv} (ops : List (Nat × FsOp)) (hl : ∀ o ∈ ops, o.2.Legal conv)
    (hw : ∀ o ∈ ops, ∀ k ∈ o.2.writes, (quotePlus k).utf8ByteSize ≤ 245) (now now' : Nat) :
    let s := fsRun conv ops ⟨[], []⟩ []
    let o := fsClear now s.2.1 s.2.2
    o.res = .ok () ∧ fsLen o.dir = 0 ∧ (fsKeys conv now' o.inst o.dir).res = .ok [] ∧
    ∀ k, ¬ Reserved k → (fsGet conv now' k o.inst o.dir).res = .error .keyError := by
  intro s o
  obtain ⟨_, h⟩ := C47_map conv ops _ _ _ (inv_empty conv) hl
  have hs : Short 250 s.2.2 := fsRun_short ops _ _ _ (inv_empty conv) (by intro n hn; simp [dkeys] at hn)
    (by intro k hk; simp [dhas] at hk) hl (fun o ho k hk => by have := hw o ho k hk; omega)
  exact ⟨(C56_partial h now hs).1, C56_empty_partial h now now' hs⟩

example : let s := fsRun passThru [(1, .set "a b" (.str "x")), (2, .set "c" (.str "y"))] ⟨[], []⟩ []
    (fsClear 3 s.2.1 s.2.2).res = .ok () ∧
    dkeys (fsClear 3 s.2.1 s.2.2).dir = ["a+b.lock.lock", "a+b.lock", "c.lock.lock", "c.lock"] := by decide +kernel

/-! ### where it fails -/

/-- C56 fails for a key of 246 to 250 bytes: the name of its lock file is too long to be locked in turn.  The write was
accepted; `clear` raises, always. -/
theorem C56_counterexample {conv : Conv} (now now' : Nat) (k : String) (v : Val) (t : String) (hu : Usable k)
    (hs : conv.ser v = .ok t) (hk : 246 ≤ (quotePlus k).utf8ByteSize) :
    let s := fsSet conv now k v ⟨[], []⟩ []
    s.res = .ok () ∧ (fsClear now' s.inst s.dir).res = .error .osError := by
  intro s
  have hs' : s = ⟨.ok (), ⟨[(quotePlus k, v)], [(quotePlus k, now)]⟩,
      [(lockName (quotePlus k), ⟨"", now⟩), (quotePlus k, ⟨t, now⟩)]⟩ := by
    simp only [s, fsSet, acquire_ok hu.2.2.2, usable_not_dirName hu, Bool.false_eq_true, if_false, hs]
    have := (ne_lockName (quotePlus k)).symm
    simp [dset, this]
  rw [hs']
  refine ⟨rfl, ?_⟩
  unfold fsClear
  simp only [dkeys, List.map_cons, List.map_nil]
  have hf := fileName_lockName (C46_single_component k).1
  rw [delEach, fsDel_long hf (by rw [size_lockName]; omega) now' _ _ (by simp [dhas, dget])]

example : Usable (String.ofList (List.replicate 246 'a')) ∧
    246 ≤ (quotePlus (String.ofList (List.replicate 246 'a'))).utf8ByteSize := by decide +kernel

/-- C56 fails for keys reserved for lock files: they can be read although nothing was stored under them. -/
theorem C56_reserved_counterexample :
    let s := fsRun passThru [(1, .set "a" (.str "x"))] ⟨[], []⟩ []
    let o := fsClear 2 s.2.1 s.2.2
    (fsGet passThru 3 "a.lock.lock" o.inst o.dir).res = .ok (.str "") := by decide +kernel

/-- repeated clearing, until it raises -/
def clearN (now : Nat) : Nat → Inst → Dir → Out Unit
  | 0, i, dir => ⟨.ok (), i, dir⟩
  | j + 1, i, dir =>
    match fsClear now i dir with
    | ⟨.error e, i', dir'⟩ => ⟨.error e, i', dir'⟩
    | ⟨.ok (), i', dir'⟩ => clearN now j i' dir'

/-- the lock file of a listed name stays if it is not listed itself -/
theorem delEach_leaves (now : Nat) (ns : List String) (x : String) :
    ∀ (i : Inst) (dir : Dir), (∀ n ∈ ns, FileName n ∧ n.utf8ByteSize ≤ 250) → lockName x ∉ ns →
      (dhas dir (lockName x) = true ∨ (x ∈ ns ∧ dhas dir x = true)) →
      ∃ i' dir', delEach now ns i dir = ⟨.ok (), i', dir'⟩ ∧ dhas dir' (lockName x) = true := by
  induction ns with
  | nil =>
    intro i dir _ _ h
    rcases h with h | ⟨h, _⟩
    · exact ⟨i, dir, rfl, h⟩
    · simp at h
  | cons n ns ih =>
    intro i dir hs hx h
    have hn := hs n (by simp)
    have hne : n ≠ lockName x := fun e => hx (by simp [e])
    rw [delEach, fsDel_file hn.1 hn.2]
    by_cases hd : dhas dir n = true
    · rw [if_pos hd]
      refine ih _ _ (fun y hy => hs y (by simp [hy])) (fun e => hx (by simp [e])) ?_
      rcases h with h | ⟨h1, h2⟩
      · left
        rw [dhas, dget_ddel_ne _ hne, dget_dset]
        split
        · rfl
        · exact h
      · by_cases e : x = n
        · subst e
          left
          rw [dhas, dget_ddel_ne _ hne, dget_dset_same]; rfl
        · right
          refine ⟨?_, ?_⟩
          · simp only [List.mem_cons] at h1; exact h1.resolve_left e
          · rw [dhas, dget_ddel_ne _ (Ne.symm e), dget_dset]
            split
            · rfl
            · exact h2
    · rw [if_neg hd]
      refine ih _ _ (fun y hy => hs y (by simp [hy])) (fun e => hx (by simp [e])) ?_
      rcases h with h | ⟨h1, h2⟩
      · exact .inl h
      · right
        refine ⟨?_, h2⟩
        simp only [List.mem_cons] at h1
        rcases h1 with e | e
        · subst e; exact absurd h2 hd
        · exact e

theorem exists_longest : ∀ (ns : List String), ns ≠ [] → ∃ x ∈ ns, ∀ n ∈ ns, n.utf8ByteSize ≤ x.utf8ByteSize := by
  intro ns
  induction ns with
  | nil => intro h; exact absurd rfl h
  | cons a t ih =>
    intro _
    by_cases ht : t = []
    · subst ht; exact ⟨a, by simp, by simp⟩
    · obtain ⟨x, hx, hm⟩ := ih ht
      by_cases h : x.utf8ByteSize ≤ a.utf8ByteSize
      · refine ⟨a, by simp, fun n hn => ?_⟩
        rcases List.mem_cons.1 hn with rfl | hn
        · exact Nat.le_refl _
        · exact Nat.le_trans (hm n hn) h
      · refine ⟨x, by simp [hx], fun n hn => ?_⟩
        rcases List.mem_cons.1 hn with rfl | hn
        · omega
        · exact hm n hn

theorem clear_long {ns : List String} (now : Nat) : ∀ (i : Inst) (dir : Dir), ns.Nodup → (∀ n ∈ ns, FileName n) →
    (∀ n ∈ ns, dhas dir n = true) → (∃ n ∈ ns, ¬ n.utf8ByteSize ≤ 250) → (delEach now ns i dir).res = .error .osError := by
  induction ns with
  | nil => intro i dir _ _ _ h; obtain ⟨n, hn, _⟩ := h; simp at hn
  | cons n ns ih =>
    intro i dir hnd hf hin hlong
    rw [List.nodup_cons] at hnd
    by_cases hs : n.utf8ByteSize ≤ 250
    · rw [delEach, fsDel_file (hf n (by simp)) hs, if_pos (hin n (by simp))]
      refine ih _ _ hnd.2 (fun x hx => hf x (by simp [hx])) (fun x hx => ?_) ?_
      · have : n ≠ x := by rintro rfl; exact hnd.1 hx
        rw [dhas, dget_ddel_ne _ this, dget_dset]
        split
        · rfl
        · exact hin x (by simp [hx])
      · obtain ⟨x, hx, hx'⟩ := hlong
        rcases List.mem_cons.1 hx with rfl | hx
        · exact absurd hs hx'
        · exact ⟨x, hx, hx'⟩
    · rw [delEach, fsDel_long (hf n (by simp)) hs now i dir (hin n (by simp))]

theorem wears_out (now : Nat) : ∀ (j : Nat) (i : Inst) (dir : Dir), DNodup dir → (∀ n ∈ dkeys dir, FileName n) →
    (∃ x ∈ dkeys dir, 251 ≤ x.utf8ByteSize + 5 * j) → (clearN now (j + 1) i dir).res = .error .osError := by
  intro j
  induction j with
  | zero =>
    intro i dir hd hf ⟨x, hx, hlen⟩
    have := clear_long (ns := dkeys dir) now i dir hd hf (fun n hn => (dhas_iff _ _).2 hn) ⟨x, hx, by omega⟩
    simp only [clearN, fsClear]
    revert this
    generalize delEach now (dkeys dir) i dir = o
    obtain ⟨r, i', dir'⟩ := o
    intro h
    simp only at h
    subst h
    rfl
  | succ j ih =>
    intro i dir hd hf ⟨x, hx, hlen⟩
    by_cases hs : ∀ n ∈ dkeys dir, n.utf8ByteSize ≤ 250
    · have hne : dkeys dir ≠ [] := by intro e; rw [e] at hx; simp at hx
      obtain ⟨y, hy, hmax⟩ := exists_longest _ hne
      have hnot : lockName y ∉ dkeys dir := by
        intro h
        have := hmax _ h
        rw [size_lockName] at this
        omega
      obtain ⟨i1, d1, e1, h1⟩ := delEach_leaves now (dkeys dir) y i dir (fun n hn => ⟨hf n hn, hs n hn⟩) hnot
        (.inr ⟨hy, (dhas_iff _ _).2 hy⟩)
      obtain ⟨i2, d2, e2, _, hnd, _, h2⟩ := delEach_spec now (dkeys dir) i dir (fun n hn => ⟨hf n hn, hs n hn⟩) hd
      rw [e1] at e2
      simp only [Out.mk.injEq] at e2
      obtain ⟨_, rfl, rfl⟩ := e2
      rw [clearN, fsClear, e1]
      refine ih i1 d1 hnd (fun n hn => ?_) ⟨lockName y, (dhas_iff _ _).1 h1, ?_⟩
      · rcases h2 n ((dhas_iff _ _).2 hn) with ⟨ha, hb⟩ | ⟨n', hn', rfl⟩
        · exact absurd ((dhas_iff _ _).1 ha) hb
        · exact fileName_lockName (hf n' hn').1
      · rw [size_lockName]
        have := hmax x hx
        omega
    · have : ∃ n ∈ dkeys dir, ¬ n.utf8ByteSize ≤ 250 := by
        rw [Classical.not_forall] at hs
        obtain ⟨n, hn⟩ := hs
        rw [Classical.not_imp] at hn
        exact ⟨n, hn⟩
      have := clear_long (ns := dkeys dir) now i dir hd hf (fun n hn => (dhas_iff _ _).2 hn) this
      rw [clearN, fsClear]
      revert this
      generalize delEach now (dkeys dir) i dir = o
      obtain ⟨r, i', dir'⟩ := o
      intro h
      simp only at h
      subst h
      rfl

/-- C56 always fails in the end: clear leaves the lock file of the longest name behind, with five bytes more than the
longest name before, so on any directory that is not empty clearing raises at the 52nd time or before. -/
theorem C56_wears_out (now : Nat) (i : Inst) (dir : Dir) (hd : DNodup dir) (hf : ∀ n ∈ dkeys dir, FileName n)
    (hne : dkeys dir ≠ []) : (clearN now 52 i dir).res = .error .osError := by
  obtain ⟨x, hx, _⟩ := exists_longest _ hne
  refine wears_out now 51 i dir hd hf ⟨x, hx, ?_⟩
  omega

example : DNodup (fsSet passThru 1 "a" (.str "x") ⟨[], []⟩ []).dir ∧
    dkeys (fsSet passThru 1 "a" (.str "x") ⟨[], []⟩ []).dir = ["a.lock", "a"] ∧ FileName "a" ∧ FileName "a.lock" := by
  unfold FileName DNodup; decide +kernel

/-! ## C81: what a deletion can remove -/

/-- C81, for keys without a slash: at most the file with that very name goes, together with the creation of its lock
file; all other files stay. -/
theorem C81_partial (now : Nat) (k : String) (i : Inst) (dir : Dir) (hk : '/' ∉ k.toList) :
    ∀ n, n ≠ k → n ≠ lockName k → dget (fsDel now k i dir).dir n = dget dir n := by
  intro n hn hl
  unfold fsDel
  rw [resolveRaw_plain hk]
  cases isDirName k with
  | true => rfl
  | false =>
    simp only [Bool.false_eq_true, if_false]
    split
    · rcases acquire_cases now dir k with ha | ⟨ha, _⟩
      · rw [ha]
        simp only
        rw [dget_ddel_ne _ (Ne.symm hn), dget_dset_ne _ _ (Ne.symm hl)]
      · rw [ha]
    · rfl

example : '/' ∉ "a b".toList := by decide

/-- C81 fails: every key that begins with `../` or `/` denotes a path outside the storage directory, and that file is
what `__delitem__` removes. -/
theorem C81_counterexample (s : String) :
    resolveRaw ("../" ++ s) = .outside ("../" ++ s) ∧ resolveRaw ("/" ++ s) = .outside ("/" ++ s) := by
  constructor
  · have h0 : ("../" ++ s).toList = '.' :: '.' :: '/' :: s.toList := by rw [String.toList_append]; rfl
    unfold resolveRaw
    rw [if_neg (by rw [h0]; simp)]
    have h1 : pySplit '/' ("../" ++ s) = ".." :: pySplit '/' s := by
      simp only [pySplit, h0]
      have := splitC_append (c := '/') (p := ['.', '.']) (by decide) s.toList
      simp only [List.cons_append, List.nil_append] at this
      rw [this]; rfl
    rw [h1]
    cases h2 : pySplit '/' s with
    | nil => exact absurd h2 (pySplit_ne_nil _ _)
    | cons a b => simp [resolveComps]
  · have h0 : ("/" ++ s).toList = '/' :: s.toList := by rw [String.toList_append]; rfl
    unfold resolveRaw
    rw [if_pos (by rw [h0]; rfl)]

end Verif
