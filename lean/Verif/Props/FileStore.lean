import Verif.Props.StoreNames
import Verif.Py.JsonLemmas

/-!
# The file storage as a map: C47–C51, C55, C56
-/

namespace Verif

/-! ## histories of one instance -/

/-- the operations of one instance -/
inductive FsOp where
  | set (k : String) (v : Val)
  | get (k : String)
  | has (k : String)
  | keys
  | items
  | len
  | update (ava : List (String × Val))
  | del (k : String)

/-- their answers -/
inductive FsAns where
  | unit (r : Res Unit)
  | val (r : Res Val)
  | has (b : Bool)
  | keys (r : Res (List String))
  | items (r : Res (List (String × Val)))
  | len (n : Nat)
deriving DecidableEq

/-- one operation on the storage -/
def fsStep (conv : Conv) (now : Nat) (op : FsOp) (i : Inst) (dir : Dir) : FsAns × Inst × Dir :=
  match op with
  | .set k v => let o := fsSet conv now k v i dir; (.unit o.res, o.inst, o.dir)
  | .get k => let o := fsGet conv now k i dir; (.val o.res, o.inst, o.dir)
  | .has k => (.has (fsContains k i), i, dir)
  | .keys => let o := fsKeys conv now i dir; (.keys o.res, o.inst, o.dir)
  | .items => let o := fsItems conv now i dir; (.items o.res, o.inst, o.dir)
  | .len => (.len (fsLen dir), i, dir)
  | .update ava => let o := fsUpdate conv now ava i dir; (.unit o.res, o.inst, o.dir)
  | .del k => let o := fsDel now k i dir; (.unit o.res, o.inst, o.dir)

/-- a history: each operation with the time the operating system gives to the files it changes -/
def fsRun (conv : Conv) : List (Nat × FsOp) → Inst → Dir → List FsAns × Inst × Dir
  | [], i, dir => ([], i, dir)
  | (now, op) :: rest, i, dir =>
    let s := fsStep conv now op i dir
    let r := fsRun conv rest s.2.1 s.2.2
    (s.1 :: r.1, r.2)

/-! ## the specification: a dictionary -/

/-- keys that can have a file: not the three names of directories, and not too long a name -/
def Usable (k : String) : Prop :=
  k ≠ "" ∧ k ≠ "." ∧ k ≠ ".." ∧ (quotePlus k).utf8ByteSize ≤ 250

instance (k : String) : Decidable (Usable k) := inferInstanceAs (Decidable (_ ∧ _))

/-- assignment to a dictionary, refused with `OSError` for a key that cannot have a file -/
def mapSet (k : String) (v : Val) (m : Assoc Val) : Res Unit × Assoc Val :=
  if Usable k then (.ok (), dset m k v) else (.error .osError, m)

def mapUpdate : List (String × Val) → Assoc Val → Res Unit × Assoc Val
  | [], m => (.ok (), m)
  | (k, v) :: rest, m => if Usable k then mapUpdate rest (dset m k v) else (.error .osError, m)

/-- one operation on a dictionary -/
def mapStep (op : FsOp) (m : Assoc Val) : FsAns × Assoc Val :=
  match op with
  | .set k v => (.unit (mapSet k v m).1, (mapSet k v m).2)
  | .get k => (.val (match dget m k with | some v => .ok v | none => .error .keyError), m)
  | .has k => (.has (dhas m k), m)
  | .keys => (.keys (.ok (dkeys m)), m)
  | .items => (.items (.ok m), m)
  | .len => (.len m.length, m)
  | .update ava => (.unit (mapUpdate ava m).1, (mapUpdate ava m).2)
  | .del k => (.unit (.ok ()), ddel m k)

def mapRun : List FsOp → Assoc Val → List FsAns × Assoc Val
  | [], m => ([], m)
  | op :: rest, m => ((mapStep op m).1 :: (mapRun rest (mapStep op m).2).1, (mapRun rest (mapStep op m).2).2)

/-- the operations the claim is about: keys not reserved for lock files, values that can be serialised, deletion only of
keys that are their own file name -/
def FsOp.Legal (conv : Conv) : FsOp → Prop
  | .set k v => ¬ Reserved k ∧ ∃ t, conv.ser v = .ok t
  | .get k => ¬ Reserved k
  | .update ava => ∀ p ∈ ava, ¬ Reserved p.1 ∧ ∃ t, conv.ser p.2 = .ok t
  | .del k => ¬ Reserved k ∧ quotePlus k = k
  | _ => True

/-! ## the invariant -/

/-- the cache that corresponds to a dictionary -/
def cacheOf (m : Assoc Val) : Assoc Val := m.map (fun p => (quotePlus p.1, p.2))

/-- directory and instance represent the dictionary `m` -/
structure Inv (conv : Conv) (i : Inst) (dir : Dir) (m : Assoc Val) : Prop where
  nodup : DNodup m
  dnodup : DNodup dir
  cache : i.cache = cacheOf m
  good : ∀ k v, dget m k = some v → ¬ Reserved k ∧ Usable k
  file : ∀ k v, dget m k = some v → ∃ f, dget dir (quotePlus k) = some f ∧
    dget i.fmtime (quotePlus k) = some f.mtime ∧ conv.ser v = .ok f.content
  only : ∀ n, isLock n = false → dhas dir n = true → ∃ k, dhas m k = true ∧ n = quotePlus k

theorem dget_cacheOf (m : Assoc Val) (k : String) : dget (cacheOf m) (quotePlus k) = dget m k := by
  induction m with
  | nil => rfl
  | cons p t ih =>
    obtain ⟨k', v⟩ := p
    have ih' : dget (List.map (fun p => (quotePlus p.1, p.2)) t) (quotePlus k) = dget t k := ih
    simp only [cacheOf, List.map_cons, dget_cons, ih']
    by_cases h : k' = k
    · subst h; simp
    · rw [if_neg h, if_neg (fun e => h (quotePlus_inj e))]

theorem dset_cacheOf (m : Assoc Val) (k : String) (v : Val) :
    dset (cacheOf m) (quotePlus k) v = cacheOf (dset m k v) := by
  induction m with
  | nil => rfl
  | cons p t ih =>
    obtain ⟨k', v'⟩ := p
    have ih' : dset (List.map (fun p => (quotePlus p.1, p.2)) t) (quotePlus k) v = cacheOf (dset t k v) := ih
    by_cases h : k' = k
    · subst h; simp [cacheOf, dset]
    · have h' : ¬ quotePlus k' = quotePlus k := fun e => h (quotePlus_inj e)
      simp only [cacheOf, List.map_cons, dset, if_neg h, if_neg h', ih']

theorem ddel_cacheOf (m : Assoc Val) (k : String) : ddel (cacheOf m) (quotePlus k) = cacheOf (ddel m k) := by
  induction m with
  | nil => rfl
  | cons p t ih =>
    obtain ⟨k', v'⟩ := p
    simp only [ddel, cacheOf, List.map_cons] at ih ⊢
    by_cases h : k' = k
    · subst h; simpa using ih
    · have h' : ¬ quotePlus k' = quotePlus k := fun e => h (quotePlus_inj e)
      simp only [List.filter_cons, decide_eq_false h, decide_eq_false h', Bool.not_false, if_true, List.map_cons, ih]

theorem dkeys_cacheOf (m : Assoc Val) : (dkeys (cacheOf m)).map unquotePlus = dkeys m := by
  simp [dkeys, cacheOf, Function.comp_def, unquotePlus_quotePlus]

theorem size_lockName (n : String) : (lockName n).utf8ByteSize = n.utf8ByteSize + 5 := by
  rw [lockName, String.utf8ByteSize_append]; rfl

theorem acquire_ok {now : Nat} {dir : Dir} {n : String} (h : n.utf8ByteSize ≤ 250) :
    acquire now dir n = .ok (dset dir (lockName n) ⟨"", now⟩) := by
  unfold acquire
  rw [size_lockName, if_pos (by omega)]

theorem acquire_cases (now : Nat) (dir : Dir) (n : String) :
    acquire now dir n = .ok (dset dir (lockName n) ⟨"", now⟩) ∨
    (acquire now dir n = .error .osError ∧ ¬ n.utf8ByteSize ≤ 250) := by
  unfold acquire
  rw [size_lockName]
  by_cases h : n.utf8ByteSize + 5 ≤ 255
  · exact .inl (if_pos h)
  · exact .inr ⟨if_neg h, by omega⟩

theorem dirName_usable (k : String) (h : ¬ Usable k) :
    isDirName (quotePlus k) = true ∨ ¬ (quotePlus k).utf8ByteSize ≤ 250 := by
  rw [(C46_single_component k).2.2.1]
  unfold Usable at h
  by_cases h1 : (quotePlus k).utf8ByteSize ≤ 250
  · left
    by_cases a : k = ""
    · exact .inl a
    · by_cases b : k = "."
      · exact .inr (.inl b)
      · by_cases c : k = ".."
        · exact .inr (.inr c)
        · exact absurd ⟨a, b, c, h1⟩ h
  · exact .inr h1

theorem usable_not_dirName {k : String} (h : Usable k) : isDirName (quotePlus k) = false := by
  rw [← Bool.not_eq_true, (C46_single_component k).2.2.1]
  rintro (e | e | e)
  · exact h.1 e
  · exact h.2.1 e
  · exact h.2.2.1 e

theorem not_lock {k : String} (h : ¬ Reserved k) : isLock (quotePlus k) = false := by
  rw [← Bool.not_eq_true, isLock_quotePlus]; exact h

theorem lock_ne {n n' : String} (h : isLock n' = false) : lockName n ≠ n' := by
  intro e; rw [← e, isLock_lockName] at h; simp at h

/-- creating a lock file does not matter -/
theorem Inv.lock {conv : Conv} {i : Inst} {dir : Dir} {m : Assoc Val} (h : Inv conv i dir m) (n : String) (f : File) :
    Inv conv i (dset dir (lockName n) f) m where
  nodup := h.nodup
  dnodup := dset_nodup h.dnodup _ _
  cache := h.cache
  good := h.good
  file k v hk := by
    rw [dget_dset_ne _ _ (lock_ne (not_lock (h.good k v hk).1))]
    exact h.file k v hk
  only n' hl hd := by
    rw [dhas, dget_dset_ne _ _ (lock_ne hl)] at hd
    exact h.only n' hl hd

theorem Inv.set {conv : Conv} {i : Inst} {dir : Dir} {m : Assoc Val} (h : Inv conv i dir m) {k : String} {v : Val}
    {t : String} (now : Nat) (hr : ¬ Reserved k) (hu : Usable k) (hs : conv.ser v = .ok t) :
    Inv conv ⟨dset i.cache (quotePlus k) v, dset i.fmtime (quotePlus k) now⟩ (dset dir (quotePlus k) ⟨t, now⟩)
      (dset m k v) where
  nodup := dset_nodup h.nodup _ _
  dnodup := dset_nodup h.dnodup _ _
  cache := by simp only; rw [h.cache, dset_cacheOf]
  good k' v' hk := by
    rw [dget_dset] at hk
    by_cases e : k = k'
    · subst e; exact ⟨hr, hu⟩
    · rw [if_neg e] at hk; exact h.good k' v' hk
  file k' v' hk := by
    rw [dget_dset] at hk
    simp only
    by_cases e : k = k'
    · subst e
      simp at hk; subst hk
      rw [dget_dset_same, dget_dset_same]
      exact ⟨_, rfl, rfl, hs⟩
    · rw [if_neg e] at hk
      have e' : quotePlus k ≠ quotePlus k' := fun x => e (quotePlus_inj x)
      rw [dget_dset_ne _ _ e', dget_dset_ne _ _ e']
      exact h.file k' v' hk
  only n hl hd := by
    rw [dhas, dget_dset] at hd
    by_cases e : quotePlus k = n
    · exact ⟨k, by simp [dhas, dget_dset_same], e.symm⟩
    · rw [if_neg e] at hd
      obtain ⟨k', hk', en⟩ := h.only n hl hd
      refine ⟨k', ?_, en⟩
      rw [dhas, dget_dset]
      split
      · rfl
      · exact hk'

/-- writing, as a dictionary -/
theorem fsSet_map {conv : Conv} {i : Inst} {dir : Dir} {m : Assoc Val} (h : Inv conv i dir m) (now : Nat) (k : String)
    (v : Val) (hr : ¬ Reserved k) (hs : ∃ t, conv.ser v = .ok t) :
    (fsSet conv now k v i dir).res = (mapSet k v m).1 ∧
    Inv conv (fsSet conv now k v i dir).inst (fsSet conv now k v i dir).dir (mapSet k v m).2 := by
  obtain ⟨t, hs⟩ := hs
  unfold mapSet
  by_cases hu : Usable k
  · rw [if_pos hu]
    unfold fsSet
    rw [acquire_ok hu.2.2.2]
    simp only [usable_not_dirName hu, Bool.false_eq_true, if_false, hs]
    exact ⟨trivial, (h.lock _ _).set now hr hu hs⟩
  · rw [if_neg hu]
    unfold fsSet
    rcases acquire_cases now dir (quotePlus k) with ha | ⟨ha, hsz⟩
    · rw [ha]
      rcases dirName_usable k hu with hd | hd
      · simp only [hd, if_true]; exact ⟨trivial, h.lock _ _⟩
      · unfold acquire at ha; rw [size_lockName, if_neg (by omega)] at ha; simp at ha
    · rw [ha]; exact ⟨rfl, h⟩

theorem fsUpdate_map {conv : Conv} (now : Nat) (ava : List (String × Val)) :
    ∀ {i : Inst} {dir : Dir} {m : Assoc Val}, Inv conv i dir m →
    (∀ p ∈ ava, ¬ Reserved p.1 ∧ ∃ t, conv.ser p.2 = .ok t) →
    (fsUpdate conv now ava i dir).res = (mapUpdate ava m).1 ∧
    Inv conv (fsUpdate conv now ava i dir).inst (fsUpdate conv now ava i dir).dir (mapUpdate ava m).2 := by
  induction ava with
  | nil => intro i dir m h _; exact ⟨rfl, h⟩
  | cons p rest ih =>
    obtain ⟨k, v⟩ := p
    intro i dir m h hl
    obtain ⟨h1, h2⟩ := fsSet_map h now k v (hl (k, v) (by simp)).1 (hl (k, v) (by simp)).2
    simp only [fsUpdate, mapUpdate]
    unfold mapSet at h1 h2
    by_cases hu : Usable k
    · rw [if_pos hu] at h1 h2 ⊢
      revert h1 h2
      generalize fsSet conv now k v i dir = o
      obtain ⟨r, i', dir'⟩ := o
      intro h1 h2
      simp only at h1 h2
      subst h1
      exact ih h2 (fun q hq => hl q (by simp [hq]))
    · rw [if_neg hu] at h1 h2 ⊢
      revert h1 h2
      generalize fsSet conv now k v i dir = o
      obtain ⟨r, i', dir'⟩ := o
      intro h1 h2
      simp only at h1 h2
      subst h1
      exact ⟨rfl, h2⟩

theorem Inv.absent {conv : Conv} {i : Inst} {dir : Dir} {m : Assoc Val} (h : Inv conv i dir m) {k : String}
    (hr : ¬ Reserved k) (hk : dget m k = none) : dget dir (quotePlus k) = none := by
  cases hd : dget dir (quotePlus k) with
  | none => rfl
  | some f =>
    obtain ⟨k', h1, h2⟩ := h.only _ (not_lock hr) (by simp [dhas, hd])
    rw [← quotePlus_inj h2] at h1
    simp [dhas, hk] at h1

/-- nothing is re-read -/
theorem Inv.unchanged {conv : Conv} {i : Inst} {dir : Dir} {m : Assoc Val} (h : Inv conv i dir m) (now : Nat)
    {k : String} {v : Val} (hk : dget m k = some v) : refreshChanged conv now (quotePlus k) i dir = ⟨.ok (), i, dir⟩ := by
  obtain ⟨f, h1, h2, _⟩ := h.file k v hk
  simp [refreshChanged, isChanged, h1, h2]

/-- reading, as a dictionary -/
theorem fsGet_map {conv : Conv} {i : Inst} {dir : Dir} {m : Assoc Val} (h : Inv conv i dir m) (now : Nat) (k : String)
    (hr : ¬ Reserved k) :
    fsGet conv now k i dir = ⟨match dget m k with | some v => .ok v | none => .error .keyError, i, dir⟩ := by
  cases hk : dget m k with
  | some v =>
    simp only [fsGet, h.unchanged now hk, fromCache, h.cache, dget_cacheOf, hk]
  | none =>
    simp only [fsGet, refreshChanged, isChanged, h.absent hr hk]

theorem synch_map {conv : Conv} {i : Inst} {dir : Dir} {m : Assoc Val} (h : Inv conv i dir m) (now : Nat) :
    ∀ ns, synchAll conv now ns i dir = ⟨.ok (), i, dir⟩ := by
  intro ns
  induction ns with
  | nil => rfl
  | cons n ns ih =>
    have : synchOne conv now n i dir = ⟨.ok (), i, dir⟩ := by
      unfold synchOne
      cases hd : dget dir n with
      | none => rfl
      | some f =>
        simp only
        cases hl : isLock n with
        | true => simp
        | false =>
          obtain ⟨k, hk, e⟩ := h.only n hl (by simp [dhas, hd])
          subst e
          obtain ⟨v, hv⟩ := Option.isSome_iff_exists.1 hk
          obtain ⟨f', h1, h2, _⟩ := h.file k v hv
          simp only [Bool.false_eq_true, if_false, dhas, h2, Option.isSome_some, if_true, h.unchanged now hv]
    rw [synchAll, this]
    exact ih

theorem Inv.fsLen {conv : Conv} {i : Inst} {dir : Dir} {m : Assoc Val} (h : Inv conv i dir m) : fsLen dir = m.length := by
  have hp : ((dkeys dir).filter (fun n => !isLock n)).Perm ((dkeys m).map quotePlus) := by
    refine (List.perm_ext_iff_of_nodup (h.dnodup.filter _) ?_).2 ?_
    · have := h.nodup
      unfold DNodup at this
      exact List.Pairwise.map _ (fun a b hab e => hab (quotePlus_inj e)) this
    · intro n
      simp only [List.mem_filter, List.mem_map, Bool.not_eq_true']
      constructor
      · rintro ⟨hn, hl⟩
        obtain ⟨k, hk, e⟩ := h.only n hl ((dhas_iff _ _).2 hn)
        exact ⟨k, (dhas_iff _ _).1 hk, e.symm⟩
      · rintro ⟨k, hk, rfl⟩
        obtain ⟨v, hv⟩ := Option.isSome_iff_exists.1 ((dhas_iff _ _).2 hk)
        obtain ⟨f, h1, _⟩ := h.file k v hv
        exact ⟨(dhas_iff _ _).1 (by simp [dhas, h1]), not_lock (h.good k v hv).1⟩
  unfold Verif.fsLen
  rw [hp.length_eq]
  simp [dkeys]

/-! ## deletion of plain keys -/

theorem resolveRaw_plain {k : String} (h : '/' ∉ k.toList) :
    resolveRaw k = if isDirName k then .notFile else .inside k := by
  unfold resolveRaw
  have h1 : k.toList.head? ≠ some '/' := by
    intro e
    cases hk : k.toList with
    | nil => rw [hk] at e; simp at e
    | cons c cs => rw [hk] at e h; simp at e; simp [e] at h
  rw [if_neg h1]
  have : pySplit '/' k = [k] := by
    simp [pySplit, splitC_of_not_mem h]
  rw [this]
  rfl

theorem noSlash_of_self {k : String} (h : quotePlus k = k) : '/' ∉ k.toList := by
  rw [← h]; exact (C46_single_component k).1

theorem Inv.del {conv : Conv} {i : Inst} {dir : Dir} {m : Assoc Val} (h : Inv conv i dir m) (k : String) :
    Inv conv ⟨ddel i.cache (quotePlus k), i.fmtime⟩ (ddel dir (quotePlus k)) (ddel m k) where
  nodup := ddel_nodup h.nodup _
  dnodup := ddel_nodup h.dnodup _
  cache := by simp only; rw [h.cache, ddel_cacheOf]
  good k' v' hk := by
    rw [dget_ddel] at hk
    split at hk
    · simp at hk
    · exact h.good k' v' hk
  file k' v' hk := by
    rw [dget_ddel] at hk
    simp only
    split at hk
    · simp at hk
    · rename_i e
      rw [dget_ddel_ne _ (fun x => e (quotePlus_inj x))]
      exact h.file k' v' hk
  only n hl hd := by
    rw [dhas, dget_ddel] at hd
    split at hd
    · simp at hd
    · rename_i e
      obtain ⟨k', hk', en⟩ := h.only n hl hd
      refine ⟨k', ?_, en⟩
      have : k ≠ k' := by rintro rfl; exact e en.symm
      rw [dhas, dget_ddel_ne _ this]
      exact hk'

/-- deletion of a key that is its own file name -/
theorem fsDel_map {conv : Conv} {i : Inst} {dir : Dir} {m : Assoc Val} (h : Inv conv i dir m) (now : Nat) (k : String)
    (hr : ¬ Reserved k) (hk : quotePlus k = k) :
    (fsDel now k i dir).res = .ok () ∧
    Inv conv (fsDel now k i dir).inst (fsDel now k i dir).dir (ddel m k) := by
  have habs : dget m k = none → ddel m k = m := by
    intro e
    unfold ddel
    rw [List.filter_eq_self]
    intro p hp
    have : p.1 ≠ k := by
      intro e'
      have := (dget_eq_none_iff m k).1 e
      exact this (List.mem_map.2 ⟨p, hp, e'⟩)
    simp [this]
  have hnone : dget m k = none → Inv conv (dropCache k i) dir (ddel m k) := by
    intro e
    have hc : dropCache k i = i := by
      unfold dropCache
      have : ddel i.cache k = i.cache := by
        rw [h.cache]
        conv => lhs; rw [← hk]
        rw [ddel_cacheOf, habs e]
      rw [this]
    rw [hc, habs e]; exact h
  unfold fsDel
  rw [resolveRaw_plain (noSlash_of_self hk)]
  cases hd : isDirName k with
  | true =>
    simp only [if_true]
    refine ⟨trivial, hnone ?_⟩
    cases e : dget m k with
    | none => rfl
    | some v =>
      have := usable_not_dirName (h.good k v e).2
      rw [hk, hd] at this; simp at this
  | false =>
    simp only [Bool.false_eq_true, if_false]
    cases e : dget m k with
    | none =>
      have := h.absent hr e
      rw [hk] at this
      simp only [dhas, this, Option.isSome_none, Bool.false_eq_true, if_false]
      exact ⟨trivial, hnone e⟩
    | some v =>
      obtain ⟨f, h1, _⟩ := h.file k v e
      rw [hk] at h1
      have hu := (h.good k v e).2
      have hs : k.utf8ByteSize ≤ 250 := by have := hu.2.2.2; rwa [hk] at this
      simp only [dhas, h1, Option.isSome_some, if_true, acquire_ok hs]
      refine ⟨trivial, ?_⟩
      have := (h.lock k ⟨"", now⟩).del k
      rw [hk] at this
      exact this

/-! ## C47 -/

theorem fsStep_map {conv : Conv} {i : Inst} {dir : Dir} {m : Assoc Val} (h : Inv conv i dir m) (now : Nat) (op : FsOp)
    (hl : op.Legal conv) :
    (fsStep conv now op i dir).1 = (mapStep op m).1 ∧
    Inv conv (fsStep conv now op i dir).2.1 (fsStep conv now op i dir).2.2 (mapStep op m).2 := by
  cases op with
  | set k v =>
    obtain ⟨h1, h2⟩ := fsSet_map h now k v hl.1 hl.2
    exact ⟨congrArg FsAns.unit h1, h2⟩
  | get k =>
    simp only [fsStep, mapStep, fsGet_map h now k hl]
    exact ⟨trivial, h⟩
  | has k =>
    simp only [fsStep, mapStep, fsContains, h.cache, dhas, dget_cacheOf]
    exact ⟨trivial, h⟩
  | keys =>
    simp only [fsStep, mapStep, fsKeys, synch, synch_map h now]
    rw [h.cache, dkeys_cacheOf]
    exact ⟨rfl, h⟩
  | items =>
    simp only [fsStep, mapStep, fsItems, synch, synch_map h now]
    rw [h.cache]
    refine ⟨?_, h⟩
    simp [cacheOf, Function.comp_def, unquotePlus_quotePlus]
  | len =>
    simp only [fsStep, mapStep, h.fsLen]
    exact ⟨trivial, h⟩
  | update ava =>
    obtain ⟨h1, h2⟩ := fsUpdate_map now ava h hl
    exact ⟨congrArg FsAns.unit h1, h2⟩
  | del k =>
    obtain ⟨h1, h2⟩ := fsDel_map h now k hl.1 hl.2
    exact ⟨congrArg FsAns.unit h1, h2⟩

/-- C47: an instance and a directory that represent a dictionary answer every history of legal operations, at whatever
times, exactly as the dictionary does (values, containment, listings in order, number of entries), and represent the
resulting dictionary afterwards. -/
theorem C47_map (conv : Conv) (ops : List (Nat × FsOp)) :
    ∀ (i : Inst) (dir : Dir) (m : Assoc Val), Inv conv i dir m → (∀ o ∈ ops, o.2.Legal conv) →
    (fsRun conv ops i dir).1 = (mapRun (ops.map (·.2)) m).1 ∧
    Inv conv (fsRun conv ops i dir).2.1 (fsRun conv ops i dir).2.2 (mapRun (ops.map (·.2)) m).2 := by
  induction ops with
  | nil => intro i dir m h _; exact ⟨rfl, h⟩
  | cons o rest ih =>
    obtain ⟨now, op⟩ := o
    intro i dir m h hl
    obtain ⟨h1, h2⟩ := fsStep_map h now op (hl (now, op) (by simp))
    obtain ⟨h3, h4⟩ := ih _ _ _ h2 (fun o ho => hl o (by simp [ho]))
    simp only [fsRun, List.map_cons, mapRun]
    exact ⟨by rw [h1, h3], h4⟩

theorem inv_empty (conv : Conv) : Inv conv ⟨[], []⟩ [] [] where
  nodup := by simp [DNodup]
  dnodup := by simp [DNodup]
  cache := rfl
  good k v h := by simp at h
  file k v h := by simp at h
  only n _ h := by simp [dhas] at h

/-- C47, from a new instance over an empty directory -/
theorem C47_fresh (conv : Conv) (now : Nat) (ops : List (Nat × FsOp)) (hl : ∀ o ∈ ops, o.2.Legal conv) :
    (fsRun conv ops (fsOpen conv now []).inst (fsOpen conv now []).dir).1 = (mapRun (ops.map (·.2)) []).1 :=
  (C47_map conv ops _ _ _ (inv_empty conv) hl).1

/-- a history with colliding-looking keys, a refused key and a deletion -/
example : (fsRun passThru [(1, .set "a b" (.str "x")), (1, .set "a+b" (.str "y")), (2, .set ".." (.str "z")),
      (2, .get "a b"), (2, .set "c" (.str "w")), (3, .del "c"), (3, .keys), (3, .len), (3, .get "c")] ⟨[], []⟩ []).1 =
    [.unit (.ok ()), .unit (.ok ()), .unit (.error .osError), .val (.ok (.str "x")), .unit (.ok ()), .unit (.ok ()),
     .keys (.ok ["a b", "a+b"]), .len 2, .val (.error .keyError)] := by decide +kernel

/-! ## C55 -/

/-- C55: `len()` is the number of keys listed, in every state reached by legal operations. -/
theorem C55_len {conv : Conv} (ops : List (Nat × FsOp)) (hl : ∀ o ∈ ops, o.2.Legal conv) (now : Nat) :
    ∃ ks, (fsKeys conv now (fsRun conv ops ⟨[], []⟩ []).2.1 (fsRun conv ops ⟨[], []⟩ []).2.2).res = .ok ks ∧
      ks.Nodup ∧ fsLen (fsRun conv ops ⟨[], []⟩ []).2.2 = ks.length := by
  obtain ⟨_, h⟩ := C47_map conv ops _ _ _ (inv_empty conv) hl
  refine ⟨_, ?_, h.nodup, ?_⟩
  · simp only [fsKeys, synch, synch_map h now]
    rw [h.cache, dkeys_cacheOf]
  · rw [h.fsLen]; simp [dkeys]

/-- C55: with unserialisable values it fails: the file left behind is counted but, as JSON, cannot be listed. -/
theorem C55_unserialisable :
    (fsRun jsonConv [(1, .set "a" (.msg ⟨"message", "Message"⟩ [])), (2, .len), (2, .keys)] ⟨[], []⟩ []).1 =
    [.unit (.error .typeError), .len 1, .keys (.ok [])] := by decide +kernel

/-! ## C48 -/

/-- C48, for keys that are their own file name (letters, digits, `_.-~`): after deletion the key is absent, and every
other key is as before. -/
theorem C48_partial {conv : Conv} {i : Inst} {dir : Dir} {m : Assoc Val} (h : Inv conv i dir m) (now now' : Nat)
    (k : String) (hr : ¬ Reserved k) (hk : quotePlus k = k) :
    let o := fsDel now k i dir
    o.res = .ok () ∧ (fsGet conv now' k o.inst o.dir).res = .error .keyError ∧ fsContains k o.inst = false ∧
    ∀ k', k' ≠ k → ¬ Reserved k' →
      (fsGet conv now' k' o.inst o.dir).res = (fsGet conv now' k' i dir).res ∧
      fsContains k' o.inst = fsContains k' i := by
  intro o
  obtain ⟨h1, h2⟩ := fsDel_map h now k hr hk
  refine ⟨h1, ?_, ?_, fun k' hk' hr' => ?_⟩
  · rw [fsGet_map h2 now' k hr, dget_ddel_same]
  · simp only [fsContains, o, dhas]; rw [h2.cache, dget_cacheOf, dget_ddel_same]; rfl
  · rw [fsGet_map h2 now' k' hr', fsGet_map h now' k' hr', dget_ddel_ne _ (Ne.symm hk')]
    refine ⟨rfl, ?_⟩
    simp only [fsContains, o, dhas]; rw [h2.cache, h.cache, dget_cacheOf, dget_cacheOf, dget_ddel_ne _ (Ne.symm hk')]

example : quotePlus "session-1.x" = "session-1.x" ∧ ¬ Reserved "session-1.x" := by decide +kernel

/-- C48: the full claim fails for every other key without a slash: deleting it does nothing to what can be read. -/
theorem C48_counterexample {conv : Conv} {i : Inst} {dir : Dir} {m : Assoc Val} (h : Inv conv i dir m) (now now' : Nat)
    (k : String) (v : Val) (hk : dget m k = some v) (hq : quotePlus k ≠ k) (hs : '/' ∉ k.toList)
    (hn : dget dir k = none) :
    let o := fsDel now k i dir
    o.res = .ok () ∧ (fsGet conv now' k o.inst o.dir).res = .ok v := by
  intro o
  have hcache : ddel i.cache k = i.cache ∨ ∃ v', dget i.cache k = some v' := by
    cases hc : dget i.cache k with
    | none =>
      left
      unfold ddel
      rw [List.filter_eq_self]
      intro p hp
      have : p.1 ≠ k := by
        intro e'
        exact (dget_eq_none_iff _ k).1 hc (List.mem_map.2 ⟨p, hp, e'⟩)
      simp [this]
    | some v' => exact .inr ⟨v', rfl⟩
  have ho : o = ⟨.ok (), dropCache k i, dir⟩ := by
    simp only [o, fsDel]
    rw [resolveRaw_plain hs]
    cases isDirName k with
    | true => rfl
    | false => simp [dhas, hn]
  rw [ho]
  refine ⟨rfl, ?_⟩
  have hc : dropCache k i = i := by
    rcases hcache with e | ⟨v', e⟩
    · simp [dropCache, e]
    · exfalso
      rw [h.cache] at e
      obtain ⟨p, hp, he⟩ := List.mem_map.1 (dget_mem e)
      have hp2 : dget m p.1 = some p.2 := mem_dget h.nodup hp
      obtain ⟨f, hf, _⟩ := h.file _ _ hp2
      simp only [Prod.mk.injEq] at he
      rw [he.1, hn] at hf
      simp at hf
  rw [hc, fsGet_map h now' k (h.good k v hk).1, hk]

/-- the hypotheses are met by the key `"a b"` -/
example : let s := fsRun passThru [(1, .set "a b" (.str "x"))] ⟨[], []⟩ []
    quotePlus "a b" ≠ "a b" ∧ dget s.2.2 "a b" = none ∧
    (fsRun passThru [(1, .set "a b" (.str "x")), (2, .del "a b"), (2, .get "a b")] ⟨[], []⟩ []).1 =
      [.unit (.ok ()), .unit (.ok ()), .val (.ok (.str "x"))] := by decide +kernel

/-- C48: worse, deleting `x+y`, which was never stored, removes the file of `x y`, and `./z` that of `z`; with the
cache kept, containment and reading then disagree. -/
theorem C48_wrong_key :
    (fsRun passThru [(1, .set "x y" (.str "1")), (2, .del "x+y"), (2, .get "x y"), (2, .has "x y")] ⟨[], []⟩ []).1 =
      [.unit (.ok ()), .unit (.ok ()), .val (.error .keyError), .has false] ∧
    (fsRun passThru [(1, .set "z" (.str "1")), (2, .del "./z"), (2, .get "z"), (2, .has "z"), (2, .len), (2, .keys)]
        ⟨[], []⟩ []).1 =
      [.unit (.ok ()), .unit (.ok ()), .val (.error .keyError), .has true, .len 0, .keys (.ok ["z"])] := by
  decide +kernel

end Verif
