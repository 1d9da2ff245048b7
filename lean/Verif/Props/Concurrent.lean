import Verif.Model.Concurrent

/-!
# Interleavings of individual steps: C52, C53
-/

namespace Verif.Conc

/-- inside a `with lock:` -/
def holds : PC → Bool
  | .wOpen _ | .wWrite _ _ | .wRel _ | .rOpen | .rRead _ | .rRel _ _ | .lockedErr | .dUnlink | .dRel => true
  | _ => false

/-- between opening for writing and closing -/
def inWrite : PC → Bool
  | .wWrite _ _ => true
  | _ => false

/-- `q` is (unless somebody has died) the text of version `v` -/
def Rec (g : Shared) (q : Text) (v : Nat) : Prop :=
  ∃ t, 1 ≤ v ∧ g.hist[v - 1]? = some t ∧ q <+: t ∧ (g.crashed = false → q = t)

/-- what is known at each point of the code -/
def Loc (g : Shared) (p : Proc) : PC → Prop
  | .wWrite t q => g.hist.getLast? = some t ∧ q <+: t ∧ ∃ m, g.file = some (q, m)
  | .wRel t => g.hist.getLast? = some t
  | .rRead q => ∃ c m, g.file = some (c, m) ∧ q <+: c
  | .rRel q v => Rec g q v ∧ p.low ≤ v
  | _ => True

/-- the invariant of a process -/
structure PInv (g : Shared) (j : Nat) (p : Proc) : Prop where
  mutex : holds p.pc = true ↔ g.lock = some j
  loc : Loc g p p.pc
  low : p.low ≤ g.hist.length
  cache : ∀ x v, p.cache = some (x, v) → p.low ≤ v ∧ ∀ q, x = some q → Rec g q v

/-- the invariant of the file; `quiet`: nobody is writing -/
def FInv (g : Shared) (quiet : Prop) : Prop :=
  ∀ c m, g.file = some (c, m) → ∃ t, g.hist.getLast? = some t ∧ c <+: t ∧ (g.crashed = false → quiet → c = t)

def Quiet (s : Sys) : Prop := ∀ j, inWrite (s.proc j).pc = false

structure SInv (s : Sys) : Prop where
  procs : ∀ j, PInv s.g j (s.proc j)
  file : FInv s.g (Quiet s)

theorem Rec.mono {g g' : Shared} (hh : g.hist <+: g'.hist) (hc : g.crashed = true → g'.crashed = true) {q : Text}
    {v : Nat} (h : Rec g q v) : Rec g' q v := by
  obtain ⟨t, h1, h2, h3, h4⟩ := h
  refine ⟨t, h1, ?_, h3, fun h => h4 ?_⟩
  · obtain ⟨e, he⟩ := hh
    rw [← he, List.getElem?_append_left]
    · exact h2
    · exact (List.getElem?_eq_some_iff.1 h2).1
  · cases hg : g.crashed with
    | false => rfl
    | true => rw [hc hg] at h; exact absurd h (by simp)

theorem last_get {h : List Text} {t : Text} (e : h.getLast? = some t) : 1 ≤ h.length ∧ h[h.length - 1]? = some t := by
  rw [List.getLast?_eq_getElem?] at e
  refine ⟨?_, e⟩
  have := (List.getElem?_eq_some_iff.1 e).1
  omega

/-- what a step may do to the shared state -/
structure Frame (g g' : Shared) (me : Nat) (p : Proc) : Prop where
  outside : holds p.pc = false → g'.file = g.file ∧ g'.hist = g.hist
  lock : ∀ j, j ≠ me → (g'.lock = some j ↔ g.lock = some j)
  hist : g.hist <+: g'.hist
  crashed : g.crashed = true → g'.crashed = true

theorem frame_same {g : Shared} {me : Nat} {p : Proc} : Frame g g me p :=
  ⟨fun _ => ⟨rfl, rfl⟩, fun _ _ => Iff.rfl, List.prefix_refl _, fun h => h⟩

theorem frame_locking {g g' : Shared} {me : Nat} {p p' : Proc} {pc : PC} {r : Option Ret}
    (h : locking g me p pc = some (g', p', r)) : Frame g g' me p ∧ g.lock = none ∧ g' = { g with lock := some me } ∧
      p' = { p with pc := pc } := by
  unfold locking at h
  cases hl : g.lock with
  | some x => rw [hl] at h; simp at h
  | none =>
    rw [hl] at h
    simp only [Option.some.injEq, Prod.mk.injEq] at h
    obtain ⟨rfl, rfl, -⟩ := h
    refine ⟨⟨fun _ => ⟨rfl, rfl⟩, fun j hj => ?_, List.prefix_refl _, fun h => h⟩, rfl, rfl, rfl⟩
    simp only [hl, Option.some.injEq]
    exact ⟨fun e => absurd e.symm hj, fun e => by simp at e⟩

theorem frame_release {g : Shared} {me : Nat} {p : Proc} (hl : g.lock = some me) :
    Frame g { g with lock := none } me p := by
  refine ⟨fun _ => ⟨rfl, rfl⟩, fun j hj => ?_, List.prefix_refl _, fun h => h⟩
  simp only [hl, Option.some.injEq]
  exact ⟨fun e => by simp at e, fun e => absurd e.symm hj⟩

theorem frame_compared {g g' : Shared} {me : Nat} {p p' : Proc} {m : Nat} {r : Option Ret}
    (h : compared g p m = some (g', p', r)) : g' = g := by
  unfold compared at h
  split at h
  · simp at h; exact h.1.symm
  · split at h
    · simp at h; exact h.1.symm
    · split at h <;> (simp at h; exact h.1.symm)

theorem PInv.holder {g : Shared} {j : Nat} {p : Proc} (h : PInv g j p) (hp : holds p.pc = true) : g.lock = some j :=
  h.mutex.1 hp

/-- the frame of every step -/
theorem act_frame {g g' : Shared} {me : Nat} {p p' : Proc} {a : Act} {r : Option Ret} (hi : PInv g me p)
    (h : act g me p a = some (g', p', r)) : Frame g g' me p := by
  have hold := hi.holder
  cases a with
  | crash =>
    simp only [act, crash, Option.some.injEq, Prod.mk.injEq] at h
    obtain ⟨rfl, -, -⟩ := h
    refine ⟨fun _ => ⟨rfl, rfl⟩, fun j hj => ?_, List.prefix_refl _, fun _ => rfl⟩
    simp only
    split
    · rename_i e
      rw [e]
      simp only [Option.some.injEq]
      exact ⟨fun e => by simp at e, fun e => absurd e.symm hj⟩
    · exact Iff.rfl
  | write t =>
    simp only [act, begin_] at h
    split at h
    · simp only [Option.some.injEq, Prod.mk.injEq] at h
      rw [← h.1]; exact frame_same
    · simp at h
  | read =>
    simp only [act, begin_] at h
    split at h
    · split at h <;> (simp only [Option.some.injEq, Prod.mk.injEq] at h; rw [← h.1]; exact frame_same)
    · simp at h
  | delete =>
    simp only [act, begin_] at h
    split at h
    · split at h <;> (simp only [Option.some.injEq, Prod.mk.injEq] at h; rw [← h.1]; exact frame_same)
    · simp at h
  | go n =>
    simp only [act, cont] at h
    split at h
    · simp at h
    · simp at h
    · exact (frame_locking h).1
    · simp only [Option.some.injEq, Prod.mk.injEq] at h
      rename_i hpc
      rw [← h.1]
      exact ⟨fun hf => by rw [hpc] at hf; simp [holds] at hf, fun _ _ => Iff.rfl, List.prefix_append _ _, fun h => h⟩
    · rename_i hpc
      unfold writing at h
      split at h
      · simp only [Option.some.injEq, Prod.mk.injEq] at h
        rw [← h.1]
        exact ⟨fun _ => ⟨rfl, rfl⟩, fun _ _ => Iff.rfl, List.prefix_refl _, fun h => h⟩
      · simp only [Option.some.injEq, Prod.mk.injEq] at h
        rw [← h.1]
        exact ⟨fun hf => by rw [hpc] at hf; simp [holds] at hf, fun _ _ => Iff.rfl, List.prefix_refl _, fun h => h⟩
    · rename_i hpc
      simp only [Option.some.injEq, Prod.mk.injEq] at h
      rw [← h.1]
      exact frame_release (hold (by rw [hpc]; rfl))
    · split at h
      · simp only [Option.some.injEq, Prod.mk.injEq] at h; rw [← h.1]; exact frame_same
      · split at h <;> (simp only [Option.some.injEq, Prod.mk.injEq] at h; rw [← h.1]; exact frame_same)
    · split at h
      · rw [frame_compared (me := me) h]; exact frame_same
      · split at h <;> (simp only [Option.some.injEq, Prod.mk.injEq] at h; rw [← h.1]; exact frame_same)
    · split at h <;> (simp only [Option.some.injEq, Prod.mk.injEq] at h; rw [← h.1]; exact frame_same)
    · exact (frame_locking h).1
    · split at h <;> (simp only [Option.some.injEq, Prod.mk.injEq] at h; rw [← h.1]; exact frame_same)
    · split at h
      · unfold reading at h
        split at h <;> (simp only [Option.some.injEq, Prod.mk.injEq] at h; rw [← h.1]; exact frame_same)
      · simp at h
    · rename_i hpc
      simp only [Option.some.injEq, Prod.mk.injEq] at h
      rw [← h.1]
      exact frame_release (hold (by rw [hpc]; rfl))
    · rename_i hpc
      simp only [Option.some.injEq, Prod.mk.injEq] at h
      rw [← h.1]
      exact frame_release (hold (by rw [hpc]; rfl))
    · exact (frame_locking h).1
    · split at h
      · rename_i hpc _ _ _
        simp only [Option.some.injEq, Prod.mk.injEq] at h
        rw [← h.1]
        exact ⟨fun hf => by rw [hpc] at hf; simp [holds] at hf, fun _ _ => Iff.rfl, List.prefix_refl _, fun h => h⟩
      · simp only [Option.some.injEq, Prod.mk.injEq] at h; rw [← h.1]; exact frame_same
    · rename_i hpc
      simp only [Option.some.injEq, Prod.mk.injEq] at h
      rw [← h.1]
      exact frame_release (hold (by rw [hpc]; rfl))

/-- the other processes -/
theorem other_inv {g g' : Shared} {me j : Nat} {p q : Proc} (hf : Frame g g' me p) (hp : PInv g me p) (hq : PInv g j q)
    (hj : j ≠ me) : PInv g' j q := by
  have hlen : g.hist.length ≤ g'.hist.length := hf.hist.length_le
  refine ⟨hq.mutex.trans (hf.lock j hj).symm, ?_, Nat.le_trans hq.low hlen, fun x v hx => ?_⟩
  · by_cases hh : holds q.pc = true
    · have hlk := hq.mutex.1 hh
      have hme : holds p.pc = false := by
        cases hm : holds p.pc with
        | false => rfl
        | true =>
          have := hp.mutex.1 hm
          rw [hlk] at this
          exact absurd (Option.some.inj this) hj
      obtain ⟨h1, h2⟩ := hf.outside hme
      have hl := hq.loc
      revert hl
      cases q.pc <;> simp only [Loc, h1, h2] <;> try exact fun h => h
      rintro ⟨h3, h4⟩
      exact ⟨h3.mono hf.hist hf.crashed, h4⟩
    · revert hh
      cases q.pc <;> simp [holds, Loc]
  · obtain ⟨h1, h2⟩ := hq.cache x v hx
    exact ⟨h1, fun t ht => (h2 t ht).mono hf.hist hf.crashed⟩

/-- a step that leaves history, cache and `low` alone -/
theorem pinv_of {g g' : Shared} {me : Nat} {p p' : Proc} (hi : PInv g me p) (hh : g'.hist = g.hist)
    (hc : g'.crashed = g.crashed) (hcache : p'.cache = p.cache) (hlow : p'.low = p.low)
    (hm : holds p'.pc = true ↔ g'.lock = some me) (hl : Loc g' p' p'.pc) : PInv g' me p' := by
  refine ⟨hm, hl, by rw [hh, hlow]; exact hi.low, fun x v hx => ?_⟩
  rw [hcache] at hx
  obtain ⟨h1, h2⟩ := hi.cache x v hx
  rw [hlow]
  exact ⟨h1, fun q hq => (h2 q hq).mono (by rw [hh]; exact List.prefix_refl _) (by rw [hc]; exact fun h => h)⟩

theorem finv_of {g g' : Shared} {q q' : Prop} (hf : FInv g q) (h1 : g'.file = g.file) (h2 : g'.hist = g.hist)
    (h3 : g'.crashed = g.crashed) (hq : q' → q) : FInv g' q' := by
  intro c m hc
  rw [h1] at hc
  obtain ⟨t, a, b, d⟩ := hf c m hc
  rw [h2, h3]
  exact ⟨t, a, b, fun x y => d x (hq y)⟩

theorem free_of {g : Shared} {me : Nat} {p : Proc} (hi : PInv g me p) (h : holds p.pc = false) : ¬ g.lock = some me := by
  intro e
  rw [hi.mutex.2 e] at h
  simp at h

/-- the process itself; `quiet`: nobody *else* is writing -/
theorem act_inv {g g' : Shared} {me : Nat} {p p' : Proc} {a : Act} {r : Option Ret} {quiet : Prop} (hi : PInv g me p)
    (hfile : FInv g (quiet ∧ inWrite p.pc = false)) (hq : holds p.pc = true → quiet)
    (h : act g me p a = some (g', p', r)) : PInv g' me p' ∧ FInv g' (quiet ∧ inWrite p'.pc = false) := by
  have hloc := hi.loc
  cases a with
  | crash =>
    simp only [act, crash, Option.some.injEq, Prod.mk.injEq] at h
    obtain ⟨rfl, rfl, -⟩ := h
    refine ⟨⟨?_, trivial, hi.low, fun x v hx => ?_⟩, fun c m hc => ?_⟩
    · simp only [holds]
      split
      · simp
      · rename_i e; simp [e]
    · obtain ⟨h1, h2⟩ := hi.cache x v hx
      exact ⟨h1, fun t ht => by refine Rec.mono ?_ ?_ (h2 t ht); exact List.prefix_refl _; exact fun _ => rfl⟩
    · obtain ⟨t, a, b, _⟩ := hfile c m hc
      exact ⟨t, a, b, fun x => by simp at x⟩
  | write t =>
    simp only [act, begin_] at h
    split at h
    · rename_i hpc
      simp only [Option.some.injEq, Prod.mk.injEq] at h
      obtain ⟨rfl, rfl, -⟩ := h
      have hfree := free_of hi (by rw [hpc]; rfl)
      exact ⟨pinv_of hi rfl rfl rfl rfl (by simp [holds, hfree]) trivial,
        finv_of hfile rfl rfl rfl (fun x => ⟨x.1, by rw [hpc]; rfl⟩)⟩
    · simp at h
  | read =>
    simp only [act, begin_] at h
    split at h
    · rename_i hpc
      have hfree := free_of hi (by rw [hpc]; rfl)
      split at h
      · simp only [Option.some.injEq, Prod.mk.injEq] at h
        obtain ⟨rfl, rfl, -⟩ := h
        exact ⟨pinv_of hi rfl rfl rfl rfl (by simp [holds, hfree]) trivial,
          finv_of hfile rfl rfl rfl (fun x => ⟨x.1, by rw [hpc]; rfl⟩)⟩
      · simp only [Option.some.injEq, Prod.mk.injEq] at h
        obtain ⟨rfl, rfl, -⟩ := h
        exact ⟨hi, hfile⟩
    · simp at h
  | delete =>
    simp only [act, begin_] at h
    split at h
    · rename_i hpc
      have hfree := free_of hi (by rw [hpc]; rfl)
      split at h
      · simp only [Option.some.injEq, Prod.mk.injEq] at h
        obtain ⟨rfl, rfl, -⟩ := h
        exact ⟨pinv_of hi rfl rfl rfl rfl (by simp [holds, hfree]) trivial,
          finv_of hfile rfl rfl rfl (fun x => ⟨x.1, by rw [hpc]; rfl⟩)⟩
      · simp only [Option.some.injEq, Prod.mk.injEq] at h
        obtain ⟨rfl, rfl, -⟩ := h
        exact ⟨⟨hi.mutex, by simp only [hpc]; trivial, hi.low, fun x v hx => by simp at hx⟩, hfile⟩
    · simp at h
  | go n =>
    simp only [act, cont] at h
    cases hpc : p.pc with
    | idle => rw [hpc] at h; simp at h
    | dead => rw [hpc] at h; simp at h
    | wLock t =>
      rw [hpc] at h; simp only at h
      obtain ⟨-, hl, rfl, rfl⟩ := frame_locking h
      exact ⟨pinv_of hi rfl rfl rfl rfl (by simp [holds]) trivial,
        finv_of hfile rfl rfl rfl (fun x => ⟨x.1, by rw [hpc]; rfl⟩)⟩
    | wOpen t =>
      rw [hpc] at h; simp only [Option.some.injEq, Prod.mk.injEq] at h
      obtain ⟨rfl, rfl, -⟩ := h
      have hlk := hi.holder (by rw [hpc]; rfl)
      refine ⟨⟨by simp [holds, hlk], ⟨by simp, List.nil_prefix, _, rfl⟩, ?_, fun x v hx => ?_⟩, fun c m hc => ?_⟩
      · have := hi.low; simp only [List.length_append]; omega
      · obtain ⟨h1, h2⟩ := hi.cache x v hx
        exact ⟨h1, fun t ht => by refine Rec.mono ?_ ?_ (h2 t ht); exact List.prefix_append _ _; exact fun h => h⟩
      · simp only [Option.some.injEq, Prod.mk.injEq] at hc
        obtain ⟨rfl, -⟩ := hc
        exact ⟨t, by simp, List.nil_prefix, fun _ x => by simp [inWrite] at x⟩
    | wWrite t q =>
      rw [hpc] at h hloc; simp only [writing] at h
      obtain ⟨hlast, hpre, m, hf⟩ := hloc
      have hlk := hi.holder (by rw [hpc]; rfl)
      split at h
      · rename_i hlen
        simp only [Option.some.injEq, Prod.mk.injEq] at h
        obtain ⟨rfl, rfl, -⟩ := h
        refine ⟨pinv_of hi rfl rfl rfl rfl (by simp [holds, hlk]) hlast, fun c m' hc => ?_⟩
        simp only [hf, Option.some.injEq, Prod.mk.injEq] at hc
        obtain ⟨rfl, -⟩ := hc
        exact ⟨t, hlast, hpre, fun _ _ => hpre.eq_of_length hlen⟩
      · simp only [Option.some.injEq, Prod.mk.injEq] at h
        obtain ⟨rfl, rfl, -⟩ := h
        refine ⟨pinv_of hi rfl rfl rfl rfl (by simp [holds, hlk]) ⟨hlast, List.take_prefix _ _, _, rfl⟩, fun c m' hc => ?_⟩
        simp only [Option.some.injEq, Prod.mk.injEq] at hc
        obtain ⟨rfl, -⟩ := hc
        exact ⟨t, hlast, List.take_prefix _ _, fun _ x => by simp [inWrite] at x⟩
    | wRel t =>
      rw [hpc] at h hloc; simp only [Option.some.injEq, Prod.mk.injEq] at h
      obtain ⟨rfl, rfl, -⟩ := h
      have hg := last_get hloc
      refine ⟨⟨by simp [holds], trivial, Nat.le_refl _, fun x v hx => ?_⟩,
        finv_of hfile rfl rfl rfl (fun x => ⟨x.1, by rw [hpc]; rfl⟩)⟩
      simp only [Option.some.injEq, Prod.mk.injEq] at hx
      obtain ⟨rfl, rfl⟩ := hx
      refine ⟨Nat.le_refl _, fun q hq => ?_⟩
      cases hq
      exact ⟨t, hg.1, hg.2, List.prefix_refl _, fun _ => rfl⟩
    | wStat again =>
      rw [hpc] at h
      have hfree := free_of hi (by rw [hpc]; rfl)
      have hfi : ∀ pc, FInv g (quiet ∧ inWrite pc = false) :=
        fun pc => finv_of hfile rfl rfl rfl (fun x => ⟨x.1, by rw [hpc]; rfl⟩)
      simp only at h
      split at h
      · simp only [Option.some.injEq, Prod.mk.injEq] at h
        obtain ⟨rfl, rfl, -⟩ := h
        exact ⟨pinv_of hi rfl rfl rfl rfl (by simp [holds, hfree]) trivial, hfi _⟩
      · split at h <;>
        · simp only [Option.some.injEq, Prod.mk.injEq] at h
          obtain ⟨rfl, rfl, -⟩ := h
          exact ⟨pinv_of hi rfl rfl rfl rfl (by simp [holds, hfree]) trivial, hfi _⟩
    | rStat again =>
      rw [hpc] at h
      have hfree := free_of hi (by rw [hpc]; rfl)
      have hfi : ∀ pc, FInv g (quiet ∧ inWrite pc = false) :=
        fun pc => finv_of hfile rfl rfl rfl (fun x => ⟨x.1, by rw [hpc]; rfl⟩)
      simp only at h
      split at h
      · unfold compared at h
        split at h
        · simp only [Option.some.injEq, Prod.mk.injEq] at h
          obtain ⟨rfl, rfl, -⟩ := h
          exact ⟨pinv_of hi rfl rfl rfl rfl (by simp [holds, hfree]) trivial, hfi _⟩
        · split at h
          · simp only [Option.some.injEq, Prod.mk.injEq] at h
            obtain ⟨rfl, rfl, -⟩ := h
            exact ⟨pinv_of hi rfl rfl rfl rfl (by simp [holds, hfree]) trivial, hfi _⟩
          · split at h <;>
            · simp only [Option.some.injEq, Prod.mk.injEq] at h
              obtain ⟨rfl, rfl, -⟩ := h
              exact ⟨pinv_of hi rfl rfl rfl rfl (by simp [holds, hfree]) trivial, hfi _⟩
      · split at h <;>
        · simp only [Option.some.injEq, Prod.mk.injEq] at h
          obtain ⟨rfl, rfl, -⟩ := h
          exact ⟨pinv_of hi rfl rfl rfl rfl (by simp [holds, hfree]) trivial, hfi _⟩
    | rFile =>
      rw [hpc] at h
      have hfree := free_of hi (by rw [hpc]; rfl)
      have hfi : ∀ pc, FInv g (quiet ∧ inWrite pc = false) :=
        fun pc => finv_of hfile rfl rfl rfl (fun x => ⟨x.1, by rw [hpc]; rfl⟩)
      simp only at h
      split at h
      · simp only [Option.some.injEq, Prod.mk.injEq] at h
        obtain ⟨rfl, rfl, -⟩ := h
        exact ⟨pinv_of hi rfl rfl rfl rfl (by simp [holds, hfree]) trivial, hfi _⟩
      · simp only [Option.some.injEq, Prod.mk.injEq] at h
        obtain ⟨rfl, rfl, -⟩ := h
        refine ⟨⟨by simp [holds, hfree], trivial, hi.low, fun x v hx => ?_⟩, hfi _⟩
        simp only [Option.some.injEq, Prod.mk.injEq] at hx
        obtain ⟨rfl, rfl⟩ := hx
        exact ⟨hi.low, fun q hq => by simp at hq⟩
    | rLock =>
      rw [hpc] at h; simp only at h
      obtain ⟨-, hl, rfl, rfl⟩ := frame_locking h
      exact ⟨pinv_of hi rfl rfl rfl rfl (by simp [holds]) trivial,
        finv_of hfile rfl rfl rfl (fun x => ⟨x.1, by rw [hpc]; rfl⟩)⟩
    | rOpen =>
      rw [hpc] at h
      have hlk := hi.holder (by rw [hpc]; rfl)
      have hfi : ∀ pc, FInv g (quiet ∧ inWrite pc = false) :=
        fun pc => finv_of hfile rfl rfl rfl (fun x => ⟨x.1, by rw [hpc]; rfl⟩)
      simp only at h
      split at h
      · rename_i cm hcm
        simp only [Option.some.injEq, Prod.mk.injEq] at h
        obtain ⟨rfl, rfl, -⟩ := h
        exact ⟨pinv_of hi rfl rfl rfl rfl (by simp [holds, hlk]) ⟨cm.1, cm.2, hcm, List.nil_prefix⟩, hfi _⟩
      · simp only [Option.some.injEq, Prod.mk.injEq] at h
        obtain ⟨rfl, rfl, -⟩ := h
        exact ⟨pinv_of hi rfl rfl rfl rfl (by simp [holds, hlk]) trivial, hfi _⟩
    | rRead q =>
      rw [hpc] at h hloc
      have hlk := hi.holder (by rw [hpc]; rfl)
      have hquiet := hq (by rw [hpc]; rfl)
      have hfi : ∀ pc, FInv g (quiet ∧ inWrite pc = false) :=
        fun pc => finv_of hfile rfl rfl rfl (fun x => ⟨x.1, by rw [hpc]; rfl⟩)
      obtain ⟨c, m, hf, hpre⟩ := hloc
      simp only [hf, reading] at h
      split at h
      · rename_i hlen
        simp only [Option.some.injEq, Prod.mk.injEq] at h
        obtain ⟨rfl, rfl, -⟩ := h
        have e := hpre.eq_of_length hlen
        subst e
        obtain ⟨t, h1, h2, h3⟩ := hfile q m hf
        have hg := last_get h1
        refine ⟨pinv_of hi rfl rfl rfl rfl (by simp [holds, hlk]) ⟨⟨t, hg.1, hg.2, h2, fun x => h3 x ⟨hquiet, by rw [hpc]; rfl⟩⟩,
          hi.low⟩, hfi _⟩
      · simp only [Option.some.injEq, Prod.mk.injEq] at h
        obtain ⟨rfl, rfl, -⟩ := h
        exact ⟨pinv_of hi rfl rfl rfl rfl (by simp [holds, hlk]) ⟨c, m, hf, List.take_prefix _ _⟩, hfi _⟩
    | rRel q v =>
      rw [hpc] at h hloc; simp only [Option.some.injEq, Prod.mk.injEq] at h
      obtain ⟨rfl, rfl, -⟩ := h
      refine ⟨⟨by simp [holds], trivial, hi.low, fun x v' hx => ?_⟩,
        finv_of hfile rfl rfl rfl (fun x => ⟨x.1, by rw [hpc]; rfl⟩)⟩
      simp only [Option.some.injEq, Prod.mk.injEq] at hx
      obtain ⟨rfl, rfl⟩ := hx
      refine ⟨hloc.2, fun q' hq' => ?_⟩
      cases hq'
      exact hloc.1
    | lockedErr =>
      rw [hpc] at h; simp only [Option.some.injEq, Prod.mk.injEq] at h
      obtain ⟨rfl, rfl, -⟩ := h
      exact ⟨pinv_of hi rfl rfl rfl rfl (by simp [holds]) trivial,
        finv_of hfile rfl rfl rfl (fun x => ⟨x.1, by rw [hpc]; rfl⟩)⟩
    | dLock =>
      rw [hpc] at h; simp only at h
      obtain ⟨-, hl, rfl, rfl⟩ := frame_locking h
      exact ⟨pinv_of hi rfl rfl rfl rfl (by simp [holds]) trivial,
        finv_of hfile rfl rfl rfl (fun x => ⟨x.1, by rw [hpc]; rfl⟩)⟩
    | dUnlink =>
      rw [hpc] at h
      have hlk := hi.holder (by rw [hpc]; rfl)
      simp only at h
      split at h
      · simp only [Option.some.injEq, Prod.mk.injEq] at h
        obtain ⟨rfl, rfl, -⟩ := h
        exact ⟨pinv_of hi rfl rfl rfl rfl (by simp [holds, hlk]) trivial, fun c m hc => by simp at hc⟩
      · simp only [Option.some.injEq, Prod.mk.injEq] at h
        obtain ⟨rfl, rfl, -⟩ := h
        exact ⟨pinv_of hi rfl rfl rfl rfl (by simp [holds, hlk]) trivial,
          finv_of hfile rfl rfl rfl (fun x => ⟨x.1, by rw [hpc]; rfl⟩)⟩
    | dRel =>
      rw [hpc] at h; simp only [Option.some.injEq, Prod.mk.injEq] at h
      obtain ⟨rfl, rfl, -⟩ := h
      exact ⟨⟨by simp [holds], trivial, hi.low, fun x v hx => by simp at hx⟩,
        finv_of hfile rfl rfl rfl (fun x => ⟨x.1, by rw [hpc]; rfl⟩)⟩

theorem later_pinv {g : Shared} {j : Nat} {p : Proc} (dt : Nat) (h : PInv g j p) : PInv (later g dt) j p :=
  ⟨h.mutex, by
    have := h.loc
    revert this
    cases p.pc <;> exact fun h => h, h.low, h.cache⟩

/-- nobody else writes while I hold the lock -/
theorem quiet_others {s : Sys} (h : SInv s) {me : Nat} (hm : holds (s.proc me).pc = true) (j : Nat) (hj : j ≠ me) :
    holds (s.proc j).pc = false := by
  cases hh : holds (s.proc j).pc with
  | false => rfl
  | true =>
    have h1 := (h.procs j).mutex.1 hh
    have h2 := (h.procs me).mutex.1 hm
    rw [h1] at h2
    exact absurd (Option.some.inj h2) hj

theorem not_inWrite {pc : PC} (h : holds pc = false) : inWrite pc = false := by
  cases pc <;> simp_all [holds, inWrite]

theorem step_inv {s s' : Sys} {e : Ev} {r : Option Ret} (h : SInv s) (hs : step s e = some (s', r)) : SInv s' := by
  unfold step at hs
  cases ha : act (later s.g e.dt) e.who (s.proc e.who) e.act with
  | none => rw [ha] at hs; simp at hs
  | some x =>
    obtain ⟨g', p', r'⟩ := x
    rw [ha] at hs
    simp only [Option.some.injEq, Prod.mk.injEq] at hs
    obtain ⟨rfl, -⟩ := hs
    have hme := later_pinv e.dt (h.procs e.who)
    have hfr := act_frame hme ha
    have hfile : FInv (later s.g e.dt) ((∀ j, j ≠ e.who → inWrite (s.proc j).pc = false) ∧
        inWrite (s.proc e.who).pc = false) := by
      intro c m hc
      obtain ⟨t, a, b, d⟩ := h.file c m hc
      refine ⟨t, a, b, fun x y => d x (fun j => ?_)⟩
      by_cases hj : j = e.who
      · rw [hj]; exact y.2
      · exact y.1 j hj
    obtain ⟨h1, h2⟩ := act_inv hme hfile (fun hh j hj => not_inWrite (quiet_others h hh j hj)) ha
    refine ⟨fun j => ?_, ?_⟩
    · simp only
      by_cases hj : j = e.who
      · rw [if_pos hj, hj]; exact h1
      · rw [if_neg hj]; exact other_inv hfr hme (later_pinv e.dt (h.procs j)) hj
    · refine finv_of h2 rfl rfl rfl (fun hq => ⟨fun j hj => ?_, ?_⟩)
      · have := hq j
        simp only [if_neg hj] at this
        exact this
      · have := hq e.who
        simpa using this

theorem start_inv : SInv start := by
  refine ⟨fun j => ⟨by simp [start, holds], trivial, Nat.le_refl _, fun x v hx => by simp [start] at hx⟩, fun c m hc => by
    simp [start] at hc⟩

theorem run_inv (es : List Ev) : ∀ s, SInv s → SInv (run s es) := by
  induction es with
  | nil => intro s h; exact h
  | cons e es ih =>
    intro s h
    rw [run]
    cases hs : step s e with
    | none => exact ih s h
    | some x => obtain ⟨s', r⟩ := x; exact ih s' (step_inv h hs)

/-! ## where values come from -/

/-- the texts for which a write is asked for -/
def writesIn (es : List Ev) : List Text :=
  es.filterMap (fun e => match e.act with | .write t => some t | _ => none)

/-- the text of a write that has not opened the file yet -/
def pending : PC → Option Text
  | .wLock t | .wOpen t => some t
  | _ => none

structure WInv (W : List Text) (s : Sys) : Prop where
  hist : ∀ t ∈ s.g.hist, t ∈ W
  pend : ∀ j t, pending (s.proc j).pc = some t → t ∈ W

theorem act_pending {W : List Text} {g g' : Shared} {me : Nat} {p p' : Proc} {a : Act} {r : Option Ret}
    (hh : ∀ t ∈ g.hist, t ∈ W) (hp : ∀ t, pending p.pc = some t → t ∈ W) (ha : ∀ t, a = .write t → t ∈ W)
    (h : act g me p a = some (g', p', r)) : (∀ t ∈ g'.hist, t ∈ W) ∧ ∀ t, pending p'.pc = some t → t ∈ W := by
  cases a with
  | crash =>
    simp only [act, crash, Option.some.injEq, Prod.mk.injEq] at h
    obtain ⟨rfl, rfl, -⟩ := h
    exact ⟨hh, fun t ht => by simp [pending] at ht⟩
  | write t =>
    simp only [act, begin_] at h
    split at h
    · simp only [Option.some.injEq, Prod.mk.injEq] at h
      obtain ⟨rfl, rfl, -⟩ := h
      refine ⟨hh, fun t' ht => ?_⟩
      simp only [pending, Option.some.injEq] at ht
      subst ht
      exact ha t rfl
    · simp at h
  | read =>
    simp only [act, begin_] at h
    split at h
    · split at h
      · simp only [Option.some.injEq, Prod.mk.injEq] at h
        obtain ⟨rfl, rfl, -⟩ := h
        exact ⟨hh, fun t ht => by simp [pending] at ht⟩
      · simp only [Option.some.injEq, Prod.mk.injEq] at h
        obtain ⟨rfl, rfl, -⟩ := h
        exact ⟨hh, hp⟩
    · simp at h
  | delete =>
    simp only [act, begin_] at h
    split at h
    · split at h
      · simp only [Option.some.injEq, Prod.mk.injEq] at h
        obtain ⟨rfl, rfl, -⟩ := h
        exact ⟨hh, fun t ht => by simp [pending] at ht⟩
      · simp only [Option.some.injEq, Prod.mk.injEq] at h
        obtain ⟨rfl, rfl, -⟩ := h
        exact ⟨hh, hp⟩
    · simp at h
  | go n =>
    simp only [act, cont] at h
    split at h
    case h_3 hpc =>
      obtain ⟨-, -, rfl, rfl⟩ := frame_locking h
      refine ⟨hh, fun t ht => hp t ?_⟩
      rw [hpc]; exact ht
    case h_4 t hpc =>
      simp only [Option.some.injEq, Prod.mk.injEq] at h
      obtain ⟨rfl, rfl, -⟩ := h
      refine ⟨fun t' ht' => ?_, fun t' ht' => by simp [pending] at ht'⟩
      simp only [List.mem_append, List.mem_singleton] at ht'
      rcases ht' with ht' | rfl
      · exact hh _ ht'
      · exact hp _ (by rw [hpc]; rfl)
    all_goals
      try simp only [locking, writing, reading, compared] at h
      repeat' split at h
      all_goals first
        | (simp at h; done)
        | (simp only [Option.some.injEq, Prod.mk.injEq] at h
           obtain ⟨rfl, rfl, -⟩ := h
           exact ⟨hh, fun t ht => by simp [pending] at ht⟩)

theorem run_winv {W : List Text} (es : List Ev) : ∀ s, WInv W s → (∀ t ∈ writesIn es, t ∈ W) → WInv W (run s es) := by
  induction es with
  | nil => intro s h _; exact h
  | cons e es ih =>
    intro s h hw
    have hrest : ∀ t ∈ writesIn es, t ∈ W := by
      intro t ht
      refine hw t ?_
      simp only [writesIn, List.filterMap_cons] at ht ⊢
      split
      · exact ht
      · exact List.mem_cons_of_mem _ ht
    rw [run]
    unfold step
    cases ha : act (later s.g e.dt) e.who (s.proc e.who) e.act with
    | none => exact ih s h hrest
    | some x =>
      obtain ⟨g', p', r⟩ := x
      obtain ⟨h1, h2⟩ := act_pending (W := W) (g := later s.g e.dt) h.hist (h.pend e.who) (fun t ht => hw t (by
        simp only [writesIn, List.filterMap_cons, ht, List.mem_cons, true_or])) ha
      refine ih _ ⟨h1, fun j t ht => ?_⟩ hrest
      simp only at ht
      split at ht
      · exact h2 t ht
      · exact h.pend j t ht

theorem start_winv (W : List Text) : WInv W start :=
  ⟨fun t ht => by simp [start] at ht, fun j t ht => by simp [start, pending] at ht⟩

/-- nobody dies -/
def NoCrash (es : List Ev) : Prop := ∀ e ∈ es, e.act ≠ .crash

theorem act_crashed {g g' : Shared} {me : Nat} {p p' : Proc} {a : Act} {r : Option Ret} (hc : a ≠ .crash)
    (h : act g me p a = some (g', p', r)) : g'.crashed = g.crashed := by
  cases a with
  | crash => exact absurd rfl hc
  | go n =>
    simp only [act, cont, locking, writing, reading, compared] at h
    repeat' split at h
    all_goals first
      | (simp at h; done)
      | (simp only [Option.some.injEq, Prod.mk.injEq] at h; obtain ⟨rfl, -, -⟩ := h; rfl)
  | write t =>
    simp only [act, begin_] at h
    repeat' split at h
    all_goals first
      | (simp at h; done)
      | (simp only [Option.some.injEq, Prod.mk.injEq] at h; obtain ⟨rfl, -, -⟩ := h; rfl)
  | read =>
    simp only [act, begin_] at h
    repeat' split at h
    all_goals first
      | (simp at h; done)
      | (simp only [Option.some.injEq, Prod.mk.injEq] at h; obtain ⟨rfl, -, -⟩ := h; rfl)
  | delete =>
    simp only [act, begin_] at h
    repeat' split at h
    all_goals first
      | (simp at h; done)
      | (simp only [Option.some.injEq, Prod.mk.injEq] at h; obtain ⟨rfl, -, -⟩ := h; rfl)

theorem run_crashed (es : List Ev) : ∀ s, NoCrash es → (run s es).g.crashed = s.g.crashed := by
  induction es with
  | nil => intro s _; rfl
  | cons e es ih =>
    intro s hn
    have hrest : NoCrash es := fun x hx => hn x (by simp [hx])
    rw [run]
    unfold step
    cases ha : act (later s.g e.dt) e.who (s.proc e.who) e.act with
    | none => exact ih s hrest
    | some x =>
      obtain ⟨g', p', r⟩ := x
      simp only
      rw [ih _ hrest]
      exact act_crashed (g := later s.g e.dt) (hn e (by simp)) ha

/-- a read returns what it has read under the lock, or the cached value -/
theorem act_value {g g' : Shared} {me : Nat} {p p' : Proc} {a : Act} {x : Option Text} {v : Nat} {b : Bool}
    (h : act g me p a = some (g', p', some (.value x v b))) :
    (b = true ∧ ∃ q, x = some q ∧ p.pc = .rRel q v) ∨ (b = false ∧ p.cache = some (x, v) ∧ ∃ ag, p.pc = .rStat ag) ∨
    (b = false ∧ x = none ∧ v = g.hist.length ∧ p.pc = .rFile) := by
  cases a with
  | crash => simp [act, crash] at h
  | write t =>
    simp only [act, begin_] at h
    split at h <;> simp at h
  | read =>
    simp only [act, begin_] at h
    repeat' split at h
    all_goals simp at h
  | delete =>
    simp only [act, begin_] at h
    repeat' split at h
    all_goals simp at h
  | go n =>
    simp only [act, cont] at h
    split at h
    case h_13 q v' hpc =>
      simp only [Option.some.injEq, Prod.mk.injEq, Ret.value.injEq] at h
      obtain ⟨-, -, rfl, rfl, rfl⟩ := h
      exact .inl ⟨rfl, q, rfl, hpc⟩
    case h_8 ag hpc =>
      simp only [compared] at h
      repeat' split at h
      all_goals try (simp at h; done)
      rename_i hc
      simp only [Option.some.injEq, Prod.mk.injEq, Ret.value.injEq] at h
      obtain ⟨-, -, rfl, rfl, rfl⟩ := h
      exact .inr (.inl ⟨rfl, hc, ag, hpc⟩)
    case h_9 hpc =>
      split at h
      · simp at h
      · simp only [Option.some.injEq, Prod.mk.injEq, Ret.value.injEq] at h
        obtain ⟨-, -, rfl, rfl, rfl⟩ := h
        exact .inr (.inr ⟨rfl, rfl, rfl, hpc⟩)
    all_goals
      try simp only [locking, writing, reading] at h
      repeat' split at h
      all_goals simp at h

theorem step_act {s s' : Sys} {e : Ev} {r : Option Ret} (h : step s e = some (s', r)) :
    ∃ g' p', act (later s.g e.dt) e.who (s.proc e.who) e.act = some (g', p', r) ∧
      s' = ⟨g', fun j => if j = e.who then p' else s.proc j⟩ := by
  unfold step at h
  cases ha : act (later s.g e.dt) e.who (s.proc e.who) e.act with
  | none => rw [ha] at h; simp at h
  | some x =>
    obtain ⟨g', p', r'⟩ := x
    rw [ha] at h
    simp only [Option.some.injEq, Prod.mk.injEq] at h
    obtain ⟨rfl, rfl⟩ := h
    exact ⟨g', p', rfl, rfl⟩

/-- the text a read returns, and its version -/
theorem value_rec {s s' : Sys} {e : Ev} {q : Text} {v : Nat} {b : Bool} (hi : SInv s)
    (h : step s e = some (s', some (.value (some q) v b))) : Rec s.g q v ∧ (s.proc e.who).low ≤ v := by
  obtain ⟨g', p', ha, -⟩ := step_act h
  rcases act_value ha with ⟨-, q', hq, hpc⟩ | ⟨-, hc, -⟩ | ⟨-, hx, -⟩
  · cases hq
    have := (hi.procs e.who).loc
    rw [hpc] at this
    exact this
  · obtain ⟨h1, h2⟩ := (hi.procs e.who).cache _ _ hc
    exact ⟨h2 q rfl, h1⟩
  · simp at hx

/-! ## C52 -/

/-- C52: whatever the interleaving of the steps of any number of readers, writers and deleters, as long as nobody dies in
the middle: every text returned by a read (under the lock, or from the cache) is one for which a write was asked for,
complete. -/
theorem C52_complete (es : List Ev) (hn : NoCrash es) (e : Ev) (s' : Sys) (q : Text) (v : Nat) (b : Bool)
    (h : step (run start es) e = some (s', some (.value (some q) v b))) : q ∈ writesIn es := by
  obtain ⟨⟨t, -, h2, -, h4⟩, -⟩ := value_rec (run_inv es start start_inv) h
  have hc : (run start es).g.crashed = false := by rw [run_crashed es start hn]; rfl
  rw [h4 hc]
  exact (run_winv es start (start_winv _) (fun _ h => h)).hist t (List.mem_of_getElem? h2)

/-- C52: the content of the file changes only by the process that holds the lock, and then nobody else is inside. -/
theorem C52_change (es : List Ev) (e : Ev) (s' : Sys) (r : Option Ret)
    (h : step (run start es) e = some (s', r)) (hc : s'.g.file ≠ (run start es).g.file) :
    (run start es).g.lock = some e.who ∧ ∀ j, j ≠ e.who → holds ((run start es).proc j).pc = false := by
  have hi := run_inv es start start_inv
  obtain ⟨g', p', ha, rfl⟩ := step_act h
  have hfr := act_frame (later_pinv e.dt (hi.procs e.who)) ha
  have hh : holds ((run start es).proc e.who).pc = true := by
    cases hx : holds ((run start es).proc e.who).pc with
    | true => rfl
    | false => exact absurd (hfr.outside hx).1 hc
  exact ⟨(hi.procs e.who).mutex.1 hh, quiet_others hi hh⟩

/-- C52 with deaths: what a read returns is the beginning of a text for which a write was asked for. -/
theorem C52_prefix (es : List Ev) (e : Ev) (s' : Sys) (q : Text) (v : Nat) (b : Bool)
    (h : step (run start es) e = some (s', some (.value (some q) v b))) : ∃ t ∈ writesIn es, q <+: t := by
  obtain ⟨⟨t, -, h2, h3, -⟩, -⟩ := value_rec (run_inv es start start_inv) h
  exact ⟨t, (run_winv es start (start_winv _) (fun _ h => h)).hist t (List.mem_of_getElem? h2), h3⟩

/-- a writer (1) and a reader (2) that arrives in the middle of the write and has to wait -/
def exampleRun : List Ev :=
  [⟨1, 1, .write "abc".toList⟩, ⟨1, 0, .go 0⟩, ⟨1, 0, .go 0⟩, ⟨2, 1, .read⟩, ⟨2, 0, .go 0⟩, ⟨2, 0, .go 0⟩, ⟨2, 0, .go 0⟩,
   ⟨1, 1, .go 1⟩, ⟨2, 0, .go 0⟩, ⟨1, 1, .go 1⟩, ⟨1, 0, .go 0⟩, ⟨1, 0, .go 0⟩, ⟨2, 0, .go 0⟩, ⟨2, 0, .go 0⟩, ⟨2, 0, .go 1⟩,
   ⟨2, 0, .go 1⟩, ⟨2, 0, .go 1⟩]

example : NoCrash exampleRun ∧
    (step (run start exampleRun) ⟨2, 0, .go 0⟩).map (·.2) = some (some (.value (some "abc".toList) 1 true)) := by
  unfold NoCrash
  decide +kernel

/-- C52 fails if a writer dies: the lock is freed, and a reader gets half a text under the lock. -/
theorem C52_crash_counterexample : ∃ es e, e.act ≠ .crash ∧
    (step (run start es) e).map (·.2) = some (some (.value (some "ab".toList) 1 true)) ∧ writesIn es = ["abc".toList] :=
  ⟨[⟨1, 1, .write "abc".toList⟩, ⟨1, 0, .go 0⟩, ⟨1, 0, .go 0⟩, ⟨1, 1, .go 1⟩, ⟨1, 0, .crash⟩, ⟨2, 1, .read⟩, ⟨2, 0, .go 0⟩,
    ⟨2, 0, .go 0⟩, ⟨2, 0, .go 0⟩, ⟨2, 0, .go 0⟩, ⟨2, 0, .go 5⟩, ⟨2, 0, .go 0⟩], ⟨2, 0, .go 0⟩, by decide +kernel⟩

/-- A read that meets a deletion returns `None`, although nobody wrote that, without taking the lock. -/
theorem C52_none_counterexample : ∃ es e, NoCrash es ∧
    (step (run start es) e).map (·.2) = some (some (.value none 1 false)) ∧ writesIn es = ["abc".toList] :=
  ⟨[⟨1, 1, .write "abc".toList⟩, ⟨1, 0, .go 0⟩, ⟨1, 0, .go 0⟩, ⟨1, 1, .go 9⟩, ⟨1, 0, .go 0⟩, ⟨1, 0, .go 0⟩, ⟨1, 0, .go 0⟩,
    ⟨2, 1, .read⟩, ⟨2, 0, .go 0⟩, ⟨3, 0, .delete⟩, ⟨3, 0, .go 0⟩, ⟨3, 0, .go 0⟩, ⟨3, 0, .go 0⟩], ⟨2, 0, .go 0⟩, by
    unfold NoCrash; decide +kernel⟩

/-! ## C53 -/

theorem act_low {g g' : Shared} {me : Nat} {p p' : Proc} {a : Act} {r : Option Ret} (hl : p.low ≤ g.hist.length)
    (h : act g me p a = some (g', p', r)) : p.low ≤ p'.low := by
  cases a with
  | crash =>
    simp only [act, crash, Option.some.injEq, Prod.mk.injEq] at h
    obtain ⟨-, rfl, -⟩ := h; exact Nat.le_refl _
  | write t =>
    simp only [act, begin_] at h
    repeat' split at h
    all_goals first
      | (simp at h; done)
      | (simp only [Option.some.injEq, Prod.mk.injEq] at h; obtain ⟨-, rfl, -⟩ := h; exact Nat.le_refl _)
  | read =>
    simp only [act, begin_] at h
    repeat' split at h
    all_goals first
      | (simp at h; done)
      | (simp only [Option.some.injEq, Prod.mk.injEq] at h; obtain ⟨-, rfl, -⟩ := h; exact Nat.le_refl _)
  | delete =>
    simp only [act, begin_] at h
    repeat' split at h
    all_goals first
      | (simp at h; done)
      | (simp only [Option.some.injEq, Prod.mk.injEq] at h; obtain ⟨-, rfl, -⟩ := h; exact Nat.le_refl _)
  | go n =>
    simp only [act, cont, locking, writing, reading, compared] at h
    repeat' split at h
    all_goals first
      | (simp at h; done)
      | (simp only [Option.some.injEq, Prod.mk.injEq] at h; obtain ⟨-, rfl, -⟩ := h
         first | exact Nat.le_refl _ | exact hl)

theorem run_low (es : List Ev) (j : Nat) : ∀ s, SInv s → (s.proc j).low ≤ ((run s es).proc j).low := by
  induction es with
  | nil => intro s _; exact Nat.le_refl _
  | cons e es ih =>
    intro s hi
    rw [run]
    cases hs : step s e with
    | none => exact ih s hi
    | some x =>
      obtain ⟨s', r⟩ := x
      refine Nat.le_trans ?_ (ih s' (step_inv hi hs))
      obtain ⟨g', p', ha, rfl⟩ := step_act hs
      simp only
      split
      · rename_i e'
        rw [e']
        exact act_low (g := later s.g e.dt) (hi.procs e.who).low ha
      · exact Nat.le_refl _

/-- C53: once a process has written its text `t` (which thereby is version `V` of the file) and freed the lock, every
later read of this process, whatever all the others do meanwhile, returns version `V`, that is `t`, or a later version. -/
theorem C53_own (es es2 : List Ev) (w n dt : Nat) (t : Text) (hw : ((run start es).proc w).pc = .wRel t)
    (e : Ev) (he : e.who = w) (s' : Sys) (x : Option Text) (v : Nat) (b : Bool)
    (h : step (run (run start es) (⟨w, dt, .go n⟩ :: es2)) e = some (s', some (.value x v b))) :
    (run start es).g.hist[(run start es).g.hist.length - 1]? = some t ∧ (run start es).g.hist.length ≤ v := by
  have hi := run_inv es start start_inv
  have hloc := (hi.procs w).loc
  rw [hw] at hloc
  refine ⟨(last_get hloc).2, ?_⟩
  have hstep : ∃ s1, step (run start es) ⟨w, dt, .go n⟩ = some (s1, none) ∧ (s1.proc w).low = (run start es).g.hist.length := by
    refine ⟨_, by simp only [step, act, cont, hw]; rfl, ?_⟩
    simp [later]
  obtain ⟨s1, h1, h2⟩ := hstep
  rw [run, h1] at h
  simp only at h
  have hi1 := step_inv hi h1
  have hi2 := run_inv es2 s1 hi1
  have hlow := run_low es2 w s1 hi1
  rw [h2] at hlow
  refine Nat.le_trans hlow ?_
  rw [← he]
  obtain ⟨g', p', ha, -⟩ := step_act h
  rcases act_value ha with ⟨-, q', hq, hpc⟩ | ⟨-, hc, -⟩ | ⟨-, -, hv, -⟩
  · have := (hi2.procs e.who).loc
    rw [hpc] at this
    exact this.2
  · exact ((hi2.procs e.who).cache _ _ hc).1
  · rw [hv]; exact (hi2.procs e.who).low

theorem act_hist {g g' : Shared} {me : Nat} {p p' : Proc} {a : Act} {r : Option Ret} (hi : PInv g me p)
    (h : act g me p a = some (g', p', r)) : g.hist <+: g'.hist := (act_frame hi h).hist

theorem run_hist (es : List Ev) : ∀ s, SInv s → s.g.hist <+: (run s es).g.hist := by
  induction es with
  | nil => intro s _; exact List.prefix_refl _
  | cons e es ih =>
    intro s hi
    rw [run]
    cases hs : step s e with
    | none => exact ih s hi
    | some x =>
      obtain ⟨s', r⟩ := x
      refine List.IsPrefix.trans ?_ (ih s' (step_inv hi hs))
      obtain ⟨g', p', ha, rfl⟩ := step_act hs
      exact act_hist (g := later s.g e.dt) (later_pinv e.dt (hi.procs e.who)) ha

/-- C53 in terms of the texts: the read returns the process's own text, or the text of a write for which the file was
opened after its own (if nobody dies). -/
theorem C53_value (es es2 : List Ev) (hn : NoCrash es) (hn2 : NoCrash es2) (w n dt : Nat) (t : Text)
    (hw : ((run start es).proc w).pc = .wRel t) (e : Ev) (he : e.who = w) (s' : Sys) (q : Text) (v : Nat) (b : Bool)
    (h : step (run (run start es) (⟨w, dt, .go n⟩ :: es2)) e = some (s', some (.value (some q) v b))) :
    q = t ∨ ((run start es).g.hist.length < v ∧
      (run (run start es) (⟨w, dt, .go n⟩ :: es2)).g.hist[v - 1]? = some q) := by
  obtain ⟨h1, h2⟩ := C53_own es es2 w n dt t hw e he s' (some q) v b h
  have hi0 := run_inv es start start_inv
  have hi := run_inv (⟨w, dt, .go n⟩ :: es2) (run start es) hi0
  obtain ⟨⟨t', h3, h4, -, h6⟩, -⟩ := value_rec hi h
  have hnc : NoCrash (⟨w, dt, .go n⟩ :: es2) := by
    intro x hx
    rcases List.mem_cons.1 hx with rfl | hx
    · simp
    · exact hn2 x hx
  have hc : (run (run start es) (⟨w, dt, .go n⟩ :: es2)).g.crashed = false := by
    rw [run_crashed _ _ hnc, run_crashed es start hn]; rfl
  rw [h6 hc]
  by_cases hv : (run start es).g.hist.length < v
  · exact .inr ⟨hv, h4⟩
  · left
    have : v = (run start es).g.hist.length := by omega
    obtain ⟨ex, hex⟩ := run_hist (⟨w, dt, .go n⟩ :: es2) _ hi0
    rw [← hex, this, List.getElem?_append_left (List.getElem?_eq_some_iff.1 h1).1, h1] at h4
    exact (Option.some.inj h4).symm

/-- two writers; the first one then reads the later text of the second -/
example : let es : List Ev := [⟨1, 1, .write "x".toList⟩, ⟨1, 0, .go 0⟩, ⟨1, 0, .go 0⟩, ⟨1, 0, .go 0⟩, ⟨1, 0, .go 0⟩]
    let es2 : List Ev := [⟨1, 0, .go 0⟩, ⟨2, 1, .write "y".toList⟩, ⟨2, 0, .go 0⟩, ⟨2, 0, .go 0⟩, ⟨2, 0, .go 0⟩, ⟨2, 0, .go 0⟩,
      ⟨2, 0, .go 0⟩, ⟨2, 0, .go 0⟩, ⟨1, 1, .read⟩, ⟨1, 0, .go 0⟩, ⟨1, 0, .go 0⟩, ⟨1, 0, .go 0⟩, ⟨1, 0, .go 0⟩, ⟨1, 0, .go 0⟩,
      ⟨1, 0, .go 0⟩]
    ((run start es).proc 1).pc = .wRel "x".toList ∧
    (step (run (run start es) (⟨1, 0, .go 0⟩ :: es2)) ⟨1, 0, .go 0⟩).map (·.2) =
      some (some (.value (some "y".toList) 2 true)) := by decide +kernel

/-! ## C51: death in the middle of a write -/

/-- C51: whenever an idle process with a free lock starts to write and dies after opening the file, the file is empty,
whatever it contained. -/
theorem C51_crash_counterexample (s : Sys) (w : Nat) (t : Text) (d1 d2 d3 d4 n1 n2 : Nat) (hp : (s.proc w).pc = .idle)
    (hl : s.g.lock = none) :
    ((run s [⟨w, d1, .write t⟩, ⟨w, d2, .go n1⟩, ⟨w, d3, .go n2⟩, ⟨w, d4, .crash⟩]).g.file).map (·.1) = some [] := by
  simp [run, step, act, begin_, cont, crash, locking, hp, hl, later]

/-- C51: a death before the file is opened leaves it as it was. -/
theorem C51_crash_early_partial (s : Sys) (w : Nat) (t : Text) (d1 d2 d3 n1 : Nat) (hp : (s.proc w).pc = .idle)
    (hl : s.g.lock = none) :
    (run s [⟨w, d1, .write t⟩, ⟨w, d2, .go n1⟩, ⟨w, d3, .crash⟩]).g.file = s.g.file := by
  simp [run, step, act, begin_, cont, crash, locking, hp, hl, later]

example : (start.proc 1).pc = .idle ∧ start.g.lock = none := ⟨rfl, rfl⟩

/-! ## C82: reads are not older than writes completed before -/

/-- nothing is known to be current, or the cache is the current version -/
def Current (g : Shared) (p : Proc) : Prop :=
  ∀ m c m0, p.fmtime = some m → g.file = some (c, m0) → m < m0 ∨ ∃ x, p.cache = some (x, g.hist.length)

/-- what is known of a process that does not write, at each point -/
def RLoc (g : Shared) (p : Proc) : PC → Prop
  | .idle | .dLock | .dUnlink => Current g p
  | .dead => True
  | .rStat _ => Current g p ∧ p.start ≤ g.done
  | .rFile | .rLock | .rOpen | .rRead _ => p.start ≤ g.done
  | .rRel _ v => p.start ≤ v ∧ v = g.hist.length
  | .lockedErr | .dRel => g.file = none
  | _ => False

structure RInv (s : Sys) (j : Nat) : Prop where
  done : s.g.done ≤ s.g.hist.length
  mtime : ∀ c m, s.g.file = some (c, m) → m ≤ s.g.now
  fmtime : ∀ m, (s.proc j).fmtime = some m → m ≤ s.g.now
  loc : RLoc s.g (s.proc j) (s.proc j).pc

/-- what a step does to file, times and versions -/
structure Ticks (g g' : Shared) : Prop where
  done : g.done ≤ g'.done
  done' : g'.done ≤ g'.hist.length
  now : g'.now = g.now
  hist : g.hist.length ≤ g'.hist.length
  file : (g'.file = g.file ∧ g'.hist = g.hist) ∨ g'.file = none ∨ ∃ c, g'.file = some (c, g.now)

theorem ticks_same {g : Shared} (hd : g.done ≤ g.hist.length) : Ticks g g :=
  ⟨Nat.le_refl _, hd, rfl, Nat.le_refl _, .inl ⟨rfl, rfl⟩⟩

theorem act_ticks {g g' : Shared} {me : Nat} {p p' : Proc} {a : Act} {r : Option Ret} (hd : g.done ≤ g.hist.length)
    (h : act g me p a = some (g', p', r)) : Ticks g g' := by
  cases a with
  | crash =>
    simp only [act, crash, Option.some.injEq, Prod.mk.injEq] at h
    obtain ⟨rfl, -, -⟩ := h
    exact ⟨Nat.le_refl _, hd, rfl, Nat.le_refl _, .inl ⟨rfl, rfl⟩⟩
  | write t =>
    simp only [act, begin_] at h
    repeat' split at h
    all_goals first
      | (simp at h; done)
      | (simp only [Option.some.injEq, Prod.mk.injEq] at h; obtain ⟨rfl, -, -⟩ := h; exact ticks_same hd)
  | read =>
    simp only [act, begin_] at h
    repeat' split at h
    all_goals first
      | (simp at h; done)
      | (simp only [Option.some.injEq, Prod.mk.injEq] at h; obtain ⟨rfl, -, -⟩ := h; exact ticks_same hd)
  | delete =>
    simp only [act, begin_] at h
    repeat' split at h
    all_goals first
      | (simp at h; done)
      | (simp only [Option.some.injEq, Prod.mk.injEq] at h; obtain ⟨rfl, -, -⟩ := h; exact ticks_same hd)
  | go n =>
    simp only [act, cont, locking, writing, reading, compared] at h
    repeat' split at h
    all_goals first
      | (simp at h; done)
      | (simp only [Option.some.injEq, Prod.mk.injEq] at h
         obtain ⟨rfl, -, -⟩ := h
         first
          | exact ticks_same hd
          | exact ⟨Nat.le_refl _, hd, rfl, Nat.le_refl _, .inl ⟨rfl, rfl⟩⟩
          | exact ⟨Nat.le_refl _, hd, rfl, Nat.le_refl _, .inr (.inl rfl)⟩
          | exact ⟨Nat.le_refl _, hd, rfl, Nat.le_refl _, .inr (.inr ⟨_, rfl⟩)⟩
          | exact ⟨hd, Nat.le_refl _, rfl, Nat.le_refl _, .inl ⟨rfl, rfl⟩⟩
          | exact ⟨Nat.le_refl _, by simp; omega, rfl, by simp, .inr (.inr ⟨_, rfl⟩)⟩)

/-- `Current` survives what others do, because their changes get later times -/
theorem current_other {g g' : Shared} {p : Proc} {now0 : Nat} (ht : Ticks g g') (hnow : now0 < g.now)
    (hf : ∀ m, p.fmtime = some m → m ≤ now0) (h : Current g p) : Current g' p := by
  intro m c m0 hm hc
  rcases ht.file with ⟨h1, h2⟩ | h1 | ⟨c', h1⟩
  · rw [h1] at hc
    rw [h2]
    exact h m c m0 hm hc
  · rw [h1] at hc; simp at hc
  · rw [h1] at hc
    simp only [Option.some.injEq, Prod.mk.injEq] at hc
    have := hf m hm
    left; omega

theorem current_pc {g : Shared} {p p' : Proc} (h1 : p'.fmtime = p.fmtime) (h2 : p'.cache = p.cache) (h : Current g p) :
    Current g p' := by
  intro m c m0 hm hc
  rw [h1] at hm
  rw [h2]
  exact h m c m0 hm hc

theorem current_gone {g : Shared} {p : Proc} (h : g.file = none) : Current g p := by
  intro m c m0 _ hc
  rw [h] at hc; simp at hc

/-- a step of the process itself -/
theorem act_rloc {g g' : Shared} {me : Nat} {p p' : Proc} {a : Act} {r : Option Ret} (hd : g.done ≤ g.hist.length)
    (hw : ∀ t, a ≠ .write t) (hl : RLoc g p p.pc) (h : act g me p a = some (g', p', r)) : RLoc g' p' p'.pc := by
  cases a with
  | write t => exact absurd rfl (hw t)
  | crash =>
    simp only [act, crash, Option.some.injEq, Prod.mk.injEq] at h
    obtain ⟨rfl, rfl, -⟩ := h
    trivial
  | read =>
    simp only [act, begin_] at h
    split at h
    · rename_i hpc
      rw [hpc] at hl
      split at h
      · simp only [Option.some.injEq, Prod.mk.injEq] at h
        obtain ⟨rfl, rfl, -⟩ := h
        exact ⟨current_pc rfl rfl hl, Nat.le_refl _⟩
      · simp only [Option.some.injEq, Prod.mk.injEq] at h
        obtain ⟨rfl, rfl, -⟩ := h
        rw [hpc]; exact hl
    · simp at h
  | delete =>
    simp only [act, begin_] at h
    split at h
    · rename_i hpc
      rw [hpc] at hl
      split at h
      · simp only [Option.some.injEq, Prod.mk.injEq] at h
        obtain ⟨rfl, rfl, -⟩ := h
        exact current_pc rfl rfl hl
      · rename_i hf
        simp only [Option.some.injEq, Prod.mk.injEq] at h
        obtain ⟨rfl, rfl, -⟩ := h
        simp only [hpc]
        exact current_gone hf
    · simp at h
  | go n =>
    simp only [act, cont] at h
    cases hpc : p.pc with
    | idle => rw [hpc] at h; simp at h
    | dead => rw [hpc] at h; simp at h
    | wLock t => rw [hpc] at hl; exact hl.elim
    | wOpen t => rw [hpc] at hl; exact hl.elim
    | wWrite t q => rw [hpc] at hl; exact hl.elim
    | wRel t => rw [hpc] at hl; exact hl.elim
    | wStat b => rw [hpc] at hl; exact hl.elim
    | rStat again =>
      rw [hpc] at h hl; simp only [compared] at h
      repeat' split at h
      all_goals
        simp only [Option.some.injEq, Prod.mk.injEq] at h
        obtain ⟨rfl, rfl, -⟩ := h
        first
          | exact hl.2
          | exact current_pc rfl rfl hl.1
          | exact ⟨current_pc rfl rfl hl.1, hl.2⟩
    | rFile =>
      rw [hpc] at h hl; simp only at h
      split at h
      · simp only [Option.some.injEq, Prod.mk.injEq] at h
        obtain ⟨rfl, rfl, -⟩ := h
        exact hl
      · rename_i hf
        simp only [Option.some.injEq, Prod.mk.injEq] at h
        obtain ⟨rfl, rfl, -⟩ := h
        exact current_gone hf
    | rLock =>
      rw [hpc] at h hl; simp only at h
      obtain ⟨-, -, rfl, rfl⟩ := frame_locking h
      exact hl
    | rOpen =>
      rw [hpc] at h hl; simp only at h
      split at h
      · simp only [Option.some.injEq, Prod.mk.injEq] at h
        obtain ⟨rfl, rfl, -⟩ := h
        exact hl
      · rename_i hf
        simp only [Option.some.injEq, Prod.mk.injEq] at h
        obtain ⟨rfl, rfl, -⟩ := h
        exact hf
    | rRead q =>
      rw [hpc] at h hl; simp only [reading] at h
      repeat' split at h
      all_goals try (simp at h; done)
      all_goals
        simp only [Option.some.injEq, Prod.mk.injEq] at h
        obtain ⟨rfl, rfl, -⟩ := h
        first
          | exact hl
          | exact ⟨Nat.le_trans hl hd, rfl⟩
    | rRel q v =>
      rw [hpc] at h hl; simp only [Option.some.injEq, Prod.mk.injEq] at h
      obtain ⟨rfl, rfl, -⟩ := h
      intro m c m0 _ _
      exact .inr ⟨some q, by rw [hl.2]⟩
    | lockedErr =>
      rw [hpc] at h hl; simp only [Option.some.injEq, Prod.mk.injEq] at h
      obtain ⟨rfl, rfl, -⟩ := h
      exact current_gone hl
    | dLock =>
      rw [hpc] at h hl; simp only at h
      obtain ⟨-, -, rfl, rfl⟩ := frame_locking h
      exact hl
    | dUnlink =>
      rw [hpc] at h hl; simp only at h
      split at h
      · simp only [Option.some.injEq, Prod.mk.injEq] at h
        obtain ⟨rfl, rfl, -⟩ := h
        exact rfl
      · rename_i hf
        simp only [Option.some.injEq, Prod.mk.injEq] at h
        obtain ⟨rfl, rfl, -⟩ := h
        exact hf
    | dRel =>
      rw [hpc] at h hl; simp only [Option.some.injEq, Prod.mk.injEq] at h
      obtain ⟨rfl, rfl, -⟩ := h
      exact current_gone hl

theorem act_fmtime {g g' : Shared} {me : Nat} {p p' : Proc} {a : Act} {r : Option Ret}
    (h : act g me p a = some (g', p', r)) {m : Nat} (hm : p'.fmtime = some m) :
    p.fmtime = some m ∨ ∃ c, g.file = some (c, m) := by
  cases a with
  | crash =>
    simp only [act, crash, Option.some.injEq, Prod.mk.injEq] at h
    obtain ⟨-, rfl, -⟩ := h; exact .inl hm
  | write t =>
    simp only [act, begin_] at h
    repeat' split at h
    all_goals first
      | (simp at h; done)
      | (simp only [Option.some.injEq, Prod.mk.injEq] at h; obtain ⟨-, rfl, -⟩ := h; exact .inl hm)
  | read =>
    simp only [act, begin_] at h
    repeat' split at h
    all_goals first
      | (simp at h; done)
      | (simp only [Option.some.injEq, Prod.mk.injEq] at h; obtain ⟨-, rfl, -⟩ := h; exact .inl hm)
  | delete =>
    simp only [act, begin_] at h
    repeat' split at h
    all_goals first
      | (simp at h; done)
      | (simp only [Option.some.injEq, Prod.mk.injEq] at h; obtain ⟨-, rfl, -⟩ := h; exact .inl hm)
  | go n =>
    simp only [act, cont, locking, writing, reading, compared] at h
    repeat' split at h
    all_goals first
      | (simp at h; done)
      | (simp only [Option.some.injEq, Prod.mk.injEq] at h; obtain ⟨-, rfl, -⟩ := h; exact .inl hm)
      | (simp only [Option.some.injEq, Prod.mk.injEq] at h; obtain ⟨-, rfl, -⟩ := h
         simp only [Option.some.injEq] at hm; subst hm
         exact .inr ⟨_, by assumption⟩)

theorem step_rinv {s s' : Sys} {e : Ev} {r : Option Ret} {j : Nat} (hi : SInv s) (h : RInv s j) (hdt : 1 ≤ e.dt)
    (hw : e.who = j → ∀ t, e.act ≠ .write t) (hs : step s e = some (s', r)) : RInv s' j := by
  obtain ⟨g', p', ha, rfl⟩ := step_act hs
  have ht := act_ticks (g := later s.g e.dt) h.done ha
  have hnow : g'.now = s.g.now + e.dt := ht.now
  refine ⟨ht.done', fun c m hc => ?_, fun m hm => ?_, ?_⟩
  · rw [hnow]
    rcases ht.file with ⟨h1, -⟩ | h1 | ⟨c', h1⟩
    · simp only [h1] at hc
      have := h.mtime c m hc
      omega
    · simp only [h1] at hc; simp at hc
    · simp only [h1, Option.some.injEq, Prod.mk.injEq] at hc
      have : m = s.g.now + e.dt := hc.2.symm
      omega
  · simp only at hm
    rw [hnow]
    split at hm
    · rename_i hj
      rcases act_fmtime ha hm with h1 | ⟨c, h1⟩
      · rw [← hj] at h1
        have := h.fmtime m h1
        omega
      · have := h.mtime c m h1
        omega
    · have := h.fmtime m hm
      omega
  · simp only
    split
    · rename_i hj
      refine act_rloc (g := later s.g e.dt) h.done (hw hj.symm) ?_ ha
      rw [← hj]
      have := h.loc
      revert this
      cases (s.proc j).pc <;> exact fun h => h
    · rename_i hj
      have hfr := act_frame (later_pinv e.dt (hi.procs e.who)) ha
      have hout : holds (s.proc j).pc = true → g'.file = s.g.file ∧ g'.hist = s.g.hist := fun hh =>
        hfr.outside (quiet_others hi hh e.who (fun x => hj x.symm))
      have hcur : Current s.g (s.proc j) → Current g' (s.proc j) := fun hc =>
        current_other (g := later s.g e.dt) (now0 := s.g.now) ht (by simp [later]; omega) h.fmtime hc
      have hdone : s.g.done ≤ g'.done := ht.done
      have := h.loc
      revert this hout
      cases hpc : (s.proc j).pc <;> intro hout hl <;> simp only [RLoc] at hl ⊢
      case idle => exact hcur hl
      case rStat => exact ⟨hcur hl.1, by omega⟩
      case rRel => exact ⟨hl.1, by rw [(hout rfl).2]; exact hl.2⟩
      case lockedErr => rw [(hout rfl).1]; exact hl
      case dRel => rw [(hout rfl).1]; exact hl
      case dLock => exact hcur hl
      case dUnlink => exact hcur hl
      all_goals omega

theorem start_rinv (j : Nat) : RInv start j :=
  ⟨Nat.le_refl _, fun c m h => by simp [start] at h, fun m h => by simp [start] at h, fun m c m0 h _ => by simp [start] at h⟩

/-- every event is later than the one before -/
def Strict (es : List Ev) : Prop := ∀ e ∈ es, 1 ≤ e.dt

/-- `j` only reads and deletes -/
def NoWrites (j : Nat) (es : List Ev) : Prop := ∀ e ∈ es, e.who = j → ∀ t, e.act ≠ .write t

theorem run_rinv (j : Nat) (es : List Ev) : ∀ s, SInv s → RInv s j → Strict es → NoWrites j es → RInv (run s es) j := by
  induction es with
  | nil => intro s _ h _ _; exact h
  | cons e es ih =>
    intro s hi h hs hw
    have hs' : Strict es := fun x hx => hs x (by simp [hx])
    have hw' : NoWrites j es := fun x hx => hw x (by simp [hx])
    rw [run]
    cases he : step s e with
    | none => exact ih s hi h hs' hw'
    | some x =>
      obtain ⟨s', r⟩ := x
      exact ih s' (step_inv hi he) (step_rinv hi h (hs e (by simp)) (hw e (by simp)) he) hs' hw'

/-- the mark of where a read began stays -/
theorem act_start {g g' : Shared} {me : Nat} {p p' : Proc} {n : Nat} {r : Option Ret}
    (h : act g me p (.go n) = some (g', p', r)) : p'.start = p.start := by
  simp only [act, cont, locking, writing, reading, compared] at h
  repeat' split at h
  all_goals first
    | (simp at h; done)
    | (simp only [Option.some.injEq, Prod.mk.injEq] at h; obtain ⟨-, rfl, -⟩ := h; rfl)

theorem run_start (j : Nat) (es : List Ev) : ∀ s, (∀ e ∈ es, e.who = j → ∃ n, e.act = .go n) →
    ((run s es).proc j).start = (s.proc j).start := by
  induction es with
  | nil => intro s _; rfl
  | cons e es ih =>
    intro s hg
    have hg' : ∀ e ∈ es, e.who = j → ∃ n, e.act = .go n := fun x hx => hg x (by simp [hx])
    rw [run]
    cases he : step s e with
    | none => exact ih s hg'
    | some x =>
      obtain ⟨s', r⟩ := x
      simp only
      rw [ih s' hg']
      obtain ⟨g', p', ha, rfl⟩ := step_act he
      simp only
      split
      · rename_i hj
        obtain ⟨n, hn⟩ := hg e (by simp) hj.symm
        rw [hn] at ha
        rw [act_start ha, hj]
      · rfl

/-- C82, for an instance that does not write itself, with a clock that gives every step its own time: a read that begins
after a write has completed returns the version of that write or a later one, whatever others do meanwhile. -/
theorem C82_partial (es1 es2 : List Ev) (j dt0 dt n : Nat) (hs1 : Strict es1) (hs2 : Strict es2) (hdt : 1 ≤ dt0)
    (hw : NoWrites j es1) (hg : ∀ e ∈ es2, e.who = j → ∃ n, e.act = .go n) (hidle : ((run start es1).proc j).pc = .idle)
    (hex : (run start es1).g.file.isSome) (s' : Sys) (x : Option Text) (v : Nat) (b : Bool)
    (h : step (run (run start es1) (⟨j, dt0, .read⟩ :: es2)) ⟨j, dt, .go n⟩ = some (s', some (.value x v b))) :
    (run start es1).g.done ≤ v := by
  have hi1 := run_inv es1 start start_inv
  have hr1 := run_rinv j es1 start start_inv (start_rinv j) hs1 hw
  obtain ⟨cm, hcm⟩ := Option.isSome_iff_exists.1 hex
  obtain ⟨s2, hstep, hst⟩ : ∃ s2, step (run start es1) ⟨j, dt0, .read⟩ = some (s2, none) ∧
      (s2.proc j).start = (run start es1).g.done := by
    refine ⟨_, by
      have : (later (run start es1).g dt0).file = some cm := hcm
      simp only [step, act, hidle, if_true, begin_, this]; rfl, ?_⟩
    simp [later]
  have hi2 := step_inv hi1 hstep
  have hr2 := step_rinv hi1 hr1 hdt (by intro _ t; simp) hstep
  rw [run, hstep] at h
  simp only at h
  have hgw : NoWrites j es2 := by
    intro e he hj t
    obtain ⟨n, hn⟩ := hg e he hj
    rw [hn]; simp
  have hi3 := run_inv es2 s2 hi2
  have hr3 := run_rinv j es2 s2 hi2 hr2 hs2 hgw
  have hst3 : ((run s2 es2).proc j).start = (run start es1).g.done := by rw [run_start j es2 s2 hg, hst]
  rw [← hst3]
  have hl := hr3.loc
  obtain ⟨g', p', ha, -⟩ := step_act h
  rcases act_value ha with ⟨-, q', hq, hpc⟩ | ⟨-, hc, ag, hpc⟩ | ⟨-, -, hv, hpc⟩
  · rw [hpc] at hl
    exact hl.1
  · rw [hpc] at hl
    -- unchanged, so the cache is current
    simp only [act, cont, hpc] at ha
    cases hf : (run s2 es2).g.file with
    | none =>
      have : (later (run s2 es2).g dt).file = none := hf
      rw [this] at ha
      simp only at ha
      split at ha <;> simp at ha
    | some cm' =>
      obtain ⟨c', m'⟩ := cm'
      have : (later (run s2 es2).g dt).file = some (c', m') := hf
      rw [this] at ha
      simp only [compared] at ha
      split at ha
      · simp at ha
      · rename_i m0 hm0
        split at ha
        · simp at ha
        · rename_i hle
          rcases hl.1 m0 c' m' hm0 hf with hlt | ⟨y, hy⟩
          · exact absurd hlt hle
          · rw [hc] at hy
            simp only [Option.some.injEq, Prod.mk.injEq] at hy
            rw [hy.2]
            exact Nat.le_trans hl.2 hr3.done
  · rw [hpc] at hl
    have : v = (run s2 es2).g.hist.length := hv
    rw [this]
    exact Nat.le_trans hl hr3.done

/-- C82 fails for instances that write: between freeing the lock and asking for the modification time of its file, another
instance writes; then the first one has recorded the time of a text it has never seen, and returns its own older text
from then on. -/
theorem C82_counterexample :
    let es1 : List Ev :=
      [⟨1, 1, .write "old".toList⟩, ⟨1, 1, .go 9⟩, ⟨1, 1, .go 9⟩, ⟨1, 1, .go 9⟩, ⟨1, 1, .go 9⟩, ⟨1, 1, .go 9⟩,
       ⟨2, 1, .write "new".toList⟩, ⟨2, 1, .go 9⟩, ⟨2, 1, .go 9⟩, ⟨2, 1, .go 9⟩, ⟨2, 1, .go 9⟩, ⟨2, 1, .go 9⟩, ⟨2, 1, .go 9⟩,
       ⟨1, 1, .go 9⟩]
    Strict es1 ∧ ((run start es1).proc 1).pc = .idle ∧ (run start es1).g.done = 2 ∧
    (step (run (run start es1) [⟨1, 1, .read⟩]) ⟨1, 1, .go 0⟩).map (·.2) =
      some (some (.value (some "old".toList) 1 false)) := by
  unfold Strict
  decide +kernel

/-- the hypotheses of `C82_partial`: process 2 only reads -/
example :
    let es1 : List Ev :=
      [⟨1, 1, .write "a".toList⟩, ⟨1, 1, .go 9⟩, ⟨1, 1, .go 9⟩, ⟨1, 1, .go 9⟩, ⟨1, 1, .go 9⟩, ⟨1, 1, .go 9⟩, ⟨1, 1, .go 9⟩]
    let es2 : List Ev := [⟨2, 1, .go 9⟩, ⟨2, 1, .go 9⟩, ⟨2, 1, .go 9⟩, ⟨2, 1, .go 9⟩, ⟨2, 1, .go 9⟩, ⟨2, 1, .go 9⟩]
    Strict es1 ∧ Strict es2 ∧ ((run start es1).proc 2).pc = .idle ∧ (run start es1).g.file.isSome ∧
    (run start es1).g.done = 1 ∧
    (step (run (run start es1) (⟨2, 1, .read⟩ :: es2)) ⟨2, 1, .go 0⟩).map (·.2) =
      some (some (.value (some "a".toList) 1 true)) := by
  unfold Strict
  decide +kernel

end Verif.Conc
