import Verif.Model.ConcKeys
import Verif.Props.ConcProgress

/-!
# Interleavings on several keys: C96
-/

namespace Verif.Conc

theorem step_wait (s : Sys) (d : Nat) (e : Ev) : step (wait s d) e = step s ⟨e.who, d + e.dt, e.act⟩ := by
  simp [step, wait, later, Nat.add_assoc]

theorem wait_wait (s : Sys) (a b : Nat) : wait (wait s a) b = wait s (a + b) := by
  simp [wait, later, Nat.add_assoc]

theorem wait_zero (s : Sys) : wait s 0 = s := rfl

/-- `own` are the events of `es` on key `k`, some perhaps left out, each after at least as much time as in `es` -/
inductive OwnOf (k : String) : List Ev → List KEv → Prop where
  | nil : OwnOf k [] []
  | skip (own es e) : OwnOf k own es → OwnOf k own (es ++ [e])
  | take (own es e d) : e.key = k → OwnOf k own es → OwnOf k (own ++ [⟨e.ev.who, d + e.ev.dt, e.ev.act⟩]) (es ++ [e])

theorem krun_app (es es' : List KEv) : ∀ S, krun S (es ++ es') = krun (krun S es) es' := by
  induction es with
  | nil => intro S; rfl
  | cons e es ih =>
    intro S
    rw [List.cons_append, krun, krun]
    cases kstep S e with
    | none => exact ih S
    | some x => obtain ⟨S', r⟩ := x; exact ih S'

theorem snocInd {α} {P : List α → Prop} (h0 : P []) (h1 : ∀ es e, P es → P (es ++ [e])) (es : List α) : P es := by
  suffices h : ∀ n (es : List α), es.length = n → P es from h _ es rfl
  intro n
  induction n with
  | zero => intro es h; rw [List.length_eq_zero_iff.1 h]; exact h0
  | succ n ih =>
    intro es h
    have hne : es ≠ [] := by intro e; rw [e] at h; simp at h
    rw [← List.dropLast_concat_getLast hne]
    exact h1 _ _ (ih _ (by rw [List.length_dropLast, h]; rfl))

/-- C96: whatever is interleaved on all the keys, what there is of one key (its file, its lock, the cache and recorded
times of every process for it) is what a run of some of the steps on that key alone gives, up to the time that has
passed since. -/
theorem C96_own (k : String) (es : List KEv) :
    ∃ own d, OwnOf k own es ∧ krun kstart es k = wait (run start own) d := by
  induction es using snocInd with
  | h0 => exact ⟨[], 0, .nil, rfl⟩
  | h1 es e ih =>
    obtain ⟨own, d, ho, hr⟩ := ih
    rw [krun_app]
    simp only [krun, kstep]
    by_cases hk : e.key = k
    · rw [hk, hr, step_wait]
      cases hs : step (run start own) ⟨e.ev.who, d + e.ev.dt, e.ev.act⟩ with
      | none => exact ⟨own, d, .skip _ _ _ ho, hr⟩
      | some x =>
        obtain ⟨s', r⟩ := x
        refine ⟨own ++ [⟨e.ev.who, d + e.ev.dt, e.ev.act⟩], 0, .take _ _ _ _ hk ho, ?_⟩
        rw [wait_zero, run_app]
        simp [run, hs]
    · cases hs : step (krun kstart es e.key) e.ev with
      | none => exact ⟨own, d, .skip _ _ _ ho, hr⟩
      | some x =>
        obtain ⟨s', r⟩ := x
        refine ⟨own, d + e.ev.dt, .skip _ _ _ ho, ?_⟩
        simp only [if_neg (fun h => hk (Eq.symm h)), hr, wait_wait]

/-- C96: a step on one key changes nothing of any other key but the time. -/
theorem C96_other (S S' : String → Sys) (e : KEv) (r : Option Ret) (h : kstep S e = some (S', r)) (k : String)
    (hk : k ≠ e.key) : S' k = wait (S k) e.ev.dt := by
  unfold kstep at h
  cases hs : step (S e.key) e.ev with
  | none => rw [hs] at h; simp at h
  | some x =>
    obtain ⟨s', r'⟩ := x
    rw [hs] at h
    simp only [Option.some.injEq, Prod.mk.injEq] at h
    rw [← h.1]
    simp only [if_neg hk]

/-- the texts for which a write to key `k` is asked for -/
def kwrites (k : String) (es : List KEv) : List Text :=
  es.filterMap (fun e => match e.ev.act with | .write t => if e.key = k then some t else none | _ => none)

def KNoCrash (es : List KEv) : Prop := ∀ e ∈ es, e.ev.act ≠ .crash

theorem OwnOf.noCrash {k : String} {own : List Ev} {es : List KEv} (h : OwnOf k own es) (hn : KNoCrash es) :
    NoCrash own := by
  induction h with
  | nil => intro e he; simp at he
  | skip own es e _ ih => exact ih (fun x hx => hn x (List.mem_append_left _ hx))
  | take own es e d _ _ ih =>
    intro x hx
    rcases List.mem_append.1 hx with hx | hx
    · exact ih (fun x hx => hn x (List.mem_append_left _ hx)) x hx
    · simp only [List.mem_singleton] at hx
      rw [hx]
      exact hn e (by simp)

theorem OwnOf.writes {k : String} {own : List Ev} {es : List KEv} (h : OwnOf k own es) :
    ∀ t ∈ writesIn own, t ∈ kwrites k es := by
  induction h with
  | nil => intro t ht; simp [writesIn] at ht
  | skip own es e _ ih =>
    intro t ht
    simp only [kwrites, List.filterMap_append]
    exact List.mem_append_left _ (ih t ht)
  | take own es e d hk _ ih =>
    intro t ht
    simp only [writesIn, List.filterMap_append, kwrites, List.mem_append] at ht ⊢
    rcases ht with ht | ht
    · exact Or.inl (ih t ht)
    · right
      simp only [List.filterMap_cons, List.filterMap_nil] at ht ⊢
      cases ha : e.ev.act with
      | write t' => rw [ha] at ht; simp only at ht ⊢; rw [if_pos hk]; exact ht
      | _ => rw [ha] at ht; simp at ht

/-- C96: as long as nobody dies, a read of a key returns a complete text for which a write to *that* key was asked for,
however the steps on all the keys interleave. -/
theorem C96_complete (es : List KEv) (hn : KNoCrash es) (e : KEv) (S' : String → Sys) (q : Text) (v : Nat) (b : Bool)
    (h : kstep (krun kstart es) e = some (S', some (.value (some q) v b))) : q ∈ kwrites e.key es := by
  obtain ⟨own, d, ho, hr⟩ := C96_own e.key es
  unfold kstep at h
  rw [hr, step_wait] at h
  cases hs : step (run start own) ⟨e.ev.who, d + e.ev.dt, e.ev.act⟩ with
  | none => rw [hs] at h; simp at h
  | some x =>
    obtain ⟨s', r⟩ := x
    rw [hs] at h
    simp only [Option.some.injEq, Prod.mk.injEq] at h
    obtain ⟨-, rfl⟩ := h
    exact ho.writes q (C52_complete own (ho.noCrash hn) _ s' q v b hs)

/-- C96: at no time two processes are inside the `with lock:` of the same key. -/
theorem C96_mutex (es : List KEv) (k : String) (i j : Nat) (hi : holds ((krun kstart es k).proc i).pc = true)
    (hj : holds ((krun kstart es k).proc j).pc = true) : i = j := by
  obtain ⟨own, d, -, hr⟩ := C96_own k es
  rw [hr] at hi hj
  have hinv := run_inv own _ start_inv
  have h1 := (hinv.procs i).mutex.1 hi
  have h2 := (hinv.procs j).mutex.1 hj
  rw [h1] at h2
  exact Option.some.inj h2

/-- C96: deadlock freedom over all keys: a process inside an operation on a key can take its next step, or waits for a
process that can. -/
theorem C96_no_deadlock (es : List KEv) (k : String) (j : Nat) (hb : busy ((krun kstart es k).proc j).pc = true) :
    (∀ n dt, (kstep (krun kstart es) ⟨k, j, dt, .go n⟩).isSome = true) ∨
    ∃ h, h ≠ j ∧ (krun kstart es k).g.lock = some h ∧ ∀ n dt, (kstep (krun kstart es) ⟨k, h, dt, .go n⟩).isSome = true := by
  obtain ⟨own, d, -, hr⟩ := C96_own k es
  have hk : ∀ w n dt, (kstep (krun kstart es) ⟨k, w, dt, .go n⟩).isSome = (step (run start own) ⟨w, d + dt, .go n⟩).isSome := by
    intro w n dt
    simp only [kstep, hr, step_wait]
    cases step (run start own) ⟨w, d + dt, .go n⟩ <;> rfl
  rw [hr] at hb
  rcases C95_no_deadlock own j hb with h | ⟨-, h, h1, h2, -, h3⟩
  · exact Or.inl fun n dt => by rw [hk]; exact h n (d + dt)
  · exact Or.inr ⟨h, h1, by rw [hr]; exact h2, fun n dt => by rw [hk]; exact h3 n (d + dt)⟩

/-- two writers on two keys, step by step in turn, and a reader of one of them -/
def twoKeys : List KEv :=
  [⟨"a", 1, 1, .write "x".toList⟩, ⟨"b", 2, 1, .write "yy".toList⟩, ⟨"a", 1, 1, .go 0⟩, ⟨"b", 2, 1, .go 0⟩, ⟨"a", 1, 1, .go 0⟩,
   ⟨"b", 2, 1, .go 0⟩, ⟨"a", 1, 1, .go 0⟩, ⟨"b", 2, 1, .go 1⟩, ⟨"a", 1, 1, .go 0⟩, ⟨"b", 2, 1, .go 0⟩, ⟨"a", 1, 1, .go 0⟩,
   ⟨"b", 2, 1, .go 0⟩, ⟨"a", 1, 1, .go 0⟩, ⟨"b", 2, 1, .go 0⟩, ⟨"b", 3, 1, .read⟩, ⟨"b", 3, 1, .go 0⟩, ⟨"b", 3, 1, .go 0⟩,
   ⟨"b", 3, 1, .go 0⟩, ⟨"b", 3, 1, .go 0⟩, ⟨"b", 3, 1, .go 1⟩, ⟨"b", 3, 1, .go 0⟩]

example : KNoCrash twoKeys ∧ (kstep (krun kstart twoKeys) ⟨"b", 3, 1, .go 0⟩).map (·.2) =
    some (some (.value (some "yy".toList) 1 true)) ∧ kwrites "b" twoKeys = ["yy".toList] ∧
    busy ((krun kstart twoKeys "b").proc 3).pc = true := by
  unfold KNoCrash
  decide +kernel

end Verif.Conc
