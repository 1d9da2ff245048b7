import Verif.Model.SqlShared

/-!
# C111: several sessions on one SQL table
-/

namespace Verif.Sql

/-! ## the rows of a view -/

theorem updated_id (u : List (Nat × String)) (r : Row) : (updated u r).id = r.id := by
  unfold updated; split <;> rfl

theorem updated_owner (u : List (Nat × String)) (r : Row) : (updated u r).owner = r.owner := by
  unfold updated; split <;> rfl

theorem mem_view {c : List Row} {s : Sess} {r : Row} (h : r ∈ view c s) :
    (∃ r0 ∈ c, r0.id ∉ s.del ∧ r = updated s.upd r0) ∨ r ∈ s.ins := by
  rcases List.mem_append.1 h with h | h
  · obtain ⟨r0, h0, rfl⟩ := List.mem_map.1 h
    obtain ⟨h1, h2⟩ := List.mem_filter.1 h0
    exact .inl ⟨r0, h1, by simpa using h2, rfl⟩
  · exact .inr h

theorem view_keeps {c : List Row} {s : Sess} {r : Row} (h : r ∈ c) (hd : r.id ∉ s.del) : updated s.upd r ∈ view c s :=
  List.mem_append_left _ (List.mem_map_of_mem (List.mem_filter.2 ⟨h, by simpa using hd⟩))

theorem mem_found {c : List Row} {s : Sess} {k : String} {n : Nat} (h : n ∈ found c s k) :
    ∃ r ∈ c, r.id = n ∧ r.owner = k ∧ r.id ∉ s.del := by
  obtain ⟨r, hr, rfl⟩ := List.mem_map.1 h
  obtain ⟨h1, h2⟩ := List.mem_filter.1 hr
  simp only [Bool.and_eq_true, decide_eq_true_eq, Bool.not_eq_true', decide_eq_false_iff_not] at h2
  exact ⟨r, h1, rfl, h2.1, h2.2⟩

@[simp] theorem put_same (st : Shared) (i : Nat) (s : Sess) : (st.put i s).sess i = s := by simp [Shared.put]
theorem put_ne (st : Shared) {i j : Nat} (s : Sess) (h : j ≠ i) : (st.put i s).sess j = st.sess j := by
  simp [Shared.put, h]
theorem put_committed (st : Shared) (i : Nat) (s : Sess) : (st.put i s).committed = st.committed := rfl
theorem put_next (st : Shared) (i : Nat) (s : Sess) : (st.put i s).next = st.next := rfl

/-! ## identities -/

/-- the statements left to a session are the end of one of its methods -/
def Rest (P : Op → Prop) (l : List Stmt) : Prop := ∃ o, (P o ∨ l = []) ∧ l <:+ o.stmts

/-- what is known of one session -/
structure SessInv (P : Op → Prop) (c : List Row) (next : Nat) (s : Sess) : Prop where
  del : ∀ n ∈ s.del, n < next
  upd : ∀ p ∈ s.upd, p.1 < next
  ins : ∀ r ∈ s.ins, r.id < next ∧ ∀ r' ∈ c, r'.id ≠ r.id
  once : s.ins = [] ∨ s.ins.length = 1 ∧ s.todo = [.commit]
  todo : Rest P s.todo
  snap : ∀ ids, s.snap = some ids → ∃ stmt rest k, s.todo = stmt :: rest ∧ stmt.key = some k ∧
    ∀ n ∈ ids, n < next ∧ ∀ r ∈ c, r.id = n → r.owner = k

/-- a row identity that one session adds is not one another session knows -/
def Apart (s s' : Sess) : Prop :=
  ∀ r ∈ s.ins, (∀ r' ∈ s'.ins, r'.id ≠ r.id) ∧ r.id ∉ s'.del ∧ (∀ p ∈ s'.upd, p.1 ≠ r.id) ∧ ∀ ids, s'.snap = some ids → r.id ∉ ids

structure SInv (P : Op → Prop) (st : Shared) : Prop where
  rows : ∀ r ∈ st.committed, r.id < st.next
  uniq : ∀ r ∈ st.committed, ∀ r' ∈ st.committed, r.id = r'.id → r = r'
  sess : ∀ i, SessInv P st.committed st.next (st.sess i)
  apart : ∀ i j, i ≠ j → Apart (st.sess i) (st.sess j)

theorem rest_tail {P : Op → Prop} {s : Stmt} {l : List Stmt} (h : Rest P (s :: l)) : Rest P l := by
  obtain ⟨o, hp, hs⟩ := h
  exact ⟨o, hp.imp id (fun e => by cases e), (List.suffix_cons s l).trans hs⟩

theorem rest_nil (P : Op → Prop) : Rest P [] := ⟨.flush, .inr rfl, List.nil_suffix⟩

/-- a method that is not finished is one the program calls -/
theorem rest_cons {P : Op → Prop} {s : Stmt} {l : List Stmt} (h : Rest P (s :: l)) : ∃ o, P o ∧ (s :: l) <:+ o.stmts := by
  obtain ⟨o, hp | hp, hs⟩ := h
  · exact ⟨o, hp, hs⟩
  · cases hp

theorem sessInv_new (P : Op → Prop) (c : List Row) (next : Nat) (l : List Stmt) (hl : Rest P l) :
    SessInv P c next { todo := l } :=
  ⟨by simp, by simp, by simp, .inl rfl, hl, by simp⟩

theorem apart_new_left (l : List Stmt) (s : Sess) : Apart { todo := l } s := by intro r hr; cases hr

theorem apart_new_right (l : List Stmt) (s : Sess) : Apart s { todo := l } := by
  intro r _; exact ⟨by simp, by simp, by simp, by simp⟩

/-- with a statement of this kind left, the session has added no row -/
theorem no_ins {P : Op → Prop} {c : List Row} {n : Nat} {s : Sess} (h : SessInv P c n s) {stmt : Stmt} {rest : List Stmt}
    (ht : s.todo = stmt :: rest) (hs : stmt ≠ .commit) : s.ins = [] := by
  rcases h.once with h | ⟨_, h⟩
  · exact h
  · rw [ht] at h; cases h; exact absurd rfl hs

theorem act_ins (s : Sess) (stmt : Stmt) (ids : List Nat) (h : s.ins = []) : (act s stmt ids).ins = [] := by
  cases stmt <;> simp [act, h]

theorem act_del {s : Sess} {stmt : Stmt} {ids : List Nat} {n : Nat} (h : n ∈ (act s stmt ids).del) :
    n ∈ s.del ∨ n ∈ ids ∧ ∃ k, stmt = .delete k := by
  cases stmt with
  | delete k => exact (List.mem_append.1 h).symm.imp id (fun h => ⟨h, k, rfl⟩)
  | insert k v => exact .inl h
  | update k v => exact .inl h
  | commit => exact .inl h

theorem act_upd {s : Sess} {stmt : Stmt} {ids : List Nat} {p : Nat × String} (h : p ∈ (act s stmt ids).upd) :
    p ∈ s.upd ∨ p.1 ∈ ids ∧ ∃ k, stmt = .update k p.2 := by
  cases stmt with
  | update k v =>
    rcases List.mem_append.1 h with h | h
    · obtain ⟨n, hn, rfl⟩ := List.mem_map.1 h; exact .inr ⟨hn, k, rfl⟩
    · exact .inl h
  | insert k v => exact .inl h
  | delete k => exact .inl h
  | commit => exact .inl h

theorem length_one {α : Type} {l : List α} (h : l = [] ∨ l.length = 1 ∧ p) {a b : α} (ha : a ∈ l) (hb : b ∈ l) : a = b := by
  rcases h with rfl | ⟨h, _⟩
  · cases ha
  · obtain ⟨x, rfl⟩ := List.length_eq_one_iff.1 h
    rw [List.mem_singleton] at ha hb
    rw [ha, hb]

/-- one session is changed, the table is not -/
theorem inv_put {P : Op → Prop} {st : Shared} (h : SInv P st) (i : Nat) (s : Sess)
    (hs : SessInv P st.committed st.next s) (h1 : ∀ j, j ≠ i → Apart s (st.sess j)) (h2 : ∀ j, j ≠ i → Apart (st.sess j) s) :
    SInv P (st.put i s) := by
  refine ⟨h.rows, h.uniq, fun j => ?_, fun a b hab => ?_⟩
  · by_cases e : j = i
    · subst e; rw [put_same]; exact hs
    · rw [put_ne _ _ e]; exact h.sess j
  · by_cases ea : a = i
    · subst ea
      rw [put_same, put_ne _ _ (fun e => hab e.symm)]
      exact h1 b (fun e => hab e.symm)
    · by_cases eb : b = i
      · subst eb; rw [put_same, put_ne _ _ ea]; exact h2 a ea
      · rw [put_ne _ _ ea, put_ne _ _ eb]; exact h.apart a b hab

theorem sInv_step {mode : Mode} {P : Op → Prop} {st st' : Shared} (h : SInv P st) (hs : SStep mode P st st') : SInv P st' := by
  cases hs with
  | call i o hp ht =>
    have hi := h.sess i
    have hins : (st.sess i).ins = [] := by
      rcases hi.once with h | ⟨_, h⟩
      · exact h
      · rw [ht] at h; cases h
    refine inv_put h i _ ⟨hi.del, hi.upd, hi.ins, .inl hins, ⟨o, .inl hp, List.suffix_refl _⟩, ?_⟩
      (fun j hj => h.apart i j (fun e => hj e.symm)) (fun j hj => h.apart j i hj)
    intro ids he
    obtain ⟨s, r, k, e, _⟩ := hi.snap ids he
    rw [ht] at e; cases e
  | see i s rest k ht hk hsn hf =>
    have hi := h.sess i
    refine inv_put h i _ ⟨hi.del, hi.upd, hi.ins, hi.once, hi.todo, ?_⟩
      (fun j hj => h.apart i j (fun e => hj e.symm)) ?_
    · intro ids he
      cases he
      refine ⟨s, rest, k, ht, hk, fun n hn => ?_⟩
      obtain ⟨r, hr, rfl, ho, _⟩ := mem_found hn
      exact ⟨h.rows r hr, fun r' hr' e => by rw [h.uniq r' hr' r hr e, ho]⟩
    · intro j hj r hr
      obtain ⟨a1, a2, a3, _⟩ := h.apart j i hj r hr
      refine ⟨a1, a2, a3, fun ids he hm => ?_⟩
      cases he
      obtain ⟨r', hr', e, _⟩ := mem_found hm
      exact ((h.sess j).ins r hr).2 r' hr' e
  | act i s rest ids ht hsn hu =>
    have hi := h.sess i
    obtain ⟨s', rest', k, e, hk, hids⟩ := hi.snap ids hsn
    rw [ht] at e; cases e
    have hins := no_ins hi ht (by rintro rfl; cases hk)
    have hai : (act (st.sess i) s ids).ins = [] := act_ins _ _ _ hins
    refine inv_put h i _ ⟨?_, ?_, ?_, .inl hai, ?_, by simp⟩ ?_ ?_
    · intro n hn
      rcases act_del hn with h1 | ⟨h1, _⟩
      · exact hi.del n h1
      · exact (hids n h1).1
    · intro p hp
      rcases act_upd hp with h1 | ⟨h1, _⟩
      · exact hi.upd p h1
      · exact (hids _ h1).1
    · intro r hr
      simp only [hai] at hr
      cases hr
    · have := hi.todo; rw [ht] at this; exact rest_tail this
    · intro j _ r hr
      simp only [hai] at hr
      cases hr
    · intro j hj r hr
      obtain ⟨a1, a2, a3, a4⟩ := h.apart j i hj r hr
      refine ⟨by simp [hai], fun hm => ?_, fun p hp => ?_, by simp⟩
      · rcases act_del hm with h1 | ⟨h1, _⟩
        · exact a2 h1
        · exact a4 ids hsn h1
      · rcases act_upd hp with h1 | ⟨h1, _⟩
        · exact a3 p h1
        · intro e; rw [e] at h1; exact a4 ids hsn h1
  | insert i k v rest ht hf =>
    have hi := h.sess i
    have hins := no_ins hi ht (by intro e; cases e)
    have hrest : rest = [.commit] := by
      have := hi.todo
      rw [ht] at this
      obtain ⟨o, _, hs⟩ := rest_cons this
      obtain ⟨t, hs⟩ := hs
      cases o with
      | set k' v' =>
        simp only [Op.stmts] at hs
        rcases t with _ | ⟨a, _ | ⟨b, _ | ⟨c, t⟩⟩⟩ <;> simp at hs <;> simp [hs]
      | update k' v' =>
        simp only [Op.stmts] at hs
        rcases t with _ | ⟨a, _ | ⟨b, t⟩⟩ <;> simp at hs
      | delete k' =>
        simp only [Op.stmts] at hs
        rcases t with _ | ⟨a, t⟩ <;> simp at hs
      | flush =>
        simp only [Op.stmts] at hs
        rcases t with _ | ⟨a, t⟩ <;> simp at hs
    have hsnap : (st.sess i).snap = none := by
      cases e : (st.sess i).snap with
      | none => rfl
      | some ids =>
        obtain ⟨s, r, k, e1, e2, _⟩ := hi.snap ids e
        rw [ht] at e1; cases e1; cases e2
    have hmono : ∀ s, SessInv P st.committed st.next s → SessInv P st.committed (st.next + 1) s := by
      intro s g
      refine ⟨fun n hn => Nat.lt_succ_of_lt (g.del n hn), fun p hp => Nat.lt_succ_of_lt (g.upd p hp),
        fun r hr => ⟨Nat.lt_succ_of_lt (g.ins r hr).1, (g.ins r hr).2⟩, g.once, g.todo, fun ids he => ?_⟩
      obtain ⟨s, r, k, a, b, c⟩ := g.snap ids he
      exact ⟨s, r, k, a, b, fun n hn => ⟨Nat.lt_succ_of_lt (c n hn).1, (c n hn).2⟩⟩
    have h' : SInv P { st with next := st.next + 1 } :=
      ⟨fun r hr => Nat.lt_succ_of_lt (h.rows r hr), h.uniq, fun j => hmono _ (h.sess j), h.apart⟩
    have hm := hmono _ hi
    refine inv_put h' i _ ⟨hm.del, hm.upd, ?_, .inr ⟨by simp [hins], hrest⟩, ?_, ?_⟩ ?_ ?_
    · intro r hr
      simp only [hins, List.nil_append, List.mem_singleton] at hr
      subst hr
      exact ⟨Nat.lt_succ_self _, fun r' hr' => Nat.ne_of_lt (h.rows r' hr')⟩
    · have := hi.todo; rw [ht] at this; exact rest_tail this
    · intro ids he; simp only [hsnap] at he; cases he
    · intro j hj r hr
      simp only [hins, List.nil_append, List.mem_singleton] at hr
      subst hr
      have hj' := h.sess j
      refine ⟨fun r' hr' => Nat.ne_of_lt (hj'.ins r' hr').1, fun hd => Nat.lt_irrefl _ (hj'.del _ hd),
        fun p hp => Nat.ne_of_lt (hj'.upd p hp), fun ids he hm => ?_⟩
      obtain ⟨_, _, _, _, _, c⟩ := hj'.snap ids he
      exact Nat.lt_irrefl _ (c _ hm).1
    · intro j hj r hr
      obtain ⟨a1, a2, a3, a4⟩ := h.apart j i hj r hr
      refine ⟨fun r' hr' => ?_, a2, a3, a4⟩
      simp only [hins, List.nil_append, List.mem_singleton] at hr'
      subst hr'
      exact (Nat.ne_of_lt ((h.sess j).ins r hr).1).symm
  | commit i rest ht =>
    have hi := h.sess i
    have htodo : Rest P rest := by have := hi.todo; rw [ht] at this; exact rest_tail this
    refine ⟨fun r hr => ?_, fun r hr r' hr' e => ?_, fun j => ?_, fun a b hab => ?_⟩
    · rcases mem_view hr with ⟨r0, h0, _, rfl⟩ | h0
      · rw [updated_id]; exact h.rows r0 h0
      · exact (hi.ins r h0).1
    · rcases mem_view hr with ⟨r0, h0, _, rfl⟩ | h0
      · rcases mem_view hr' with ⟨r1, h1, _, rfl⟩ | h1
        · rw [updated_id, updated_id] at e; rw [h.uniq r0 h0 r1 h1 e]
        · rw [updated_id] at e; exact absurd e ((hi.ins r' h1).2 r0 h0)
      · rcases mem_view hr' with ⟨r1, h1, _, rfl⟩ | h1
        · rw [updated_id] at e; exact absurd e.symm ((hi.ins r h0).2 r1 h1)
        · exact length_one hi.once h0 h1
    · show SessInv P (view st.committed (st.sess i)) st.next ((st.put i { todo := rest }).sess j)
      by_cases e : j = i
      · subst e; rw [put_same]; exact sessInv_new P _ _ _ htodo
      · rw [put_ne _ _ e]
        have hj := h.sess j
        have hap := h.apart i j (fun x => e x.symm)
        refine ⟨hj.del, hj.upd, fun r hr => ⟨(hj.ins r hr).1, fun r' hr' => ?_⟩, hj.once, hj.todo, fun ids he => ?_⟩
        · rcases mem_view hr' with ⟨r0, h0, _, rfl⟩ | h0
          · rw [updated_id]; exact (hj.ins r hr).2 r0 h0
          · exact ((hap r' h0).1 r hr).symm
        · obtain ⟨s, rs, k, a, b, c⟩ := hj.snap ids he
          refine ⟨s, rs, k, a, b, fun n hn => ⟨(c n hn).1, fun r' hr' e' => ?_⟩⟩
          rcases mem_view hr' with ⟨r0, h0, _, rfl⟩ | h0
          · rw [updated_id] at e'; rw [updated_owner]; exact (c n hn).2 r0 h0 e'
          · rw [← e'] at hn; exact absurd hn ((hap r' h0).2.2.2 ids he)
    · show Apart ((st.put i { todo := rest }).sess a) ((st.put i { todo := rest }).sess b)
      by_cases ea : a = i
      · subst ea; rw [put_same]; exact apart_new_left _ _
      · by_cases eb : b = i
        · subst eb; rw [put_same]; exact apart_new_right _ _
        · rw [put_ne _ _ ea, put_ne _ _ eb]; exact h.apart a b hab
  | die i =>
    exact inv_put h i _ (sessInv_new P _ _ _ (rest_nil P)) (fun j _ => apart_new_left _ _) (fun j _ => apart_new_right _ _)

theorem sInv {mode : Mode} {P : Op → Prop} {st : Shared} (h : SReach mode P st) : SInv P st := by
  induction h with
  | start => exact ⟨by simp, by simp, fun i => sessInv_new P _ _ _ (rest_nil P), fun _ _ _ => apart_new_left _ _⟩
  | step _ hs ih => exact sInv_step ih hs

/-! ## what is read was written -/

/-- `k` and `v` were given together to `set` or `update` -/
def Writes (W : String → String → Prop) (o : Op) : Prop := ∀ k v, o = .set k v ∨ o = .update k v → W k v

structure ValInv (W : String → String → Prop) (st : Shared) : Prop where
  rows : ∀ r ∈ st.committed, W r.owner r.data
  ins : ∀ i, ∀ r ∈ (st.sess i).ins, W r.owner r.data
  upd : ∀ i, ∀ p ∈ (st.sess i).upd, ∀ r ∈ st.committed, r.id = p.1 → W r.owner p.2

theorem updated_data {u : List (Nat × String)} {r : Row} : (updated u r).data = r.data ∨ ∃ p ∈ u, p.1 = r.id ∧ (updated u r).data = p.2 := by
  unfold updated
  split
  · rename_i p hp
    have h1 := List.mem_of_find?_eq_some hp
    have h2 := List.find?_some hp
    exact .inr ⟨p, h1, by simpa using h2, rfl⟩
  · exact .inl rfl

theorem view_written {W : String → String → Prop} {st : Shared} (h : ValInv W st) (i : Nat) {r : Row}
    (hr : r ∈ view st.committed (st.sess i)) : W r.owner r.data := by
  rcases mem_view hr with ⟨r0, h0, _, rfl⟩ | h0
  · rw [updated_owner]
    rcases updated_data (u := (st.sess i).upd) (r := r0) with e | ⟨p, hp, e1, e2⟩
    · rw [e]; exact h.rows r0 h0
    · rw [e2]; exact h.upd i p hp r0 h0 e1.symm
  · exact h.ins i r h0

theorem rest_update {W : String → String → Prop} {k v : String} {l : List Stmt} (h : Rest (Writes W) (.update k v :: l)) : W k v := by
  obtain ⟨o, hp, t, hs⟩ := rest_cons h
  cases o with
  | update k' v' =>
    simp only [Op.stmts] at hs
    rcases t with _ | ⟨a, _ | ⟨b, t⟩⟩ <;> simp at hs
    exact hp k v (.inr (by rw [hs.1.1, hs.1.2]))
  | set k' v' =>
    simp only [Op.stmts] at hs
    rcases t with _ | ⟨a, _ | ⟨b, _ | ⟨c, t⟩⟩⟩ <;> simp at hs
  | delete k' => simp only [Op.stmts] at hs; rcases t with _ | ⟨a, t⟩ <;> simp at hs
  | flush => simp only [Op.stmts] at hs; rcases t with _ | ⟨a, t⟩ <;> simp at hs

theorem rest_insert {P : Op → Prop} {k v : String} {l : List Stmt} (h : Rest P (.insert k v :: l)) :
    P (.set k v) ∧ l = [.commit] := by
  obtain ⟨o, hp, t, hs⟩ := rest_cons h
  cases o with
  | set k' v' =>
    simp only [Op.stmts] at hs
    rcases t with _ | ⟨a, _ | ⟨b, _ | ⟨c, t⟩⟩⟩ <;> simp at hs
    obtain ⟨_, ⟨rfl, rfl⟩, rfl⟩ := hs
    exact ⟨hp, rfl⟩
  | update k' v' => simp only [Op.stmts] at hs; rcases t with _ | ⟨a, _ | ⟨b, t⟩⟩ <;> simp at hs
  | delete k' => simp only [Op.stmts] at hs; rcases t with _ | ⟨a, t⟩ <;> simp at hs
  | flush => simp only [Op.stmts] at hs; rcases t with _ | ⟨a, t⟩ <;> simp at hs

/-- one session is changed, the table is not -/
theorem val_put {W : String → String → Prop} {st : Shared} (h : ValInv W st) (i : Nat) (s : Sess)
    (h1 : ∀ r ∈ s.ins, W r.owner r.data) (h2 : ∀ p ∈ s.upd, ∀ r ∈ st.committed, r.id = p.1 → W r.owner p.2) :
    ValInv W (st.put i s) := by
  refine ⟨h.rows, fun j => ?_, fun j => ?_⟩
  · by_cases e : j = i
    · subst e; rw [put_same]; exact h1
    · rw [put_ne _ _ e]; exact h.ins j
  · by_cases e : j = i
    · subst e; rw [put_same]; exact h2
    · rw [put_ne _ _ e]; exact h.upd j

theorem valInv_step {mode : Mode} {W : String → String → Prop} {st st' : Shared} (hi : SInv (Writes W) st)
    (h : ValInv W st) (hs : SStep mode (Writes W) st st') : ValInv W st' := by
  cases hs with
  | call i o hp ht => exact val_put h i _ (h.ins i) (h.upd i)
  | see i s rest k ht hk hsn hf => exact val_put h i _ (h.ins i) (h.upd i)
  | act i s rest ids ht hsn hu =>
    have hii := hi.sess i
    obtain ⟨s', rest', k, e, hk, hids⟩ := hii.snap ids hsn
    rw [ht] at e; cases e
    have hins := no_ins hii ht (by rintro rfl; cases hk)
    refine val_put h i _ ?_ ?_
    · intro r hr
      simp only [act_ins _ _ _ hins] at hr
      cases hr
    · intro p hp r hr e
      rcases act_upd hp with h1 | ⟨h1, k', rfl⟩
      · exact h.upd i p h1 r hr e
      · cases hk
        rw [(hids _ h1).2 r hr e]
        have := hii.todo
        rw [ht] at this
        exact rest_update this
  | insert i k v rest ht hf =>
    have := (hi.sess i).todo
    rw [ht] at this
    have hw := (rest_insert this).1 k v (.inl rfl)
    have h' : ValInv W { st with next := st.next + 1 } := ⟨h.rows, h.ins, h.upd⟩
    refine val_put h' i _ ?_ (h.upd i)
    intro r hr
    rcases List.mem_append.1 hr with hr | hr
    · exact h.ins i r hr
    · rw [List.mem_singleton] at hr; subst hr; exact hw
  | commit i rest ht =>
    refine ⟨fun r hr => view_written h i hr, fun j => ?_, fun j => ?_⟩
    · show ∀ r ∈ ((st.put i { todo := rest }).sess j).ins, _
      by_cases e : j = i
      · subst e; rw [put_same]; simp
      · rw [put_ne _ _ e]; exact h.ins j
    · show ∀ p ∈ ((st.put i { todo := rest }).sess j).upd, ∀ r ∈ view st.committed (st.sess i), _
      by_cases e : j = i
      · subst e; rw [put_same]; simp
      · rw [put_ne _ _ e]
        intro p hp r hr e'
        rcases mem_view hr with ⟨r0, h0, _, rfl⟩ | h0
        · rw [updated_id] at e'; rw [updated_owner]; exact h.upd j p hp r0 h0 e'
        · exact absurd e'.symm ((hi.apart i j (fun x => e x.symm) r h0).2.2.1 p hp)
  | die i => exact val_put h i _ (by simp) (by simp)

/-- C111: with any number of sessions, any interleaving of their statements, sessions that die at any point, and both kinds
of database: what `get` returns for a key was given to `set` or `update` for that key. -/
theorem C111_values {mode : Mode} {W : String → String → Prop} {st : Shared} (h : SReach mode (Writes W) st) (i : Nat)
    {k v : String} (hg : getIn st i k = some v) : W k v := by
  have hv : ValInv W st := by
    clear hg
    induction h with
    | start => exact ⟨by simp, by simp, by simp⟩
    | step hr hs ih => exact valInv_step (sInv hr) ih hs
  unfold getIn at hg
  cases hf : (view st.committed (st.sess i)).find? (fun r => r.owner = k) with
  | none => rw [hf] at hg; cases hg
  | some r =>
    rw [hf] at hg
    cases hg
    have h1 := List.mem_of_find?_eq_some hf
    have h2 := List.find?_some hf
    simp only [decide_eq_true_eq] at h2
    rw [← h2]
    exact view_written hv i h1

/-! ## a key does not vanish -/

/-- nothing this session has done so far leaves `k` without a row -/
def Covers (k : String) (c : List Row) (s : Sess) : Prop :=
  (∃ r ∈ s.ins, r.owner = k) ∨ (∃ v rest, s.todo = .insert k v :: rest) ∨ ∀ r ∈ c, r.owner = k → r.id ∉ s.del

theorem covers_put {k : String} {st : Shared} (h : ∀ i, Covers k st.committed (st.sess i)) (i : Nat) (s : Sess)
    (hs : Covers k st.committed s) : ∀ j, Covers k (st.put i s).committed ((st.put i s).sess j) := by
  intro j
  by_cases e : j = i
  · subst e; rw [put_same]; exact hs
  · rw [put_ne _ _ e]; exact h j

theorem rest_delete {k k' : String} {l : List Stmt} (h : Rest (fun o => o ≠ .delete k) (.delete k' :: l)) (hk : k' = k) :
    ∃ v, l = [.insert k v, .commit] := by
  subst hk
  obtain ⟨o, hp, t, hs⟩ := rest_cons h
  cases o with
  | set k1 v1 =>
    simp only [Op.stmts] at hs
    rcases t with _ | ⟨a, _ | ⟨b, _ | ⟨c, t⟩⟩⟩ <;> simp at hs
    exact ⟨v1, by rw [hs.2, hs.1]⟩
  | update k1 v1 => simp only [Op.stmts] at hs; rcases t with _ | ⟨a, _ | ⟨b, t⟩⟩ <;> simp at hs
  | delete k1 =>
    simp only [Op.stmts] at hs
    rcases t with _ | ⟨a, t⟩ <;> simp at hs
    exact absurd (by rw [hs.1]) hp
  | flush => simp only [Op.stmts] at hs; rcases t with _ | ⟨a, t⟩ <;> simp at hs

theorem covers_step {mode : Mode} {k : String} {st st' : Shared} (hi : SInv (fun o => o ≠ .delete k) st)
    (h : ∀ i, Covers k st.committed (st.sess i)) (hs : SStep mode (fun o => o ≠ .delete k) st st') :
    ∀ i, Covers k st'.committed (st'.sess i) := by
  cases hs with
  | call i o hp ht =>
    refine covers_put h i _ ?_
    rcases h i with h1 | ⟨v, r, h1⟩ | h1
    · exact .inl h1
    · rw [ht] at h1; cases h1
    · exact .inr (.inr h1)
  | see i s rest k' ht hk hsn hf => exact covers_put h i _ (h i)
  | act i s rest ids ht hsn hu =>
    have hii := hi.sess i
    obtain ⟨s', rest', k', e, hk, hids⟩ := hii.snap ids hsn
    rw [ht] at e; cases e
    have hins := no_ins hii ht (by rintro rfl; cases hk)
    have hold : ∀ r ∈ st.committed, r.owner = k → r.id ∉ (st.sess i).del := by
      rcases h i with ⟨r, hr, _⟩ | ⟨v, r, h1⟩ | h1
      · rw [hins] at hr; cases hr
      · rw [ht] at h1; cases h1; cases hk
      · exact h1
    refine covers_put h i _ ?_
    by_cases hd : s = .delete k
    · subst hd
      cases hk
      have := hii.todo
      rw [ht] at this
      obtain ⟨v, e⟩ := rest_delete this rfl
      exact .inr (.inl ⟨v, [.commit], e⟩)
    · refine .inr (.inr fun r hr ho hm => ?_)
      rcases act_del hm with h1 | ⟨h1, k1, rfl⟩
      · exact hold r hr ho h1
      · cases hk
        have := (hids _ h1).2 r hr rfl
        rw [ho] at this
        exact hd (by rw [this])
  | insert i k' v rest ht hf =>
    have h' : ∀ j, Covers k ({ st with next := st.next + 1 } : Shared).committed (({ st with next := st.next + 1 } : Shared).sess j) := h
    refine covers_put h' i _ ?_
    rcases h i with ⟨r, hr, ho⟩ | ⟨v', r, h1⟩ | h1
    · exact .inl ⟨r, List.mem_append_left _ hr, ho⟩
    · rw [ht] at h1
      cases h1
      exact .inl ⟨_, List.mem_append_right _ (List.mem_singleton.2 rfl), rfl⟩
    · exact .inr (.inr h1)
  | commit i rest ht =>
    intro j
    show Covers k (view st.committed (st.sess i)) ((st.put i { todo := rest }).sess j)
    by_cases e : j = i
    · subst e; rw [put_same]; exact .inr (.inr (by simp))
    · rw [put_ne _ _ e]
      rcases h j with h1 | h1 | h1
      · exact .inl h1
      · exact .inr (.inl h1)
      · refine .inr (.inr fun r hr ho => ?_)
        rcases mem_view hr with ⟨r0, h0, _, rfl⟩ | h0
        · rw [updated_id]; rw [updated_owner] at ho; exact h1 r0 h0 ho
        · exact (hi.apart i j (fun x => e x.symm) r h0).2.1
  | die i => exact covers_put h i _ (.inr (.inr (by simp)))

theorem covers_all {mode : Mode} {k : String} {st : Shared} (h : SReach mode (fun o => o ≠ .delete k) st) :
    ∀ i, Covers k st.committed (st.sess i) := by
  induction h with
  | start => intro i; exact .inr (.inr (by simp))
  | step hr hs ih => exact covers_step (sInv hr) ih hs

/-- a session that is not between the two halves of `set` sees a committed key -/
theorem view_has {k : String} {c : List Row} {s : Sess} (h : Covers k c s) (ht : ∀ v rest, s.todo ≠ .insert k v :: rest)
    (hc : ∃ r ∈ c, r.owner = k) : ∃ r ∈ view c s, r.owner = k := by
  rcases h with ⟨r, hr, ho⟩ | ⟨v, r, h1⟩ | h1
  · exact ⟨r, List.mem_append_right _ hr, ho⟩
  · exact absurd h1 (ht v r)
  · obtain ⟨r, hr, ho⟩ := hc
    exact ⟨_, view_keeps hr (h1 r hr ho), by rw [updated_owner]; exact ho⟩

/-- C111: although `set` deletes before it inserts, a key that nobody deletes never vanishes: once it is committed it
stays so, -/
theorem C111_present {mode : Mode} {k : String} {st st' : Shared} (h : SReach mode (fun o => o ≠ .delete k) st)
    (hs : SStep mode (fun o => o ≠ .delete k) st st') (hc : ∃ r ∈ st.committed, r.owner = k) :
    ∃ r ∈ st'.committed, r.owner = k := by
  have hcov := covers_all h
  cases hs with
  | commit i rest ht =>
    exact view_has (hcov i) (by intro v r e; rw [ht] at e; cases e) hc
  | _ => exact hc

/-- and every session that is not itself in the middle of a `set` of it reads a value. -/
theorem C111_read {mode : Mode} {k : String} {st : Shared} (h : SReach mode (fun o => o ≠ .delete k) st)
    (hc : ∃ r ∈ st.committed, r.owner = k) (i : Nat) (ht : ∀ v rest, (st.sess i).todo ≠ .insert k v :: rest) :
    ∃ v, getIn st i k = some v := by
  obtain ⟨r, hr, ho⟩ := view_has (covers_all h i) ht hc
  unfold getIn
  cases hf : (view st.committed (st.sess i)).find? (fun r => r.owner = k) with
  | none =>
    rw [List.find?_eq_none] at hf
    exact absurd (by simpa using ho) (hf r hr)
  | some r' => exact ⟨r'.data, rfl⟩

/-! ## one writer -/

theorem view_delete {c : List Row} {s : Sess} {k : String} (hu : ∀ r ∈ c, ∀ r' ∈ c, r.id = r'.id → r = r') :
    view c (act s (.delete k) (found c s k)) = (view c s).filter (fun r => r.owner != k) := by
  simp only [view, act, List.filter_append]
  congr 1
  rw [List.filter_map, List.filter_filter]
  congr 1
  refine List.filter_congr fun r hr => ?_
  have hm : r.id ∈ found c s k ↔ r.owner = k ∧ r.id ∉ s.del := by
    constructor
    · intro h
      obtain ⟨r', h1, h2, h3, h4⟩ := mem_found h
      rw [hu r hr r' h1 h2.symm]
      exact ⟨h3, h4⟩
    · rintro ⟨h1, h2⟩
      exact List.mem_map_of_mem (List.mem_filter.2 ⟨hr, by simp [h1, h2]⟩)
  simp only [Function.comp, updated_owner, List.mem_append, hm]
  by_cases h1 : r.owner = k <;> by_cases h2 : r.id ∈ s.del <;> simp [h1, h2]

theorem view_update_owners {c : List Row} {s : Sess} {k v : String} (ids : List Nat) :
    (view c (act s (.update k v) ids)).map (·.owner) = (view c s).map (·.owner) := by
  simp only [view, act, List.map_append, List.map_map]
  congr 1
  · refine List.map_congr_left fun r _ => ?_
    simp only [Function.comp, updated_owner]
  · refine List.map_congr_left fun r _ => ?_
    simp only [Function.comp]
    split <;> rfl

theorem view_idle (c : List Row) (s : Sess) (h1 : s.del = []) (h2 : s.upd = []) (h3 : s.ins = []) : view c s = c := by
  have : updated ([] : List (Nat × String)) = id := by funext r; rfl
  simp [view, h1, h2, h3, this]

structure OneInv (st : Shared) : Prop where
  alone : ∀ i j, i ≠ j → (st.sess i).tx = true → (st.sess j).tx = false
  idle : ∀ i, (st.sess i).tx = false → (st.sess i).del = [] ∧ (st.sess i).upd = [] ∧ (st.sess i).ins = [] ∧
    (st.sess i).snap = none ∧ ∀ k v rest, (st.sess i).todo ≠ .insert k v :: rest
  snap : ∀ i s rest k ids, (st.sess i).todo = s :: rest → s.key = some k → (st.sess i).snap = some ids →
    ids = found st.committed (st.sess i) k
  rows : (st.committed.map (·.owner)).Nodup
  views : ∀ i, ((view st.committed (st.sess i)).map (·.owner)).Nodup
  mid : ∀ i k v rest, (st.sess i).todo = .insert k v :: rest → k ∉ (view st.committed (st.sess i)).map (·.owner)

/-- what must be known of the session that moves, when the table stays as it is -/
structure OneOk (st : Shared) (i : Nat) (s : Sess) : Prop where
  tx : s.tx = true → ∀ j, j ≠ i → (st.sess j).tx = false
  idle : s.tx = false → s.del = [] ∧ s.upd = [] ∧ s.ins = [] ∧ s.snap = none ∧ ∀ k v rest, s.todo ≠ .insert k v :: rest
  snap : ∀ t rest k ids, s.todo = t :: rest → t.key = some k → s.snap = some ids → ids = found st.committed s k
  views : ((view st.committed s).map (·.owner)).Nodup
  mid : ∀ k v rest, s.todo = .insert k v :: rest → k ∉ (view st.committed s).map (·.owner)

theorem one_put {st : Shared} (h : OneInv st) (i : Nat) (s : Sess) (ho : OneOk st i s) : OneInv (st.put i s) := by
  refine ⟨fun a b hab => ?_, fun j => ?_, fun j => ?_, h.rows, fun j => ?_, fun j => ?_⟩
  · by_cases ea : a = i
    · subst ea
      rw [put_same, put_ne _ _ (fun e => hab e.symm)]
      exact fun ht => ho.tx ht b (fun e => hab e.symm)
    · by_cases eb : b = i
      · subst eb
        rw [put_same, put_ne _ _ ea]
        intro ht
        cases hx : s.tx with
        | false => rfl
        | true => exact absurd ht (by rw [ho.tx hx a ea]; decide)
      · rw [put_ne _ _ ea, put_ne _ _ eb]; exact h.alone a b hab
  · by_cases e : j = i
    · subst e; rw [put_same]; exact ho.idle
    · rw [put_ne _ _ e]; exact h.idle j
  · by_cases e : j = i
    · subst e; rw [put_same]; exact ho.snap
    · rw [put_ne _ _ e]; exact h.snap j
  · by_cases e : j = i
    · subst e; rw [put_same]; exact ho.views
    · rw [put_ne _ _ e]; exact h.views j
  · by_cases e : j = i
    · subst e; rw [put_same]; exact ho.mid
    · rw [put_ne _ _ e]; exact h.mid j

theorem nodup_snoc {α : Type} {l : List α} {a : α} (h : l.Nodup) (ha : a ∉ l) : (l ++ [a]).Nodup := by
  rw [List.nodup_append]
  refine ⟨h, by simp, fun x hx y hy => ?_⟩
  rw [List.mem_singleton] at hy
  subst hy
  rintro rfl
  exact ha hx

theorem oneInv_step {P : Op → Prop} {st st' : Shared} (hi : SInv P st) (h : OneInv st) (hs : SStep .oneWriter P st st') :
    OneInv st' := by
  cases hs with
  | call i o hp ht =>
    refine one_put h i _ ⟨fun hx j hj => h.alone i j (fun e => hj e.symm) hx, fun hx => ?_, ?_, h.views i, ?_⟩
    · obtain ⟨a, b, c, d, _⟩ := h.idle i hx
      refine ⟨a, b, c, d, fun k v rest e => ?_⟩
      cases o <;> cases e
    · intro t rest k ids e hk hsn
      obtain ⟨_, _, _, e', _⟩ := (hi.sess i).snap ids hsn
      rw [ht] at e'; cases e'
    · intro k v rest e
      cases o <;> cases e
  | see i s rest k ht hk hsn hf =>
    refine one_put h i _ ⟨fun _ j hj => hf rfl j hj, fun hx => (by cases hx), ?_, h.views i, h.mid i⟩
    intro t rest' k' ids e hk' he
    simp only [ht] at e
    cases e
    rw [hk] at hk'
    cases hk'
    cases he
    rfl
  | act i s rest ids ht hsn hu =>
    have hii := hi.sess i
    obtain ⟨s', rest', k, e, hk, hids⟩ := hii.snap ids hsn
    rw [ht] at e; cases e
    have hx : (st.sess i).tx = true := by
      cases hx : (st.sess i).tx with
      | true => rfl
      | false => have := (h.idle i hx).2.2.2.1; rw [hsn] at this; cases this
    have he := h.snap i s rest k ids ht hk hsn
    subst he
    have htx : (act (st.sess i) s (found st.committed (st.sess i) k)).tx = true := by cases s <;> exact hx
    have htodo := hii.todo
    rw [ht] at htodo
    have hv : ∀ t : List Stmt, view st.committed { act (st.sess i) s (found st.committed (st.sess i) k) with
        snap := none, todo := t } = view st.committed (act (st.sess i) s (found st.committed (st.sess i) k)) := fun _ => rfl
    refine one_put h i _ ⟨fun _ j hj => h.alone i j (fun e => hj e.symm) hx, fun hx' => ?_, ?_, ?_, ?_⟩
    · simp only [htx] at hx'; cases hx'
    · intro _ _ _ _ _ _ e; cases e
    · rw [hv]
      cases s with
      | delete k' =>
        cases hk
        rw [view_delete hi.uniq]
        exact (List.filter_sublist.map _).nodup (h.views i)
      | update k' v' => rw [view_update_owners]; exact h.views i
      | insert _ _ => cases hk
      | commit => cases hk
    · intro k1 v1 rest1 e
      rw [hv]
      simp only at e
      subst e
      obtain ⟨o, _, t, hs⟩ := rest_cons htodo
      cases o with
      | set k2 v2 =>
        simp only [Op.stmts] at hs
        rcases t with _ | ⟨a, _ | ⟨b, _ | ⟨c, t⟩⟩⟩ <;> simp at hs
        obtain ⟨rfl, ⟨rfl, rfl⟩, rfl⟩ := hs
        cases hk
        rw [view_delete hi.uniq]
        intro hm
        obtain ⟨r, hr, e⟩ := List.mem_map.1 hm
        have := (List.mem_filter.1 hr).2
        rw [e] at this
        simp at this
      | update k2 v2 => simp only [Op.stmts] at hs; rcases t with _ | ⟨a, _ | ⟨b, t⟩⟩ <;> simp at hs
      | delete k2 => simp only [Op.stmts] at hs; rcases t with _ | ⟨a, t⟩ <;> simp at hs
      | flush => simp only [Op.stmts] at hs; rcases t with _ | ⟨a, t⟩ <;> simp at hs
  | insert i k v rest ht hf =>
    have h' : OneInv { st with next := st.next + 1 } := ⟨h.alone, h.idle, h.snap, h.rows, h.views, h.mid⟩
    have hii := (hi.sess i).todo
    rw [ht] at hii
    have hrest := (rest_insert hii).2
    have hv : (view st.committed { st.sess i with
        ins := (st.sess i).ins ++ [⟨st.next, k, v⟩], tx := true, todo := rest }).map (·.owner) =
        (view st.committed (st.sess i)).map (·.owner) ++ [k] := by
      simp [view]
    refine one_put h' i _ ⟨fun _ j hj => hf rfl j hj, fun hx => (by cases hx), ?_, ?_, ?_⟩
    · intro t r k' ids e hk' he
      simp only [hrest] at e
      cases e
      cases hk'
    · show List.Nodup _
      rw [hv]
      exact nodup_snoc (h.views i) (h.mid i k v rest ht)
    · intro k' v' r e
      simp only [hrest] at e
      cases e
  | commit i rest ht =>
    have hii := (hi.sess i).todo
    rw [ht] at hii
    have hrest : rest = [] := by
      obtain ⟨o, _, t, hs⟩ := rest_cons hii
      cases o with
      | set k2 v2 =>
        simp only [Op.stmts] at hs
        rcases t with _ | ⟨a, _ | ⟨b, _ | ⟨c, t⟩⟩⟩ <;> simp at hs
        exact hs.2.2
      | update k2 v2 =>
        simp only [Op.stmts] at hs
        rcases t with _ | ⟨a, _ | ⟨b, t⟩⟩ <;> simp at hs
        exact hs.2
      | delete k2 => simp only [Op.stmts] at hs; rcases t with _ | ⟨a, t⟩ <;> simp at hs
      | flush =>
        simp only [Op.stmts] at hs
        rcases t with _ | ⟨a, t⟩ <;> simp at hs
        exact hs
    subst hrest
    -- the others have nothing pending, or nothing changes
    have key : view st.committed (st.sess i) = st.committed ∨ ∀ j, j ≠ i → (st.sess j).tx = false := by
      cases hx : (st.sess i).tx with
      | false =>
        obtain ⟨a, b, c, _⟩ := h.idle i hx
        exact .inl (view_idle _ _ a b c)
      | true => exact .inr fun j hj => h.alone i j (fun e => hj e.symm) hx
    rcases key with key | key
    · have : ({ st.put i {} with committed := view st.committed (st.sess i) } : Shared) = st.put i {} := by
        rw [key]; rfl
      show OneInv ({ st.put i {} with committed := view st.committed (st.sess i) } : Shared)
      rw [this]
      refine one_put h i _ ⟨fun hx => (by cases hx), fun _ => ⟨rfl, rfl, rfl, rfl, by simp⟩, by simp, ?_, by simp⟩
      rw [view_idle _ _ rfl rfl rfl]; exact h.rows
    · have hidle : ∀ j, ((st.put i {}).sess j).tx = false ∧ ((st.put i {}).sess j).del = [] ∧
          ((st.put i {}).sess j).upd = [] ∧ ((st.put i {}).sess j).ins = [] ∧ ((st.put i {}).sess j).snap = none ∧
          ∀ k v rest, ((st.put i {}).sess j).todo ≠ .insert k v :: rest := by
        intro j
        by_cases e : j = i
        · subst e; rw [put_same]; exact ⟨rfl, rfl, rfl, rfl, rfl, by simp⟩
        · rw [put_ne _ _ e]; exact ⟨key j e, h.idle j (key j e)⟩
      refine ⟨fun a b _ ht => ?_, fun j _ => (hidle j).2, fun j s r k ids _ _ he => ?_, h.views i, fun j => ?_, fun j k v r e => ?_⟩
      · exact absurd ht (by show ¬ ((st.put i {}).sess a).tx = true; rw [(hidle a).1]; decide)
      · have : ((st.put i {}).sess j).snap = some ids := he
        rw [(hidle j).2.2.2.2.1] at this; cases this
      · show ((view (view st.committed (st.sess i)) ((st.put i {}).sess j)).map (·.owner)).Nodup
        rw [view_idle _ _ (hidle j).2.1 (hidle j).2.2.1 (hidle j).2.2.2.1]
        exact h.views i
      · exact absurd e ((hidle j).2.2.2.2.2 k v r)
  | die i =>
    refine one_put h i _ ⟨fun hx => (by cases hx), fun _ => ⟨rfl, rfl, rfl, rfl, by simp⟩, by simp, ?_, by simp⟩
    rw [view_idle _ _ rfl rfl rfl]; exact h.rows

theorem oneInv {P : Op → Prop} {st : Shared} (h : SReach .oneWriter P st) : OneInv st := by
  induction h with
  | start => exact ⟨by simp, by simp, by simp, by simp, by simp [view], by simp⟩
  | step hr hs ih => exact oneInv_step (sInv hr) ih hs

/-- C111, with one writer at a time: a key has at most one row, in the table and in what any session sees. -/
theorem C111_one_row_partial {P : Op → Prop} {st : Shared} (h : SReach .oneWriter P st) :
    (st.committed.map (·.owner)).Nodup ∧ ∀ i, ((view st.committed (st.sess i)).map (·.owner)).Nodup :=
  ⟨(oneInv h).rows, (oneInv h).views⟩

/-- C111, with one writer at a time: when a session that has written commits, everybody sees what it saw. -/
theorem C111_agree_partial {P : Op → Prop} {st st' : Shared} (h : SReach .oneWriter P st) (hs : SStep .oneWriter P st st')
    (i : Nat) (rest : List Stmt) (hx : (st.sess i).tx = true) (ht : (st.sess i).todo = .commit :: rest)
    (he : st' = { st.put i { todo := rest } with committed := view st.committed (st.sess i) }) (j : Nat) (k : String) :
    getIn st' j k = getIn st i k := by
  have h1 := oneInv h
  have h2 := oneInv (.step h hs)
  have hv : view st'.committed (st'.sess j) = view st.committed (st.sess i) := by
    subst he
    show view (view st.committed (st.sess i)) ((st.put i { todo := rest }).sess j) = _
    by_cases e : j = i
    · subst e; rw [put_same]; exact view_idle _ _ rfl rfl rfl
    · rw [put_ne _ _ e]
      obtain ⟨a, b, c, _⟩ := h1.idle j (h1.alone i j (fun x => e x.symm) hx)
      exact view_idle _ _ a b c
  unfold getIn
  rw [hv]

/-- C111: but `delete` does not end its transaction: from then on, and until that session writes something else, flushes
or dies, nobody else can write and the table does not change. -/
theorem C111_delete_blocks {P : Op → Prop} {st st' : Shared} (h : SReach .oneWriter P st) (hs : SStep .oneWriter P st st')
    (i : Nat) (hx : (st.sess i).tx = true) (hx' : (st'.sess i).tx = true) :
    st'.committed = st.committed ∧ ∀ j, j ≠ i → (st'.sess j).tx = false := by
  refine ⟨?_, fun j hj => (oneInv (.step h hs)).alone i j (fun e => hj e.symm) hx'⟩
  cases hs with
  | commit i' rest ht =>
    have hne : i' ≠ i := by
      rintro rfl
      have : ((st.put i' { todo := rest }).sess i').tx = true := hx'
      rw [put_same] at this
      cases this
    obtain ⟨a, b, c, _⟩ := (oneInv h).idle i' ((oneInv h).alone i i' (fun e => hne e.symm) hx)
    exact view_idle _ _ a b c
  | _ => rfl

/-! ## witnesses -/

/-- a session deletes a key: two steps after the call, its transaction is still open -/
theorem C111_delete_open : ∃ st, SReach .oneWriter (fun _ => True) st ∧ (st.sess 0).todo = [] ∧ (st.sess 0).tx = true := by
  refine ⟨_, .step (.step (.step .start (.call _ 0 (.delete "k") trivial rfl))
    (.see _ 0 (.delete "k") [] "k" rfl rfl rfl (fun _ j hj => ?_)))
    (.act _ 0 (.delete "k") [] [] rfl rfl (fun j _ n hn => by cases hn)), rfl, rfl⟩
  rw [put_ne _ _ hj]

/-- C111 is false for databases that lock rows: two sessions that set the same new key at the same time leave two rows.
Both have succeeded, and everybody reads the value of the one that committed first, for good. -/
theorem C111_counterexample : ∃ st, SReach .rowLocks (fun _ => True) st ∧ (∀ i, (st.sess i).todo = [] ∧ (st.sess i).tx = false) ∧
    st.committed.map (fun r => (r.owner, r.data)) = [("k", "a"), ("k", "b")] ∧ ∀ i, getIn st i "k" = some "a" := by
  have free : ∀ (st : Shared) i, Free .rowLocks st i := fun _ _ e => by cases e
  refine ⟨_, .step (.step (.step (.step (.step (.step (.step (.step (.step (.step .start
    (.call _ 0 (.set "k" "a") trivial rfl)) (.call _ 1 (.set "k" "b") trivial rfl))
    (.see _ 0 _ _ "k" rfl rfl rfl (free _ _))) (.see _ 1 _ _ "k" rfl rfl rfl (free _ _)))
    (.act _ 0 _ _ [] rfl rfl (fun j _ n hn => by cases hn))) (.act _ 1 _ _ [] rfl rfl (fun j _ n hn => by cases hn)))
    (.insert _ 0 "k" "a" _ rfl (free _ _))) (.insert _ 1 "k" "b" _ rfl (free _ _)))
    (.commit _ 0 _ rfl)) (.commit _ 1 _ rfl), ?_, by decide +kernel, ?_⟩
  · intro i
    by_cases h1 : i = 1
    · subst h1; exact ⟨rfl, rfl⟩
    · by_cases h0 : i = 0
      · subst h0; exact ⟨rfl, rfl⟩
      · simp [Shared.put, h0, h1]
  · intro i
    by_cases h1 : i = 1
    · subst h1; decide +kernel
    · by_cases h0 : i = 0
      · subst h0; decide +kernel
      · unfold getIn
        rw [view_idle]
        · decide +kernel
        all_goals simp [Shared.put, h0, h1]

end Verif.Sql
