import Verif.Model.Message
import Verif.Props.IsoBasics

/-!
# Nested messages become plain data: C68
-/

namespace Verif

mutual
/-- no message object at any depth -/
def noMsg : Val → Bool
  | .msg _ _ => false
  | .list l => noMsgList l
  | .dict d => noMsgDict d
  | _ => true
def noMsgList : List Val → Bool
  | [] => true
  | v :: vs => noMsg v && noMsgList vs
def noMsgDict : List (String × Val) → Bool
  | [] => true
  | p :: d => noMsg p.2 && noMsgDict d
end

mutual
/-- Messages occur only where the library puts them: as a value, or as the items of a list, not inside a plain dictionary,
a list in a list, or beside other items. -/
def flat : Val → Bool
  | .msg _ d => flatDict d
  | .list l => noMsgList l || flatMsgs l
  | .dict d => noMsgDict d
  | _ => true
/-- all items are messages -/
def flatMsgs : List Val → Bool
  | [] => true
  | .msg _ d :: vs => flatDict d && flatMsgs vs
  | _ :: _ => false
def flatDict : List (String × Val) → Bool
  | [] => true
  | p :: d => flat p.2 && flatDict d
end

theorem noMsgList_strs (l : List String) : noMsgList (l.map .str) = true := by
  induction l with
  | nil => rfl
  | cons s l ih => simp [noMsgList, noMsg, ih]

theorem noMsgList_keys (d : List (String × Val)) : noMsgList (d.map (fun p => .str p.1)) = true := by
  induction d with
  | nil => rfl
  | cons p d ih => simp [noMsgList, noMsg, ih]

theorem noMsgList_chars (l : List Char) : noMsgList (l.map (fun c => .str (String.ofList [c]))) = true := by
  induction l with
  | nil => rfl
  | cons s l ih => simp only [List.map_cons, noMsgList, noMsg, ih, Bool.and_self]

theorem res_bind_ok {α β : Type} {x : Res α} {f : α → Res β} {b : β} (h : (x >>= f) = .ok b) :
    ∃ a, x = .ok a ∧ f a = .ok b := by
  cases x with
  | error e => cases h
  | ok a => exact ⟨a, rfl, h⟩

theorem res_map_ok {α β : Type} {x : Res α} {f : α → β} {b : β} (h : x.map f = .ok b) : ∃ a, x = .ok a ∧ b = f a := by
  cases x with
  | error e => cases h
  | ok a => cases h; exact ⟨a, rfl, rfl⟩

theorem serPlain_noMsg {s : Option Ser} {v r : Val} (hv : noMsg v = true) (h : serPlain s v = .ok r) :
    noMsg r = true := by
  unfold serPlain at h
  split at h
  · cases h; exact hv
  · cases h
  · split at h
    · cases h; rfl
    · cases h; rfl
    · cases h
  · obtain ⟨a, _, rfl⟩ := res_map_ok h; rfl
  · split at h
    · cases h; exact hv
    · cases h; rfl
    · cases h
  · split at h
    · cases h; exact hv
    · cases h
  · split at h
    · cases h; exact noMsgList_chars _
    · cases h; exact noMsgList_keys _
    · cases h
  · split at h
    · cases h; exact hv
    · cases h
  · split at h
    · cases h; exact hv
    · cases h; rfl
    · cases h
  · obtain ⟨t, rfl⟩ := timeStampSer_ok h; rfl

/-- items of which some are messages -/
def flatItems : List Val → Bool
  | [] => true
  | .msg _ d :: vs => flatDict d && flatItems vs
  | v :: vs => noMsg v && flatItems vs

theorem flatItems_of_noMsg : ∀ {l : List Val}, noMsgList l = true → flatItems l = true
  | [], _ => rfl
  | v :: vs, h => by
    simp only [noMsgList, Bool.and_eq_true] at h
    cases v with
    | msg c d => simp [noMsg] at h
    | _ => simp only [flatItems, h.1, flatItems_of_noMsg h.2, Bool.and_self]

theorem flatItems_of_msgs : ∀ {l : List Val}, flatMsgs l = true → flatItems l = true
  | [], _ => rfl
  | v :: vs, h => by
    cases v with
    | msg c d =>
      simp only [flatMsgs, Bool.and_eq_true] at h
      simp only [flatItems, h.1, flatItems_of_msgs h.2, Bool.and_self]
    | _ => simp [flatMsgs] at h

mutual
theorem toDict_noMsg (env : SerEnv) (c : Cls) : (d : List (String × Val)) → flatDict d = true →
    (r : Dict) → toDict env c d = .ok r → noMsgDict r = true
  | [], _, r, h => by rw [toDict] at h; cases h; rfl
  | (k, v) :: rest, hf, r, h => by
    simp only [flatDict, Bool.and_eq_true] at hf
    rw [toDict] at h
    obtain ⟨a, ha, h⟩ := res_bind_ok h
    obtain ⟨b, hb, h⟩ := res_bind_ok h
    cases h
    simp only [noMsgDict, Bool.and_eq_true]
    exact ⟨serDict_noMsg env _ v hf.1 a ha, toDict_noMsg env c rest hf.2 b hb⟩
termination_by structural d => d
theorem serDict_noMsg (env : SerEnv) (s : Option Ser) : (v : Val) → flat v = true →
    (r : Val) → serDict env s v = .ok r → noMsg r = true
  | .msg c d, hf, r, h => by
    simp only [flat] at hf
    have key : ∀ r, (toDict env c d).map Val.dict = .ok r → noMsg r = true := by
      intro r h
      obtain ⟨a, ha, rfl⟩ := res_map_ok h
      exact toDict_noMsg env c d hf a ha
    cases s with
    | none => simp only [serDict] at h; exact key r h
    | some s =>
      cases s with
      | msg => simp only [serDict] at h; exact key r h
      | msgJson => simp only [serDict] at h; exact key r h
      | claims => simp only [serDict] at h; exact key r h
      | list =>
        simp only [serDict] at h
        split at h <;> cases h
      | spSep => simp only [serDict] at h; cases h; rfl
      | json => simp only [serDict] at h; cases h
      | msgList => simp only [serDict] at h; cases h; exact noMsgList_keys _
      | linkList =>
        simp only [serDict] at h
        split at h
        · exact key r h
        · cases h
      | timeStamp => simp only [serDict] at h; cases h
  | .list l, hf, r, h => by
    simp only [flat, Bool.or_eq_true] at hf
    have hi : flatItems l = true := hf.elim flatItems_of_noMsg flatItems_of_msgs
    have plain : s = none ∨ s = some .list → noMsg r = true := by
      intro hs
      cases l with
      | nil => rcases hs with rfl | rfl <;> simp only [serDict] at h <;> cases h <;> rfl
      | cons v vs =>
        cases v with
        | msg c d =>
          have h : (do
              let x ← toDict env c d
              let xs ← toDictEach env vs
              .ok (.list (.dict x :: xs))) = Except.ok r := by
            rcases hs with rfl | rfl <;> simpa only [serDict] using h
          simp only [noMsgList, noMsg, flatMsgs, Bool.and_eq_true, Bool.false_and] at hf
          have hf := hf.resolve_left (by simp)
          obtain ⟨a, ha, h⟩ := res_bind_ok h
          obtain ⟨b, hb, h⟩ := res_bind_ok h
          cases h
          simp only [noMsg, noMsgList, Bool.and_eq_true]
          exact ⟨toDict_noMsg env c d hf.1 a ha, toDictEach_noMsg env vs hf.2 b hb⟩
        | _ =>
          rcases hf with hf | hf
          · rcases hs with rfl | rfl <;> simp only [serDict] at h <;> cases h <;> exact hf
          · simp [flatMsgs] at hf
    cases s with
    | none => exact plain (.inl rfl)
    | some s =>
      cases s with
      | list => exact plain (.inr rfl)
      | spSep =>
        simp only [serDict] at h
        unfold spaceJoin at h
        split at h
        · cases h; rfl
        · cases h
      | json => simp only [serDict] at h; obtain ⟨a, _, rfl⟩ := res_map_ok h; rfl
      | msg => simp only [serDict] at h; cases h
      | msgJson => simp only [serDict] at h; cases h
      | claims =>
        cases l with
        | nil => simp only [serDict] at h; cases h
        | cons v vs =>
          cases v with
          | msg c d =>
            simp only [serDict] at h
            obtain ⟨a, ha, rfl⟩ := res_map_ok h
            simp only [flatItems, Bool.and_eq_true] at hi
            exact toDict_noMsg env c d hi.1 a ha
          | dict d =>
            simp only [serDict] at h
            cases h
            simp only [flatItems, noMsg, Bool.and_eq_true] at hi
            exact hi.1
          | _ => simp only [serDict] at h; cases h
      | msgList =>
        simp only [serDict] at h
        obtain ⟨a, ha, rfl⟩ := res_map_ok h
        exact msgSerEach_noMsg env l hi a ha
      | linkList =>
        simp only [serDict] at h
        obtain ⟨a, ha, rfl⟩ := res_map_ok h
        exact linkSerEach_noMsg env l hi a ha
      | timeStamp => simp only [serDict] at h; cases h
  | .none, hf, r, h => serPlain_noMsg (v := .none) rfl h
  | .bool b, hf, r, h => serPlain_noMsg (v := .bool b) rfl h
  | .int b, hf, r, h => serPlain_noMsg (v := .int b) rfl h
  | .flt b, hf, r, h => serPlain_noMsg (v := .flt b) rfl h
  | .str b, hf, r, h => serPlain_noMsg (v := .str b) rfl h
  | .dict d, hf, r, h => serPlain_noMsg (v := .dict d) hf h
termination_by structural v => v
theorem toDictEach_noMsg (env : SerEnv) : (l : List Val) → flatMsgs l = true →
    (r : List Val) → toDictEach env l = .ok r → noMsgList r = true
  | [], _, r, h => by rw [toDictEach] at h; cases h; rfl
  | .msg c d :: rest, hf, r, h => by
    simp only [flatMsgs, Bool.and_eq_true] at hf
    rw [toDictEach] at h
    obtain ⟨a, ha, h⟩ := res_bind_ok h
    obtain ⟨b, hb, h⟩ := res_bind_ok h
    cases h
    simp only [noMsgList, noMsg, Bool.and_eq_true]
    exact ⟨toDict_noMsg env c d hf.1 a ha, toDictEach_noMsg env rest hf.2 b hb⟩
  | .none :: _, hf, _, _ => by simp [flatMsgs] at hf
  | .bool _ :: _, hf, _, _ => by simp [flatMsgs] at hf
  | .int _ :: _, hf, _, _ => by simp [flatMsgs] at hf
  | .flt _ :: _, hf, _, _ => by simp [flatMsgs] at hf
  | .str _ :: _, hf, _, _ => by simp [flatMsgs] at hf
  | .list _ :: _, hf, _, _ => by simp [flatMsgs] at hf
  | .dict _ :: _, hf, _, _ => by simp [flatMsgs] at hf
termination_by structural l => l
theorem msgSerEach_noMsg (env : SerEnv) : (l : List Val) → flatItems l = true →
    (r : List Val) → msgSerEach env l = .ok r → noMsgList r = true
  | [], _, r, h => by rw [msgSerEach] at h; cases h; rfl
  | v :: rest, hf, r, h => by
    cases v with
    | msg c d =>
      simp only [flatItems, Bool.and_eq_true] at hf
      rw [msgSerEach] at h
      obtain ⟨a, ha, h⟩ := res_bind_ok h
      obtain ⟨b, hb, h⟩ := res_bind_ok h
      cases h
      simp only [noMsgList, noMsg, Bool.and_eq_true]
      exact ⟨toDict_noMsg env c d hf.1 a ha, msgSerEach_noMsg env rest hf.2 b hb⟩
    | _ =>
      simp only [flatItems, Bool.and_eq_true] at hf
      rw [msgSerEach] at h
      · obtain ⟨a, ha, h⟩ := res_bind_ok h
        obtain ⟨b, hb, h⟩ := res_bind_ok h
        cases h
        simp only [noMsgList, Bool.and_eq_true]
        exact ⟨serPlain_noMsg hf.1 ha, msgSerEach_noMsg env rest hf.2 b hb⟩
      · intro _ _ h; cases h
termination_by structural l => l
theorem linkSerEach_noMsg (env : SerEnv) : (l : List Val) → flatItems l = true →
    (r : List Val) → linkSerEach env l = .ok r → noMsgList r = true
  | [], _, r, h => by rw [linkSerEach] at h; cases h; rfl
  | v :: rest, hf, r, h => by
    cases v with
    | msg c d =>
      simp only [flatItems, Bool.and_eq_true] at hf
      rw [linkSerEach] at h
      split at h
      · obtain ⟨a, ha, h⟩ := res_bind_ok h
        obtain ⟨b, hb, h⟩ := res_bind_ok h
        cases h
        simp only [noMsgList, noMsg, Bool.and_eq_true]
        exact ⟨toDict_noMsg env c d hf.1 a ha, linkSerEach_noMsg env rest hf.2 b hb⟩
      · cases h
    | _ =>
      simp only [flatItems, Bool.and_eq_true] at hf
      rw [linkSerEach] at h
      · obtain ⟨a, ha, h⟩ := res_bind_ok h
        obtain ⟨b, hb, h⟩ := res_bind_ok h
        cases h
        simp only [noMsgList, Bool.and_eq_true]
        exact ⟨serPlain_noMsg hf.1 ha, linkSerEach_noMsg env rest hf.2 b hb⟩
      · intro _ _ h; cases h
termination_by structural l => l
end

/-- C68: when the messages are where the library puts them, the result of `to_dict` has no message at any depth, for every
assignment of serialisers to parameters. -/
theorem C68_plain (env : SerEnv) (c : Cls) (d : Dict) (hf : flatDict d = true) (r : Dict)
    (h : toDict env c d = .ok r) : noMsgDict r = true := toDict_noMsg env c d hf r h

mutual
theorem dumpsC_noMsg : (v : Val) → noMsg v = true → (e : Exc) → dumpsC v = .error e → e = .unmodelled
  | .none, _, e, h => by simp [dumpsC] at h
  | .bool b, _, e, h => by cases b <;> simp [dumpsC] at h
  | .int i, _, e, h => by simp [dumpsC] at h
  | .flt q, _, e, h => by
    rw [dumpsC, floatText] at h
    split at h
    · cases h
    · cases h; rfl
  | .str s, _, e, h => by simp [dumpsC] at h
  | .list [], _, e, h => by simp [dumpsC] at h
  | .list (v :: vs), hv, e, h => by
    simp only [noMsg, noMsgList, Bool.and_eq_true] at hv
    rw [dumpsC] at h
    cases ha : dumpsC v with
    | error e' => rw [ha] at h; cases h; exact dumpsC_noMsg v hv.1 _ ha
    | ok a =>
      rw [ha] at h
      cases hb : dumpsList vs with
      | error e' => rw [hb] at h; cases h; exact dumpsList_noMsg vs hv.2 _ hb
      | ok b => rw [hb] at h; cases h
  | .dict [], _, e, h => by simp [dumpsC] at h
  | .dict ((k, v) :: d), hv, e, h => by
    simp only [noMsg, noMsgDict, Bool.and_eq_true] at hv
    rw [dumpsC] at h
    cases ha : dumpsC v with
    | error e' => rw [ha] at h; cases h; exact dumpsC_noMsg v hv.1 _ ha
    | ok a =>
      rw [ha] at h
      cases hb : dumpsDict d with
      | error e' => rw [hb] at h; cases h; exact dumpsDict_noMsg d hv.2 _ hb
      | ok b => rw [hb] at h; cases h
  | .msg _ _, hv, _, _ => by simp [noMsg] at hv
theorem dumpsList_noMsg : (l : List Val) → noMsgList l = true → (e : Exc) → dumpsList l = .error e → e = .unmodelled
  | [], _, e, h => by simp [dumpsList] at h
  | v :: vs, hv, e, h => by
    simp only [noMsgList, Bool.and_eq_true] at hv
    rw [dumpsList] at h
    cases ha : dumpsC v with
    | error e' => rw [ha] at h; cases h; exact dumpsC_noMsg v hv.1 _ ha
    | ok a =>
      rw [ha] at h
      cases hb : dumpsList vs with
      | error e' => rw [hb] at h; cases h; exact dumpsList_noMsg vs hv.2 _ hb
      | ok b => rw [hb] at h; cases h
theorem dumpsDict_noMsg : (d : List (String × Val)) → noMsgDict d = true → (e : Exc) → dumpsDict d = .error e →
    e = .unmodelled
  | [], _, e, h => by simp [dumpsDict] at h
  | (k, v) :: d, hv, e, h => by
    simp only [noMsgDict, Bool.and_eq_true] at hv
    rw [dumpsDict] at h
    cases ha : dumpsC v with
    | error e' => rw [ha] at h; cases h; exact dumpsC_noMsg v hv.1 _ ha
    | ok a =>
      rw [ha] at h
      cases hb : dumpsDict d with
      | error e' => rw [hb] at h; cases h; exact dumpsDict_noMsg d hv.2 _ hb
      | ok b => rw [hb] at h; cases h
end

/-- C68: then `to_json` does not raise when `to_dict` does not.  (`unmodelled` stands for a rational number that is no float.) -/
theorem C68_toJson (env : SerEnv) (c : Cls) (d : Dict) (hf : flatDict d = true) (r : Dict)
    (h : toDict env c d = .ok r) : ∀ e, toJson env c d = .error e → e = .unmodelled := by
  intro e he
  have hr := C68_plain env c d hf r h
  rw [toJson, h] at he
  cases ha : dumpsC (.dict r) with
  | error e' =>
    have h2 : (Except.error e' : Res String) = .error e := by rw [← he]; show _ = dumps (.dict r); rw [dumps, ha]; rfl
    cases h2
    exact dumpsC_noMsg (.dict r) hr e ha
  | ok a =>
    have h2 : (Except.ok (String.ofList a) : Res String) = .error e := by
      rw [← he]; show _ = dumps (.dict r); rw [dumps, ha]; rfl
    cases h2

/-! ## when the serialisers accept the values -/

mutual
/-- Values for which the serialiser of the parameter is the right one: data for parameters without a serialiser, messages
for the parameters for messages, lists of messages for lists, dictionaries for messages. -/
def fits (env : SerEnv) (s : Option Ser) : Val → Bool
  | .msg c d => (s == none || s == some .msg || s == some .msgJson || s == some .claims) && fitsDict env c d
  | .list l =>
    ((s == none || s == some .list) && noMsgList l) ||
    ((s == none || s == some .list || s == some .msgList) && fitsMsgs env l)
  | .dict d => (s == none || s == some .msg || s == some .msgJson || s == some .claims) && noMsgDict d
  | _ => s == none
def fitsMsgs (env : SerEnv) : List Val → Bool
  | [] => true
  | .msg c d :: vs => fitsDict env c d && fitsMsgs env vs
  | _ :: _ => false
def fitsDict (env : SerEnv) (c : Cls) : List (String × Val) → Bool
  | [] => true
  | p :: d => fits env (env c p.1) p.2 && fitsDict env c d
end

mutual
theorem fits_flat (env : SerEnv) (s : Option Ser) : (v : Val) → fits env s v = true → flat v = true
  | .msg c d, h => by
    simp only [fits, Bool.and_eq_true] at h
    simp only [flat]
    exact fitsDict_flat env c d h.2
  | .list l, h => by
    simp only [fits, Bool.or_eq_true, Bool.and_eq_true] at h
    simp only [flat, Bool.or_eq_true]
    rcases h with h | h
    · exact .inl h.2
    · exact .inr (fitsMsgs_flat env l h.2)
  | .dict d, h => by
    simp only [fits, Bool.and_eq_true] at h
    exact h.2
  | .none, _ => rfl
  | .bool _, _ => rfl
  | .int _, _ => rfl
  | .flt _, _ => rfl
  | .str _, _ => rfl
theorem fitsMsgs_flat (env : SerEnv) : (l : List Val) → fitsMsgs env l = true → flatMsgs l = true
  | [], _ => rfl
  | v :: vs, h => by
    cases v with
    | msg c d =>
      simp only [fitsMsgs, Bool.and_eq_true] at h
      simp only [flatMsgs, Bool.and_eq_true]
      exact ⟨fitsDict_flat env c d h.1, fitsMsgs_flat env vs h.2⟩
    | _ => simp [fitsMsgs] at h
theorem fitsDict_flat (env : SerEnv) (c : Cls) : (d : List (String × Val)) → fitsDict env c d = true → flatDict d = true
  | [], _ => rfl
  | p :: d, h => by
    simp only [fitsDict, Bool.and_eq_true] at h
    simp only [flatDict, Bool.and_eq_true]
    exact ⟨fits_flat env _ p.2 h.1, fitsDict_flat env c d h.2⟩
end

mutual
theorem fits_ok (env : SerEnv) (s : Option Ser) : (v : Val) → fits env s v = true → ∃ r, serDict env s v = .ok r
  | .msg c d, h => by
    simp only [fits, Bool.and_eq_true, Bool.or_eq_true, beq_iff_eq] at h
    obtain ⟨r, hr⟩ := fitsDict_ok env c d h.2
    rcases h.1 with ((rfl | rfl) | rfl) | rfl <;> exact ⟨.dict r, by simp [serDict, hr, Except.map]⟩
  | .list l, h => by
    simp only [fits, Bool.or_eq_true, Bool.and_eq_true, beq_iff_eq] at h
    rcases h with ⟨hs, hl⟩ | ⟨hs, hl⟩
    · have : ∀ s, (s = none ∨ s = some Ser.list) → ∃ r, serDict env s (.list l) = .ok r := by
        intro s hs
        cases l with
        | nil => rcases hs with rfl | rfl <;> exact ⟨.list [], by simp [serDict]⟩
        | cons v vs =>
          cases v with
          | msg c d => simp [noMsgList, noMsg] at hl
          | _ => rcases hs with rfl | rfl <;> exact ⟨_, by simp [serDict]; rfl⟩
      exact this s hs
    · cases l with
      | nil => rcases hs with (rfl | rfl) | rfl <;> exact ⟨.list [], by simp [serDict, msgSerEach, Except.map]⟩
      | cons v vs =>
        cases v with
        | msg c d =>
          simp only [fitsMsgs, Bool.and_eq_true] at hl
          obtain ⟨a, ha⟩ := fitsDict_ok env c d hl.1
          obtain ⟨b, hb⟩ := fitsMsgs_ok env vs hl.2
          obtain ⟨b', hb'⟩ := fitsMsgs_ok' env vs hl.2
          rcases hs with (rfl | rfl) | rfl
          · exact ⟨.list (.dict a :: b), by simp [serDict, ha, hb, bind, Except.bind]⟩
          · exact ⟨.list (.dict a :: b), by simp [serDict, ha, hb, bind, Except.bind]⟩
          · exact ⟨.list (.dict a :: b'), by simp [serDict, msgSerEach, ha, hb', bind, Except.bind, Except.map]⟩
        | _ => simp [fitsMsgs] at hl
  | .dict d, h => by
    simp only [fits, Bool.and_eq_true, Bool.or_eq_true, beq_iff_eq] at h
    rcases h.1 with ((rfl | rfl) | rfl) | rfl <;> exact ⟨.dict d, by simp [serDict, serPlain]⟩
  | .none, h => by simp only [fits, beq_iff_eq] at h; subst h; exact ⟨_, by simp [serDict, serPlain]; rfl⟩
  | .bool _, h => by simp only [fits, beq_iff_eq] at h; subst h; exact ⟨_, by simp [serDict, serPlain]; rfl⟩
  | .int _, h => by simp only [fits, beq_iff_eq] at h; subst h; exact ⟨_, by simp [serDict, serPlain]; rfl⟩
  | .flt _, h => by simp only [fits, beq_iff_eq] at h; subst h; exact ⟨_, by simp [serDict, serPlain]; rfl⟩
  | .str _, h => by simp only [fits, beq_iff_eq] at h; subst h; exact ⟨_, by simp [serDict, serPlain]; rfl⟩
theorem fitsMsgs_ok (env : SerEnv) : (l : List Val) → fitsMsgs env l = true → ∃ r, toDictEach env l = .ok r
  | [], _ => ⟨[], by rw [toDictEach]⟩
  | v :: vs, h => by
    cases v with
    | msg c d =>
      simp only [fitsMsgs, Bool.and_eq_true] at h
      obtain ⟨a, ha⟩ := fitsDict_ok env c d h.1
      obtain ⟨b, hb⟩ := fitsMsgs_ok env vs h.2
      exact ⟨.dict a :: b, by simp [toDictEach, ha, hb, bind, Except.bind]⟩
    | _ => simp [fitsMsgs] at h
theorem fitsMsgs_ok' (env : SerEnv) : (l : List Val) → fitsMsgs env l = true → ∃ r, msgSerEach env l = .ok r
  | [], _ => ⟨[], by rw [msgSerEach]⟩
  | v :: vs, h => by
    cases v with
    | msg c d =>
      simp only [fitsMsgs, Bool.and_eq_true] at h
      obtain ⟨a, ha⟩ := fitsDict_ok env c d h.1
      obtain ⟨b, hb⟩ := fitsMsgs_ok' env vs h.2
      exact ⟨.dict a :: b, by simp [msgSerEach, ha, hb, bind, Except.bind]⟩
    | _ => simp [fitsMsgs] at h
theorem fitsDict_ok (env : SerEnv) (c : Cls) : (d : List (String × Val)) → fitsDict env c d = true →
    ∃ r, toDict env c d = .ok r
  | [], _ => ⟨[], by rw [toDict]⟩
  | (k, v) :: d, h => by
    simp only [fitsDict, Bool.and_eq_true] at h
    obtain ⟨a, ha⟩ := fits_ok env _ v h.1
    obtain ⟨b, hb⟩ := fitsDict_ok env c d h.2
    exact ⟨(k, a) :: b, by simp [toDict, ha, hb, bind, Except.bind]⟩
end

/-- C68, for values that fit the serialisers of their parameters: `to_dict` succeeds, its result has no message at any
depth, and `to_json` succeeds (up to rational numbers that are no floats, which do not occur). -/
theorem C68_partial (env : SerEnv) (c : Cls) (d : Dict) (hf : fitsDict env c d = true) :
    ∃ r, toDict env c d = .ok r ∧ noMsgDict r = true ∧ ∀ e, toJson env c d = .error e → e = .unmodelled := by
  obtain ⟨r, hr⟩ := fitsDict_ok env c d hf
  exact ⟨r, hr, C68_plain env c d (fitsDict_flat env c d hf) r hr, C68_toJson env c d (fitsDict_flat env c d hf) r hr⟩

/-- three levels of messages, in a list and as a value, with plain data beside them -/
example : fitsDict ⟨fun _ => [("l", optionalListOfMessages), ("m", optionalMessage)]⟩ ⟨"message", "Message"⟩
    [("l", .list [.msg ⟨"message", "Message"⟩ [("m", .msg ⟨"message", "Message"⟩ [("a", .int 1)])]]),
     ("x", .list [.dict [("y", .none)]])] = true := by decide +kernel

/-- C68 fails: a message inside a plain dictionary stays there, and `to_json` raises `TypeError` — for every message class
and every parameter without a serialiser. -/
theorem C68_counterexample (env : SerEnv) (c c' : Cls) (k k' : String) (d : Dict) (h : env c k = none) :
    toDict env c [(k, .dict [(k', .msg c' d)])] = .ok [(k, .dict [(k', .msg c' d)])] ∧
    toJson env c [(k, .dict [(k', .msg c' d)])] = .error .typeError := by
  have h1 : toDict env c [(k, .dict [(k', .msg c' d)])] = .ok [(k, .dict [(k', .msg c' d)])] := by
    simp [toDict, h, serDict, serPlain, bind, Except.bind]
  refine ⟨h1, ?_⟩
  rw [toJson, h1]
  simp [dumps, dumpsC, bind, Except.bind, Except.map]

/-- Plain data that a declared message parameter can hold, such as `None` or a number, makes `to_dict` raise. -/
theorem C68_counterexample_declared (env : SerEnv) (c : Cls) (k : String) (h : env c k = some .msg) :
    toDict env c [(k, .none)] = .error .messageException ∧ toDict env c [(k, .int 1)] = .error .messageException := by
  simp [toDict, h, serDict, serPlain, bind, Except.bind]

/-- A list that begins with something else keeps its messages; one that begins with a message needs messages only. -/
theorem C68_counterexample_list (env : SerEnv) (c c' : Cls) (k : String) (h : env c k = none) :
    toJson env c [(k, .list [.int 1, .msg c' []])] = .error .typeError ∧
    toDict env c [(k, .list [.msg c' [], .int 1])] = .error .attributeError := by
  constructor
  · simp [toJson, toDict, h, serDict, bind, Except.bind, dumps, dumpsC, dumpsList, Except.map]
  · simp [toDict, h, serDict, toDictEach, bind, Except.bind]

end Verif
