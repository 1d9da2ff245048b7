import Verif.Props.ReasonsEmbedded
import Verif.Props.JsonIndent

/-!
# Exactly which messages can be written as a dict or as JSON, and what is written: C176
-/

namespace Verif

/-- a value that is neither a list nor a message -/
def SingleValue (v : Val) : Prop := (∀ l, v ≠ .list l) ∧ ∀ c d, v ≠ .msg c d

/-- the list begins with a message -/
def BeginsWithMessage (l : List Val) : Prop := ∃ c d r, l = .msg c d :: r

mutual
/-- A message of class `c` with these parameters is written as a dict with the same names in the same order, each
with its value written by the writer declared for the name. -/
inductive WrittenMessage (env : SerEnv) : Cls → List (String × Val) → Dict → Prop
  | nil (c : Cls) : WrittenMessage env c [] []
  | cons {c : Cls} {k : String} {v w : Val} {rest : List (String × Val)} {x : Dict} :
      WrittenValue env (env c k) v w → WrittenMessage env c rest x → WrittenMessage env c ((k, v) :: rest) ((k, w) :: x)
/-- What the writer (`none`: there is none) makes of a value. -/
inductive WrittenValue (env : SerEnv) : Option Ser → Val → Val → Prop
  /-- without a writer everything but messages and lists is written as it is -/
  | plain {v : Val} : SingleValue v → WrittenValue env none v v
  /-- also lists, unless they begin with a message -/
  | list {s : Option Ser} {l : List Val} : s = none ∨ s = some .list → ¬ BeginsWithMessage l → WrittenValue env s (.list l) (.list l)
  /-- and in a list that begins with a message there must be nothing else -/
  | messages {s : Option Ser} {l w : List Val} : s = none ∨ s = some .list → l ≠ [] → WrittenMessages env l w →
      WrittenValue env s (.list l) (.list w)
  /-- a message is written as a dict if there is no writer or one for messages -/
  | message {s : Option Ser} {c : Cls} {d : Dict} {x : Dict} :
      s = none ∨ s = some .msg ∨ s = some .msgJson ∨ s = some .claims ∨ (s = some .linkList ∧ c = linkCls) →
      WrittenMessage env c d x → WrittenValue env s (.msg c d) (.dict x)
  /-- the writers for messages leave dicts as they are -/
  | dict {s : Option Ser} (d : Dict) : s = some .msg ∨ s = some .msgJson ∨ s = some .claims ∨ s = some .linkList →
      WrittenValue env s (.dict d) (.dict d)
  /-- two of them also texts -/
  | text {s : Option Ser} (t : String) : s = some .msg ∨ s = some .linkList ∨ s = some .spSep → WrittenValue env s (.str t) (.str t)
  /-- words are put together with spaces -/
  | words {l : List Val} (ss : List String) : l = ss.map .str → WrittenValue env (some .spSep) (.list l) (.str (pyJoin ' ' ss))
  /-- in the place of words, a dict or a message is taken for the list of its keys -/
  | wordsDict (d : Dict) : WrittenValue env (some .spSep) (.dict d) (.str (pyJoin ' ' (dkeys d)))
  | wordsMessage (c : Cls) (d : Dict) : WrittenValue env (some .spSep) (.msg c d) (.str (pyJoin ' ' (dkeys d)))
  /-- a value written as JSON text -/
  | json {v : Val} {t : String} : (∀ c d, v ≠ .msg c d) → dumps v = .ok t → WrittenValue env (some .json) v (.str t)
  /-- of a list of claims requests the first one is written -/
  | claimsMessage {c : Cls} {d : Dict} {r : List Val} {x : Dict} : WrittenMessage env c d x →
      WrittenValue env (some .claims) (.list (.msg c d :: r)) (.dict x)
  | claimsDict (d : Dict) (r : List Val) : WrittenValue env (some .claims) (.list (.dict d :: r)) (.dict d)
  /-- each of a list of messages -/
  | each {l w : List Val} : WrittenItems env (fun _ => True) l w → WrittenValue env (some .msgList) (.list l) (.list w)
  | links {l w : List Val} : WrittenItems env (· = linkCls) l w → WrittenValue env (some .linkList) (.list l) (.list w)
  /-- in the place of a list of messages, a text is taken for the list of its characters, and a dict or a message for
  the list of its keys -/
  | eachText (t : String) : WrittenValue env (some .msgList) (.str t) (.list (t.toList.map (fun c => .str (String.ofList [c]))))
  | eachDict (d : Dict) : WrittenValue env (some .msgList) (.dict d) (.list (d.map (fun p => .str p.1)))
  | eachMessage (c : Cls) (d : Dict) : WrittenValue env (some .msgList) (.msg c d) (.list (d.map (fun p => .str p.1)))
  /-- a moment -/
  | moment {v w : Val} : SingleValue v → timeStampSer v = .ok w → WrittenValue env (some .timeStamp) v w
/-- a list of messages -/
inductive WrittenMessages (env : SerEnv) : List Val → List Val → Prop
  | nil : WrittenMessages env [] []
  | cons {c : Cls} {d : Dict} {x : Dict} {r w : List Val} : WrittenMessage env c d x → WrittenMessages env r w →
      WrittenMessages env (.msg c d :: r) (.dict x :: w)
/-- a list of messages of some classes, dicts and texts -/
inductive WrittenItems (env : SerEnv) : (Cls → Prop) → List Val → List Val → Prop
  | nil (p : Cls → Prop) : WrittenItems env p [] []
  | message {p : Cls → Prop} {c : Cls} {d : Dict} {x : Dict} {r w : List Val} : p c → WrittenMessage env c d x →
      WrittenItems env p r w → WrittenItems env p (.msg c d :: r) (.dict x :: w)
  | dict {p : Cls → Prop} (d : Dict) {r w : List Val} : WrittenItems env p r w → WrittenItems env p (.dict d :: r) (.dict d :: w)
  | text {p : Cls → Prop} (t : String) {r w : List Val} : WrittenItems env p r w → WrittenItems env p (.str t :: r) (.str t :: w)
end

theorem map_ok_iff {α β : Type} {x : Res α} {f : α → β} {w : β} : x.map f = .ok w ↔ ∃ y, x = .ok y ∧ f y = w := by
  cases x <;> simp [Except.map]

theorem joinStrs_iff : ∀ {l : List Val} {ss : List String}, joinStrs l = some ss ↔ l = ss.map .str
  | [], ss => by cases ss <;> simp [joinStrs]
  | v :: l, ss => by
    cases v <;> cases ss <;> simp [joinStrs]
    rename_i s t ts
    constructor
    · rintro ⟨hy, rfl⟩; exact ⟨rfl, joinStrs_iff.1 hy⟩
    · rintro ⟨rfl, h⟩; exact ⟨joinStrs_iff.2 h, rfl⟩

theorem spaceJoin_iff {l : List Val} {w : Val} : spaceJoin l = .ok w ↔ ∃ ss : List String, l = ss.map .str ∧ w = .str (pyJoin ' ' ss) := by
  unfold spaceJoin
  cases h : joinStrs l with
  | none =>
    simp only [reduceCtorEq, false_iff]
    rintro ⟨ss, h2, -⟩
    rw [joinStrs_iff.2 h2] at h; cases h
  | some ss =>
    have h1 := joinStrs_iff.1 h
    constructor
    · intro h; cases h; exact ⟨ss, h1, rfl⟩
    · rintro ⟨ss', h2, rfl⟩
      rw [joinStrs_iff.2 h2] at h; cases h; rfl

theorem serPlain_written (env : SerEnv) (s : Option Ser) {v : Val} (hv : SingleValue v) (w : Val) :
    serPlain s v = .ok w ↔ WrittenValue env s v w := by
  constructor
  · intro h
    cases s with
    | none => cases h; exact .plain hv
    | some s =>
      cases s <;> cases v <;> simp only [serPlain, Except.ok.injEq, reduceCtorEq] at h <;>
        first
          | (subst h; first | exact .text _ (by simp) | exact .dict _ (by simp) | exact .wordsDict _ | exact .eachText _ | exact .eachDict _)
          | (obtain ⟨t, ht, rfl⟩ := map_ok_iff.1 h; exact .json hv.2 ht)
          | exact .moment hv h
          | skip
  · intro h
    cases h with
    | plain => rfl
    | list => exact absurd rfl (hv.1 _)
    | messages => exact absurd rfl (hv.1 _)
    | message => exact absurd rfl (hv.2 _ _)
    | dict d h => rcases h with rfl | rfl | rfl | rfl <;> rfl
    | text t h => rcases h with rfl | rfl | rfl <;> rfl
    | words => exact absurd rfl (hv.1 _)
    | wordsDict => rfl
    | wordsMessage => exact absurd rfl (hv.2 _ _)
    | json _ h => simp [serPlain, h, Except.map]
    | claimsMessage => exact absurd rfl (hv.1 _)
    | claimsDict => exact absurd rfl (hv.1 _)
    | each => exact absurd rfl (hv.1 _)
    | links => exact absurd rfl (hv.1 _)
    | eachText => rfl
    | eachDict => rfl
    | eachMessage => exact absurd rfl (hv.2 _ _)
    | moment _ h => exact h

theorem item_written {v w : Val} (hv : ∀ c d, v ≠ .msg c d) : serPlain (some .msg) v = .ok w ↔
    ((∃ d, v = .dict d ∧ w = .dict d) ∨ ∃ t, v = .str t ∧ w = .str t) := by
  cases v <;> simp [serPlain, eq_comm]

mutual
theorem toDict_written (env : SerEnv) (c : Cls) : (d : List (String × Val)) →
    ∀ x : Dict, (toDict env c d = .ok x ↔ WrittenMessage env c d x)
  | [] => by
    intro x
    unfold toDict
    constructor
    · intro h; cases h; exact .nil _
    · intro h; cases h; rfl
  | (k, v) :: rest => by
    intro x
    have i1 := fun w => serDict_written env (env c k) v w
    have i2 := fun y => toDict_written env c rest y
    unfold toDict
    constructor
    · intro h
      cases e1 : serDict env (env c k) v with
      | error e => rw [e1] at h; cases h
      | ok w =>
        cases e2 : toDict env c rest with
        | error e => rw [e1, e2] at h; cases h
        | ok y =>
          rw [e1, e2] at h; cases h
          exact .cons ((i1 w).1 e1) ((i2 y).1 e2)
    · intro h
      cases h with
      | cons h1 h2 => rw [(i1 _).2 h1, (i2 _).2 h2]; rfl
theorem serDict_written (env : SerEnv) : (s : Option Ser) → (v : Val) →
    ∀ w : Val, (serDict env s v = .ok w ↔ WrittenValue env s v w)
  | s, .msg c d => by
    intro w
    have ih := fun x => toDict_written env c d x
    have key : (toDict env c d).map .dict = .ok w ↔ ∃ x, WrittenMessage env c d x ∧ w = .dict x := by
      rw [map_ok_iff]
      constructor
      · rintro ⟨y, h1, rfl⟩; exact ⟨y, (ih y).1 h1, rfl⟩
      · rintro ⟨y, h1, rfl⟩; exact ⟨y, (ih y).2 h1, rfl⟩
    constructor
    · intro h
      cases s with
      | none =>
        unfold serDict at h
        obtain ⟨x, hx, rfl⟩ := key.1 h; exact .message (by simp) hx
      | some s =>
        cases s <;> unfold serDict at h <;> simp only [reduceCtorEq] at h
        · split at h <;> cases h
        · cases h; exact .wordsMessage _ _
        · obtain ⟨x, hx, rfl⟩ := key.1 h; exact .message (by simp) hx
        · cases h; exact .eachMessage _ _
        · obtain ⟨x, hx, rfl⟩ := key.1 h; exact .message (by simp) hx
        · obtain ⟨x, hx, rfl⟩ := key.1 h; exact .message (by simp) hx
        · split at h
          · next hc => obtain ⟨x, hx, rfl⟩ := key.1 h; exact .message (by simp [hc]) hx
          · cases h
    · intro h
      cases h with
      | plain h => exact absurd rfl (h.2 _ _)
      | message hs hx =>
        have := key.2 ⟨_, hx, rfl⟩
        rcases hs with rfl | rfl | rfl | rfl | ⟨rfl, rfl⟩ <;> unfold serDict <;> simpa using this
      | wordsMessage => unfold serDict; rfl
      | json h => exact absurd rfl (h _ _)
      | eachMessage => unfold serDict; rfl
      | moment h => exact absurd rfl (h.2 _ _)
  | s, .list [] => by
    intro w
    constructor
    · intro h
      cases s with
      | none => unfold serDict at h; cases h; exact .list (by simp) (by rintro ⟨_, _, _, h⟩; cases h)
      | some s =>
        cases s <;> unfold serDict at h <;> simp only [reduceCtorEq] at h
        · cases h; exact .list (by simp) (by rintro ⟨_, _, _, h⟩; cases h)
        · obtain ⟨ss, h1, rfl⟩ := spaceJoin_iff.1 h; exact .words ss h1
        · obtain ⟨t, ht, rfl⟩ := map_ok_iff.1 h; exact .json (by simp) ht
        · simp [msgSerEach, Except.map] at h; subst h; exact .each (.nil _)
        · simp [linkSerEach, Except.map] at h; subst h; exact .links (.nil _)
    · intro h
      cases h with
      | plain h => exact absurd rfl (h.1 _)
      | list hs => rcases hs with rfl | rfl <;> (unfold serDict; rfl)
      | messages hs hn => exact absurd rfl hn
      | words ss h => unfold serDict; exact spaceJoin_iff.2 ⟨ss, h, rfl⟩
      | json _ h => unfold serDict; simp [h, Except.map]
      | each h => cases h; unfold serDict; simp [msgSerEach, Except.map]
      | links h => cases h; unfold serDict; simp [linkSerEach, Except.map]
      | moment h => exact absurd rfl (h.1 _)
  | s, .list (v :: rest) => by
    intro w
    have i1 := fun y => toDictEach_written env rest y
    have i2 := fun y => msgSerEach_written env (v :: rest) y
    have i3 := fun y => linkSerEach_written env (v :: rest) y
    have i4 : ∀ c d, v = .msg c d → ∀ x, toDict env c d = .ok x ↔ WrittenMessage env c d x := by
      intro c d hv x; subst hv; exact toDict_written env c d x
    have i5 : ∀ c d, v = .msg c d → ((do let x ← toDict env c d
                                         let xs ← toDictEach env rest
                                         Except.ok (Val.list (.dict x :: xs))) = .ok w ↔
        ∃ y, WrittenMessages env (v :: rest) y ∧ w = .list y) := by
      intro c d hv
      constructor
      · intro h
        cases e1 : toDict env c d with
        | error e => rw [e1] at h; cases h
        | ok x =>
          cases e2 : toDictEach env rest with
          | error e => rw [e1, e2] at h; cases h
          | ok y =>
            rw [e1, e2] at h; cases h
            subst hv
            exact ⟨_, .cons ((i4 _ _ rfl x).1 e1) ((i1 y).1 e2), rfl⟩
      · rintro ⟨y, hy, rfl⟩
        subst hv
        cases hy with
        | cons h1 h2 => rw [(i4 _ _ rfl _).2 h1, (i1 _).2 h2]; rfl
    have nb : (∀ c d, v ≠ .msg c d) → ¬ BeginsWithMessage (v :: rest) := by
      rintro h ⟨c, d, r, h2⟩; cases h2; exact h _ _ rfl
    constructor
    · intro h
      cases s with
      | none =>
        unfold serDict at h
        cases v <;> simp only [Except.ok.injEq] at h <;>
          first
            | (subst h; exact .list (by simp) (nb (by simp)))
            | (obtain ⟨y, hy, rfl⟩ := (i5 _ _ rfl).1 h; exact .messages (by simp) (by simp) hy)
      | some s =>
        cases s <;> unfold serDict at h <;> simp only [reduceCtorEq] at h
        · cases v <;> simp only [Except.ok.injEq] at h <;>
            first
              | (subst h; exact .list (by simp) (nb (by simp)))
              | (obtain ⟨y, hy, rfl⟩ := (i5 _ _ rfl).1 h; exact .messages (by simp) (by simp) hy)
        · obtain ⟨ss, h1, rfl⟩ := spaceJoin_iff.1 h; exact .words ss h1
        · obtain ⟨t, ht, rfl⟩ := map_ok_iff.1 h; exact .json (by simp) ht
        · obtain ⟨y, hy, rfl⟩ := map_ok_iff.1 h; exact .each ((i2 y).1 hy)
        · cases v <;> simp only [reduceCtorEq, Except.ok.injEq] at h
          · subst h; exact .claimsDict _ _
          · obtain ⟨y, hy, rfl⟩ := map_ok_iff.1 h; exact .claimsMessage ((i4 _ _ rfl y).1 hy)
        · obtain ⟨y, hy, rfl⟩ := map_ok_iff.1 h; exact .links ((i3 y).1 hy)
    · intro h
      cases h with
      | plain h => exact absurd rfl (h.1 _)
      | list hs hb =>
        rcases hs with rfl | rfl <;> unfold serDict <;> cases v <;> first | rfl | exact absurd ⟨_, _, _, rfl⟩ hb
      | messages hs hn hy =>
        cases v with
        | msg c d =>
          have := (i5 c d rfl).2 ⟨_, hy, rfl⟩
          rcases hs with rfl | rfl <;> unfold serDict <;> exact this
        | _ => cases hy
      | words ss h => unfold serDict; exact spaceJoin_iff.2 ⟨ss, h, rfl⟩
      | json _ h => unfold serDict; simp [h, Except.map]
      | claimsMessage h => unfold serDict; simp [(i4 _ _ rfl _).2 h, Except.map]
      | claimsDict => unfold serDict; rfl
      | each h => unfold serDict; simp [(i2 _).2 h, Except.map]
      | links h => unfold serDict; simp [(i3 _).2 h, Except.map]
      | moment h => exact absurd rfl (h.1 _)
  | s, .none => by intro w; unfold serDict; exact serPlain_written env s ⟨by simp, by simp⟩ w
  | s, .bool _ => by intro w; unfold serDict; exact serPlain_written env s ⟨by simp, by simp⟩ w
  | s, .int _ => by intro w; unfold serDict; exact serPlain_written env s ⟨by simp, by simp⟩ w
  | s, .flt _ => by intro w; unfold serDict; exact serPlain_written env s ⟨by simp, by simp⟩ w
  | s, .str _ => by intro w; unfold serDict; exact serPlain_written env s ⟨by simp, by simp⟩ w
  | s, .dict _ => by intro w; unfold serDict; exact serPlain_written env s ⟨by simp, by simp⟩ w
theorem toDictEach_written (env : SerEnv) : (l : List Val) →
    ∀ w : List Val, (toDictEach env l = .ok w ↔ WrittenMessages env l w)
  | [] => by
    intro w
    unfold toDictEach
    constructor
    · intro h; cases h; exact .nil
    · intro h; cases h; rfl
  | .msg c d :: rest => by
    intro w
    have i1 := fun x => toDict_written env c d x
    have i2 := fun y => toDictEach_written env rest y
    unfold toDictEach
    constructor
    · intro h
      cases e1 : toDict env c d with
      | error e => rw [e1] at h; cases h
      | ok x =>
        cases e2 : toDictEach env rest with
        | error e => rw [e1, e2] at h; cases h
        | ok y => rw [e1, e2] at h; cases h; exact .cons ((i1 x).1 e1) ((i2 y).1 e2)
    · intro h
      cases h with
      | cons h1 h2 => rw [(i1 _).2 h1, (i2 _).2 h2]; rfl
  | .none :: _ | .bool _ :: _ | .int _ :: _ | .flt _ :: _ | .str _ :: _ | .list _ :: _ | .dict _ :: _ => by
    intro w
    unfold toDictEach
    constructor
    · intro h; cases h
    · intro h; cases h
theorem msgSerEach_written (env : SerEnv) : (l : List Val) →
    ∀ w : List Val, (msgSerEach env l = .ok w ↔ WrittenItems env (fun _ => True) l w)
  | [] => by
    intro w
    unfold msgSerEach
    constructor
    · intro h; cases h; exact .nil _
    · intro h; cases h; rfl
  | .msg c d :: rest => by
    intro w
    have i1 := fun x => toDict_written env c d x
    have i2 := fun y => msgSerEach_written env rest y
    unfold msgSerEach
    constructor
    · intro h
      cases e1 : toDict env c d with
      | error e => rw [e1] at h; cases h
      | ok x =>
        cases e2 : msgSerEach env rest with
        | error e => rw [e1, e2] at h; cases h
        | ok y => rw [e1, e2] at h; cases h; exact .message trivial ((i1 x).1 e1) ((i2 y).1 e2)
    · intro h
      cases h with
      | message _ h1 h2 => rw [(i1 _).2 h1, (i2 _).2 h2]; rfl
  | .str _ :: rest => by
    intro w
    have i2 := fun y => msgSerEach_written env rest y
    unfold msgSerEach
    constructor
    · intro h
      cases e2 : msgSerEach env rest with
      | error e => rw [e2] at h; cases h
      | ok y =>
        rw [e2] at h; cases h
        exact .text _ ((i2 y).1 e2)
    · intro h
      cases h with
      | text _ h2 => rw [(i2 _).2 h2]; rfl
  | .dict _ :: rest => by
    intro w
    have i2 := fun y => msgSerEach_written env rest y
    unfold msgSerEach
    constructor
    · intro h
      cases e2 : msgSerEach env rest with
      | error e => rw [e2] at h; cases h
      | ok y =>
        rw [e2] at h; cases h
        exact .dict _ ((i2 y).1 e2)
    · intro h
      cases h with
      | dict _ h2 => rw [(i2 _).2 h2]; rfl
  | .none :: rest | .bool _ :: rest | .int _ :: rest | .flt _ :: rest | .list _ :: rest => by
    intro w
    unfold msgSerEach
    constructor
    · intro h; cases h
    · intro h; cases h
theorem linkSerEach_written (env : SerEnv) : (l : List Val) →
    ∀ w : List Val, (linkSerEach env l = .ok w ↔ WrittenItems env (· = linkCls) l w)
  | [] => by
    intro w
    unfold linkSerEach
    constructor
    · intro h; cases h; exact .nil _
    · intro h; cases h; rfl
  | .msg c d :: rest => by
    intro w
    have i1 := fun x => toDict_written env c d x
    have i2 := fun y => linkSerEach_written env rest y
    unfold linkSerEach
    constructor
    · intro h
      split at h
      · next hc =>
        cases e1 : toDict env c d with
        | error e => rw [e1] at h; cases h
        | ok x =>
          cases e2 : linkSerEach env rest with
          | error e => rw [e1, e2] at h; cases h
          | ok y => rw [e1, e2] at h; cases h; exact .message hc ((i1 x).1 e1) ((i2 y).1 e2)
      · cases h
    · intro h
      cases h with
      | message hc h1 h2 => rw [if_pos hc, (i1 _).2 h1, (i2 _).2 h2]; rfl
  | .str _ :: rest => by
    intro w
    have i2 := fun y => linkSerEach_written env rest y
    unfold linkSerEach
    constructor
    · intro h
      cases e2 : linkSerEach env rest with
      | error e => rw [e2] at h; cases h
      | ok y =>
        rw [e2] at h; cases h
        exact .text _ ((i2 y).1 e2)
    · intro h
      cases h with
      | text _ h2 => rw [(i2 _).2 h2]; rfl
  | .dict _ :: rest => by
    intro w
    have i2 := fun y => linkSerEach_written env rest y
    unfold linkSerEach
    constructor
    · intro h
      cases e2 : linkSerEach env rest with
      | error e => rw [e2] at h; cases h
      | ok y =>
        rw [e2] at h; cases h
        exact .dict _ ((i2 y).1 e2)
    · intro h
      cases h with
      | dict _ h2 => rw [(i2 _).2 h2]; rfl
  | .none :: rest | .bool _ :: rest | .int _ :: rest | .flt _ :: rest | .list _ :: rest => by
    intro w
    unfold linkSerEach
    constructor
    · intro h; cases h
    · intro h; cases h
end

/-- **C176.**  A message of any class can be written as a dict exactly when each of its values can be written by the
writer for its name, messages inside messages included, and the dict is what `WrittenMessage` says. -/
theorem C176_to_dict (env : SerEnv) (c : Cls) (st x : Dict) : toDict env c st = .ok x ↔ WrittenMessage env c st x :=
  toDict_written env c st x

/-- **C176** for JSON: exactly when in addition there is a JSON text for that dict, which is then the result. -/
theorem C176_to_json (env : SerEnv) (c : Cls) (st : Dict) (t : String) :
    toJson env c st = .ok t ↔ ∃ x, WrittenMessage env c st x ∧ dumps (.dict x) = .ok t := by
  unfold toJson
  constructor
  · intro h
    cases e : toDict env c st with
    | error y => rw [e] at h; cases h
    | ok x => rw [e] at h; exact ⟨x, (toDict_written env c st x).1 e, h⟩
  · rintro ⟨x, hx, h⟩
    rw [(toDict_written env c st x).2 hx]
    exact h

/-- **C176**, what JSON text is needed: if the dict is JSON data there is a text for it, and reading the text gives the dict. -/
theorem C176_json_data (env : SerEnv) (c : Cls) (st x : Dict) (h : WrittenMessage env c st x) (hj : (Val.dict x).isJson = true) :
    ∃ t, toJson env c st = .ok t ∧ loads t = .ok (.dict x) := by
  obtain ⟨t, h1, h2⟩ := loads_dumps _ hj
  exact ⟨t, (C176_to_json env c st t).2 ⟨x, h, h1⟩, h2⟩

-- a token response whose scope is a list, and one whose scope holds a number
example : WrittenMessage libEnv oauth2_AccessTokenResponse.cls
    [("access_token", .str "t"), ("scope", .list [.str "openid", .str "email"])]
    [("access_token", .str "t"), ("scope", .str "openid email")] :=
  (C176_to_dict _ _ _ _).1 (by decide +kernel)
example : ∀ x, ¬ WrittenMessage libEnv oauth2_AccessTokenResponse.cls [("scope", .list [.str "openid", .int 1])] x := by
  intro x h
  have h2 : toDict libEnv oauth2_AccessTokenResponse.cls [("scope", .list [.str "openid", .int 1])] = .error .typeError := by
    decide +kernel
  rw [(C176_to_dict _ _ _ _).2 h] at h2
  cases h2

/-- **C123**, objects in parameters declared as objects (`jwks`, `titles`, `properties`, a claims request): in a form of its
own JSON data is written as its JSON text; inside another form it is written as its Python text. -/
theorem C123_objects (env : SerEnv) (ps : Assoc Spec) (k : String) (h : serFor ps k = some .msgJson) (d : Dict)
    (hj : (Val.dict d).isJson = true) :
    (∃ t, urlPairs env false ps k (.dict d) = .ok [(k, t)] ∧ loads t = .ok (.dict d)) ∧
    ∀ t, pyStr (.dict d) = .ok t → urlPairs env true ps k (.dict d) = .ok [(k, t)] := by
  obtain ⟨t, h1, h2⟩ := loads_dumps _ hj
  refine ⟨⟨t, by simp [urlPairs, h, serUrlOther, orStr, h1, Except.map], h2⟩, fun t ht => ?_⟩
  simp [urlPairs, h, serUrlOther, ht, Except.map]

-- the keys of a client, and the form they are in
example : serFor oidc_RegistrationRequest.params "jwks" = some .msgJson := by decide +kernel
example : toUrlencoded libEnv oidc_RegistrationRequest
    [("redirect_uris", .list [.str "a"]), ("jwks", .dict [("keys", .list [])])] =
    .ok "redirect_uris=a&jwks=%7B%22keys%22%3A+%5B%5D%7D" := by decide +kernel

end Verif
