import Verif.Props.ExactWriting
import Verif.Props.FormText
import Verif.Model.Lax

/-!
# Exactly which messages can be written as a form, and what the form holds: C177
-/

namespace Verif

/-- a number or a truth value -/
def IsScalar (v : Val) : Prop := (∃ i, v = .int i) ∨ (∃ b, v = .bool b) ∨ ∃ q, v = .flt q

/-- two lists of the same length, the items related one by one -/
inductive OneByOne {α β : Type} (p : α → β → Prop) : List α → List β → Prop
  | nil : OneByOne p [] []
  | cons {a : α} {b : β} {l : List α} {m : List β} : p a b → OneByOne p l m → OneByOne p (a :: l) (b :: m)

/-- the form of a dict: every value stands as its Python text -/
def DictForm (d : Dict) (t : String) : Prop :=
  ∃ ps : List (String × String), OneByOne (fun p q => p.1 = q.1 ∧ pyStr p.2 = .ok q.2) d ps ∧ t = urlencode ps

/-- the Python text of a message: that of the dict it is written as -/
def MessageText (env : SerEnv) (c : Cls) (d : Dict) (t : String) : Prop :=
  ∃ x, WrittenMessage env c d x ∧ pyStr (.dict x) = .ok t

/-- an item of a list stands as its Python text -/
def ItemText (env : SerEnv) (v : Val) (t : String) : Prop :=
  (noMsg v = true ∧ pyStr v = .ok t) ∨ ∃ c d, v = .msg c d ∧ MessageText env c d t

/-- the form that `to_urlencoded` gives for a message of class `c` by itself; `inner` tells whether the level is positive -/
def OwnForm (env : SerEnv) (inner : Bool) (c : Cls) (d : Dict) (t : String) : Prop :=
  urlFinish env c (env.params c) d (urlPairsAll env inner (env.params c) d) = .ok t

/-- an item of a list of messages (`links`: of links): a dict stands as its form, a message as the form it has by itself, everything
else, and messages among links that are no links, as it is -/
def ItemForm (env : SerEnv) (links : Bool) (v w : Val) : Prop :=
  (∃ d t, v = .dict d ∧ DictForm d t ∧ w = .str t) ∨
  (∃ c d, v = .msg c d ∧ (links = false ∨ c = linkCls) ∧ ∃ t, OwnForm env false c d t ∧ w = .str t) ∨
  (∃ c d, v = .msg c d ∧ links = true ∧ c ≠ linkCls ∧ w = v) ∨
  ((∀ d, v ≠ .dict d) ∧ (∀ c d, v ≠ .msg c d) ∧ w = v)

/-- no messages inside it, or a message -/
def PlainOrMessage (v : Val) : Prop := noMsg v = true ∨ ∃ c d, v = .msg c d

/-- messages are the value itself or items of the list that the value is, and nowhere else -/
def MessagesOnTop (v : Val) : Prop := PlainOrMessage v ∨ ∃ l, v = .list l ∧ ∀ x ∈ l, PlainOrMessage x

/-- The texts that stand in the form for a value that is no message, under a parameter with this writer; `nullOk` tells
whether the declaration allows null, `pos` whether the level is positive. -/
inductive FormTexts (env : SerEnv) (pos : Bool) (s : Option Ser) (nullOk : Bool) : Val → List String → Prop
  /-- null is left out, or stands as `None` -/
  | null : nullOk = false → FormTexts env pos s nullOk .none []
  | nullText : nullOk = true → FormTexts env pos s nullOk .none ["None"]
  /-- texts stand as they are -/
  | text (t : String) : FormTexts env pos s nullOk (.str t) [t]
  /-- without a writer, the name is repeated for each item of a list, with its Python text -/
  | items {l : List Val} {ts : List String} : s = none → OneByOne (ItemText env) l ts → FormTexts env pos s nullOk (.list l) ts
  /-- words are put together with spaces -/
  | words {l : List Val} (ss : List String) : s = some .list ∨ s = some .spSep → l = ss.map .str →
      FormTexts env pos s nullOk (.list l) [pyJoin ' ' ss]
  | names (d : Dict) : s = some .spSep → FormTexts env pos s nullOk (.dict d) [pyJoin ' ' (dkeys d)]
  /-- what is declared as JSON stands as its JSON text, -/
  | json {v : Val} {t : String} : s = some .json → v ≠ .none → v.isStr = false → dumps v = .ok t → FormTexts env pos s nullOk v [t]
  /-- and so do objects, unless the level is positive -/
  | object {d : Dict} {t : String} : s = some .msgJson → pos = false → dumps (.dict d) = .ok t → FormTexts env pos s nullOk (.dict d) [t]
  /-- a claims request, or the first of a list of them, stands as its form -/
  | claims {d : Dict} {t : String} : s = some .claims → DictForm d t → FormTexts env pos s nullOk (.dict d) [t]
  | claimsFirst {d : Dict} {r : List Val} {t : String} : s = some .claims → DictForm d t → FormTexts env pos s nullOk (.list (.dict d :: r)) [t]
  | claimsNothing {v : Val} {r : List Val} : s = some .claims → v = .str "" ∨ v = .list [] → FormTexts env pos s nullOk (.list (v :: r)) [""]
  | claimsMessage {c : Cls} {d : Dict} {r : List Val} {t : String} : s = some .claims → OwnForm env true c d t →
      FormTexts env pos s nullOk (.list (.msg c d :: r)) [t]
  /-- a list of messages stands as the Python text of the list of the forms -/
  | forms {links : Bool} {l w : List Val} {t : String} : s = some (if links = true then .linkList else .msgList) →
      OneByOne (ItemForm env links) l w → pyStr (.list w) = .ok t →
      FormTexts env pos s nullOk (.list l) [t]
  | formNames {d : Dict} {t : String} : s = some .msgList → pyStr (.list (d.map (fun p => .str p.1))) = .ok t → FormTexts env pos s nullOk (.dict d) [t]
  /-- a moment -/
  | moment {v : Val} {t : String} : s = some .timeStamp → IsScalar v ∨ (∃ d, v = .dict d) → timeStampText v = .ok t → FormTexts env pos s nullOk v [t]
  | notMoment {v : Val} {e : Exc} {t : String} : s = some .timeStamp → IsScalar v ∨ (∃ d, v = .dict d) → timeStampText v = .error e →
      e ≠ .unmodelled → pyStr v = .ok t → FormTexts env pos s nullOk v [t]
  /-- everything else for which there is no exception stands as its Python text -/
  | scalar {v : Val} {t : String} : s ≠ some .json → s ≠ some .timeStamp → IsScalar v → pyStr v = .ok t → FormTexts env pos s nullOk v [t]
  | dict {d : Dict} {t : String} : s = none ∨ s = some .list ∨ s = some .msg ∨ s = some .linkList ∨ (s = some .msgJson ∧ pos = true) →
      pyStr (.dict d) = .ok t →
      FormTexts env pos s nullOk (.dict d) [t]
  | list {l : List Val} {t : String} : s = some .msg ∨ (s = some .msgJson ∧ pos = false) → pyStr (.list l) = .ok t → FormTexts env pos s nullOk (.list l) [t]

theorem bind2_ok {α β γ : Type} {x : Res α} {y : Res β} {f : α → β → γ} {w : γ} :
    (do let a ← x; let b ← y; Except.ok (f a b)) = Except.ok (ε := Exc) w ↔ ∃ a b, x = .ok a ∧ y = .ok b ∧ w = f a b := by
  cases x with
  | error e => simp [bind, Except.bind]
  | ok a =>
    cases y with
    | error e => simp [bind, Except.bind]
    | ok b => simp [bind, Except.bind, eq_comm]

theorem pyStrOf_noMsg (env : SerEnv) {v : Val} (h : noMsg v = true) : pyStrOf env v = pyStr v := by
  cases v <;> first | rfl | cases h

theorem pyStrOf_message (env : SerEnv) (c : Cls) (d : Dict) (t : String) : pyStrOf env (.msg c d) = .ok t ↔ MessageText env c d t := by
  unfold MessageText
  simp only [pyStrOf, ← toDict_written]
  cases toDict env c d <;> simp [bind, Except.bind]

theorem pyStrOf_item (env : SerEnv) {v : Val} (h : PlainOrMessage v) (t : String) : pyStrOf env v = .ok t ↔ ItemText env v t := by
  rcases h with h | ⟨c, d, rfl⟩
  · rw [pyStrOf_noMsg env h]
    constructor
    · intro h2; exact .inl ⟨h, h2⟩
    · rintro (⟨-, h2⟩ | ⟨c, d, rfl, -⟩)
      · exact h2
      · simp [noMsg] at h
  · rw [pyStrOf_message]
    constructor
    · intro h2; exact .inr ⟨c, d, rfl, h2⟩
    · rintro (⟨h2, -⟩ | ⟨c', d', h2, h3⟩)
      · simp [noMsg] at h2
      · cases h2; exact h3

theorem pyStrEach_iff (env : SerEnv) (k : String) : ∀ {l : List Val}, (∀ x ∈ l, PlainOrMessage x) → ∀ {ps : List (String × String)},
    (pyStrEach env k l = .ok ps ↔ ∃ ts : List String, OneByOne (ItemText env) l ts ∧ ps = ts.map (fun t => (k, t)))
  | [], _, ps => by
    simp only [pyStrEach]
    constructor
    · intro h; cases h; exact ⟨[], .nil, rfl⟩
    · rintro ⟨ts, h, rfl⟩; cases h; rfl
  | v :: l, hn, ps => by
    have hv := pyStrOf_item env (hn v (List.mem_cons_self ..))
    have hl : ∀ x ∈ l, PlainOrMessage x := fun x hx => hn x (List.mem_cons_of_mem _ hx)
    simp only [pyStrEach]
    rw [bind2_ok]
    constructor
    · rintro ⟨a, b, h1, h2, rfl⟩
      obtain ⟨ts, h3, rfl⟩ := (pyStrEach_iff env k hl).1 h2
      exact ⟨a :: ts, .cons ((hv a).1 h1) h3, rfl⟩
    · rintro ⟨ts, h, rfl⟩
      cases h with
      | cons h1 h2 => exact ⟨_, _, (hv _).2 h1, (pyStrEach_iff env k hl).2 ⟨_, h2, rfl⟩, rfl⟩

theorem pyStrValues_iff (env : SerEnv) : ∀ {d : List (String × Val)}, noMsgDict d = true → ∀ {ps : List (String × String)},
    (pyStrValues env d = .ok ps ↔ OneByOne (fun p q => p.1 = q.1 ∧ pyStr p.2 = .ok q.2) d ps)
  | [], _, ps => by
    simp only [pyStrValues]
    constructor
    · intro h; cases h; exact .nil
    · intro h; cases h; rfl
  | (k, v) :: d, hn, ps => by
    simp only [noMsgDict, Bool.and_eq_true] at hn
    simp only [pyStrValues, pyStrOf_noMsg env hn.1]
    rw [bind2_ok]
    constructor
    · rintro ⟨a, b, h1, h2, rfl⟩
      exact .cons ⟨rfl, h1⟩ ((pyStrValues_iff env hn.2).1 h2)
    · intro h
      cases h with
      | @cons _ q _ _ h1 h2 =>
        obtain ⟨k', t⟩ := q
        obtain ⟨rfl, h1⟩ := h1
        exact ⟨_, _, h1, (pyStrValues_iff env hn.2).2 h2, rfl⟩

theorem urlencodeDict_iff (env : SerEnv) {d : Dict} (hn : noMsg (.dict d) = true) {t : String} :
    urlencodeDict env d = .ok t ↔ DictForm d t := by
  unfold urlencodeDict DictForm
  rw [map_ok_iff]
  constructor
  · rintro ⟨ps, h, rfl⟩; exact ⟨ps, (pyStrValues_iff env hn).1 h, rfl⟩
  · rintro ⟨ps, h, rfl⟩; exact ⟨ps, (pyStrValues_iff env hn).2 h, rfl⟩

theorem item_other {env : SerEnv} {b : Bool} {v w : Val} (h : ∀ d, v ≠ .dict d) (hm : ∀ c d, v ≠ .msg c d) : ItemForm env b v w ↔ w = v := by
  constructor
  · rintro (⟨d, t, rfl, -⟩ | ⟨c, d, rfl, -⟩ | ⟨c, d, rfl, -⟩ | ⟨-, -, h⟩)
    · exact absurd rfl (h d)
    · exact absurd rfl (hm c d)
    · exact absurd rfl (hm c d)
    · exact h
  · intro hw; exact .inr (.inr (.inr ⟨h, hm, hw⟩))

theorem item_dict {env : SerEnv} {b : Bool} {d : Dict} {w : Val} : ItemForm env b (.dict d) w ↔ ∃ t, DictForm d t ∧ w = .str t := by
  constructor
  · rintro (⟨d', t, h, h2, h3⟩ | ⟨c, d, h, -⟩ | ⟨c, d, h, -⟩ | ⟨h, -⟩)
    · cases h; exact ⟨t, h2, h3⟩
    · cases h
    · cases h
    · exact absurd rfl (h d)
  · rintro ⟨t, h1, h2⟩; exact .inl ⟨d, t, rfl, h1, h2⟩

theorem item_message {env : SerEnv} {b : Bool} {c : Cls} {d : Dict} {w : Val} : ItemForm env b (.msg c d) w ↔
    ((b = false ∨ c = linkCls) ∧ ∃ t, OwnForm env false c d t ∧ w = .str t) ∨ (b = true ∧ c ≠ linkCls ∧ w = .msg c d) := by
  constructor
  · rintro (⟨d', t, h, -⟩ | ⟨c, d, h, h2⟩ | ⟨c, d, h, h2⟩ | ⟨-, h, -⟩)
    · cases h
    · cases h; exact .inl h2
    · cases h; exact .inr h2
    · exact absurd rfl (h c d)
  · rintro (h | h)
    · exact .inr (.inl ⟨c, d, rfl, h⟩)
    · exact .inr (.inr (.inl ⟨c, d, rfl, h⟩))

theorem bind1_ok {α β : Type} {x : Res α} {f : α → β} {w : β} :
    (do let a ← x; Except.ok (f a)) = Except.ok (ε := Exc) w ↔ ∃ a, x = .ok a ∧ w = f a := by
  cases x with
  | error e => simp [bind, Except.bind]
  | ok a => simp [bind, Except.bind, eq_comm]

theorem each_iff (env : SerEnv) : ∀ {l : List Val}, (∀ x ∈ l, PlainOrMessage x) → ∀ {w : List Val},
    ((msgUrlEach env l = .ok w ↔ OneByOne (ItemForm env false) l w) ∧ (linkUrlEach env l = .ok w ↔ OneByOne (ItemForm env true) l w))
  | [], _, w => by
    simp only [msgUrlEach, linkUrlEach]
    constructor <;> constructor <;> intro h <;> cases h <;> first | rfl | exact .nil
  | v :: l, hn, w => by
    have hv := hn v (List.mem_cons_self ..)
    have ih := fun {w} => each_iff env (fun x hx => hn x (List.mem_cons_of_mem _ hx)) (l := l) (w := w)
    have cons_iff : ∀ {b x}, OneByOne (ItemForm env b) (v :: l) x ↔ ∃ a y, ItemForm env b v a ∧ OneByOne (ItemForm env b) l y ∧ x = a :: y := by
      intro b x
      constructor
      · intro h; cases h with | cons h1 h2 => exact ⟨_, _, h1, h2, rfl⟩
      · rintro ⟨a, b, h1, h2, rfl⟩; exact .cons h1 h2
    rw [cons_iff, cons_iff]
    cases v with
    | msg c d =>
      simp only [msgUrlEach, linkUrlEach]
      constructor <;> rw [bind2_ok] <;> constructor
      · rintro ⟨a, b, h1, h2, rfl⟩
        exact ⟨_, _, item_message.2 (.inl ⟨.inl rfl, a, h1, rfl⟩), ih.1.1 h2, rfl⟩
      · rintro ⟨a, b, h1, h2, rfl⟩
        rcases item_message.1 h1 with ⟨-, t, h3, rfl⟩ | ⟨h3, -⟩
        · exact ⟨t, b, h3, ih.1.2 h2, rfl⟩
        · cases h3
      · rintro ⟨a, b, h1, h2, rfl⟩
        refine ⟨a, b, item_message.2 ?_, ih.2.1 h2, rfl⟩
        unfold linkText at h1
        split at h1
        · next hc => obtain ⟨t, h3, rfl⟩ := map_ok_iff.1 h1; exact .inl ⟨.inr hc, t, h3, rfl⟩
        · next hc => cases h1; exact .inr ⟨rfl, hc, rfl⟩
      · rintro ⟨a, b, h1, h2, rfl⟩
        refine ⟨a, b, ?_, ih.2.2 h2, rfl⟩
        unfold linkText
        rcases item_message.1 h1 with ⟨h3, t, h4, rfl⟩ | ⟨-, h3, rfl⟩
        · rcases h3 with h3 | h3
          · cases h3
          · rw [if_pos h3]; exact map_ok_iff.2 ⟨t, h4, rfl⟩
        · rw [if_neg h3]
    | dict d =>
      have hd : noMsg (.dict d) = true := by rcases hv with h | ⟨_, _, h⟩; exact h; cases h
      simp only [msgUrlEach, linkUrlEach]
      constructor <;> rw [bind2_ok] <;> constructor
      · rintro ⟨a, b, h1, h2, rfl⟩
        exact ⟨_, _, item_dict.2 ⟨a, (urlencodeDict_iff env hd).1 h1, rfl⟩, ih.1.1 h2, rfl⟩
      · rintro ⟨a, b, h1, h2, rfl⟩
        obtain ⟨t, h3, rfl⟩ := item_dict.1 h1
        exact ⟨t, b, (urlencodeDict_iff env hd).2 h3, ih.1.2 h2, rfl⟩
      · rintro ⟨a, b, h1, h2, rfl⟩
        exact ⟨_, _, item_dict.2 ⟨a, (urlencodeDict_iff env hd).1 h1, rfl⟩, ih.2.1 h2, rfl⟩
      · rintro ⟨a, b, h1, h2, rfl⟩
        obtain ⟨t, h3, rfl⟩ := item_dict.1 h1
        exact ⟨t, b, (urlencodeDict_iff env hd).2 h3, ih.2.2 h2, rfl⟩
    | _ =>
      simp only [msgUrlEach, linkUrlEach]
      constructor <;> rw [bind1_ok] <;> constructor
      · rintro ⟨b, h2, rfl⟩; exact ⟨_, _, (item_other (by simp) (by simp)).2 rfl, ih.1.1 h2, rfl⟩
      · rintro ⟨a, b, h1, h2, rfl⟩
        obtain rfl := (item_other (by simp) (by simp)).1 h1
        exact ⟨b, ih.1.2 h2, rfl⟩
      · rintro ⟨b, h2, rfl⟩; exact ⟨_, _, (item_other (by simp) (by simp)).2 rfl, ih.2.1 h2, rfl⟩
      · rintro ⟨a, b, h1, h2, rfl⟩
        obtain rfl := (item_other (by simp) (by simp)).1 h1
        exact ⟨b, ih.2.2 h2, rfl⟩

theorem bind_dep_ok {α β γ : Type} {x : Res α} {y : α → Res β} {f : α → β → γ} {w : γ} :
    (do let a ← x; let b ← y a; Except.ok (f a b)) = Except.ok (ε := Exc) w ↔ ∃ a b, x = .ok a ∧ y a = .ok b ∧ f a b = w := by
  cases x with
  | error e => simp [bind, Except.bind]
  | ok a => cases h : y a <;> simp [bind, Except.bind, h]

theorem dumps_unmodelled {v : Val} (hn : noMsg v = true) {e : Exc} (h : dumps v = .error e) : e = .unmodelled := by
  unfold dumps at h
  cases e1 : dumpsC v with
  | ok a => rw [e1] at h; cases h
  | error x => rw [e1] at h; cases h; exact dumpsC_noMsg v hn _ e1

theorem orStr_dumps {v : Val} (hn : noMsg v = true) {w : Val} {t : String} : orStr (dumps v) w = .ok t ↔ dumps v = .ok t := by
  cases h : dumps v with
  | ok a => simp [orStr]
  | error e => rw [dumps_unmodelled hn h]; simp [orStr]

theorem pyStrValues_unmodelled (env : SerEnv) (hp : ∀ v : Val, noMsg v = true → ∀ e, pyStr v = .error e → e = .unmodelled) :
    ∀ {d : List (String × Val)}, noMsgDict d = true → ∀ {e}, pyStrValues env d = .error e → e = .unmodelled
  | [], _, e, h => by cases h
  | (k, v) :: d, hn, e, h => by
    simp only [noMsgDict, Bool.and_eq_true] at hn
    simp only [pyStrValues, pyStrOf_noMsg env hn.1] at h
    cases e1 : pyStr v with
    | error x => rw [e1] at h; cases h; exact hp v hn.1 _ e1
    | ok a =>
      cases e2 : pyStrValues env d with
      | error x => rw [e1, e2] at h; cases h; exact pyStrValues_unmodelled env hp hn.2 e2
      | ok b => rw [e1, e2] at h; cases h

mutual
theorem reprC_error : (v : Val) → (e : Exc) → reprC v = .error e → e = .unmodelled
  | .none, e, h => by simp [reprC] at h
  | .bool b, e, h => by cases b <;> simp [reprC] at h
  | .int i, e, h => by simp [reprC] at h
  | .flt q, e, h => by
    rw [reprC, floatText] at h
    split at h
    · cases h
    · cases h; rfl
  | .str s, e, h => by simp [reprC] at h
  | .list [], e, h => by simp [reprC] at h
  | .list (v :: vs), e, h => by
    rw [reprC] at h
    cases ha : reprC v with
    | error e' => rw [ha] at h; cases h; exact reprC_error v _ ha
    | ok a =>
      rw [ha] at h
      cases hb : reprList vs with
      | error e' => rw [hb] at h; cases h; exact reprList_error vs _ hb
      | ok b => rw [hb] at h; cases h
  | .dict [], e, h => by simp [reprC] at h
  | .dict ((k, v) :: d), e, h => by
    rw [reprC] at h
    cases ha : reprC v with
    | error e' => rw [ha] at h; cases h; exact reprC_error v _ ha
    | ok a =>
      rw [ha] at h
      cases hb : reprDict d with
      | error e' => rw [hb] at h; cases h; exact reprDict_error d _ hb
      | ok b => rw [hb] at h; cases h
  | .msg _ _, e, h => by rw [reprC] at h; cases h; rfl
theorem reprList_error : (l : List Val) → (e : Exc) → reprList l = .error e → e = .unmodelled
  | [], e, h => by simp [reprList] at h
  | v :: vs, e, h => by
    rw [reprList] at h
    cases ha : reprC v with
    | error e' => rw [ha] at h; cases h; exact reprC_error v _ ha
    | ok a =>
      rw [ha] at h
      cases hb : reprList vs with
      | error e' => rw [hb] at h; cases h; exact reprList_error vs _ hb
      | ok b => rw [hb] at h; cases h
theorem reprDict_error : (d : List (String × Val)) → (e : Exc) → reprDict d = .error e → e = .unmodelled
  | [], e, h => by simp [reprDict] at h
  | (k, v) :: d, e, h => by
    rw [reprDict] at h
    cases ha : reprC v with
    | error e' => rw [ha] at h; cases h; exact reprC_error v _ ha
    | ok a =>
      rw [ha] at h
      cases hb : reprDict d with
      | error e' => rw [hb] at h; cases h; exact reprDict_error d _ hb
      | ok b => rw [hb] at h; cases h
end

theorem pyStr_error {v : Val} {e : Exc} (h : pyStr v = .error e) : e = .unmodelled := by
  have key : ∀ w : Val, (reprC w).map String.ofList = .error e → e = .unmodelled := by
    intro w h
    cases e1 : reprC w with
    | ok a => rw [e1] at h; cases h
    | error x => rw [e1] at h; cases h; exact reprC_error w _ e1
  cases v <;> first | exact key _ h | (cases h; done) | (cases h; rfl)

theorem orStr_dict (env : SerEnv) {d : Dict} (hn : noMsg (.dict d) = true) {w : Val} {t : String} :
    orStr (urlencodeDict env d) w = .ok t ↔ DictForm d t := by
  rw [← urlencodeDict_iff env hn]
  cases h : urlencodeDict env d with
  | ok a => simp [orStr]
  | error e =>
    have : e = .unmodelled := by
      unfold urlencodeDict at h
      cases e1 : pyStrValues env d with
      | ok a => rw [e1] at h; cases h
      | error x => rw [e1] at h; cases h; exact pyStrValues_unmodelled env (fun v _ e he => pyStr_error he) hn e1
    subst this
    simp [orStr]

theorem orStr_moment {v : Val} {t : String} : orStr (timeStampText v) v = .ok t ↔
    timeStampText v = .ok t ∨ ∃ e, timeStampText v = .error e ∧ e ≠ .unmodelled ∧ pyStr v = .ok t := by
  cases h : timeStampText v with
  | ok a => simp [orStr]
  | error e => cases e <;> simp [orStr]

theorem other_exact (env : SerEnv) (pos : Bool) (s : Option Ser) (b : Bool) {v : Val} (hn : noMsg v = true)
    (hv : IsScalar v ∨ ∃ d, v = .dict d) (ts : List String) :
    (∃ t, serUrlOther env pos s v = .ok t ∧ ts = [t]) ↔ FormTexts env pos s b v ts := by
  have hne : v ≠ .none ∧ v.isStr = false ∧ (∀ l, v ≠ .list l) ∧ ∀ t, v ≠ .str t := by
    rcases hv with (⟨i, rfl⟩ | ⟨i, rfl⟩ | ⟨i, rfl⟩) | ⟨i, rfl⟩ <;> simp [Val.isStr]
  constructor
  · rintro ⟨t, h, rfl⟩
    rcases hv with hs | ⟨d, rfl⟩
    · by_cases h1 : s = some .json
      · subst h1; simp only [serUrlOther] at h
        exact .json rfl hne.1 hne.2.1 ((orStr_dumps hn).1 h)
      · by_cases h2 : s = some .timeStamp
        · subst h2; simp only [serUrlOther] at h
          rcases orStr_moment.1 h with h | ⟨e, he, h3, h4⟩
          · exact .moment rfl (.inl hs) h
          · exact .notMoment rfl (.inl hs) he h3 h4
        · refine .scalar h1 h2 hs ?_
          rcases hs with ⟨i, rfl⟩ | ⟨i, rfl⟩ | ⟨i, rfl⟩ <;> cases s with
            | none => exact h
            | some s => cases s <;> simp only [serUrlOther] at h <;> first | exact h | exact absurd rfl h1 | exact absurd rfl h2
    · cases s with
      | none => exact .dict (by simp) h
      | some s =>
        cases s <;> simp only [serUrlOther] at h
        · exact .dict (by simp) h
        · cases h; exact .names _ rfl
        · exact .json rfl hne.1 hne.2.1 ((orStr_dumps hn).1 h)
        · exact .dict (by simp) h
        · exact .formNames rfl h
        · cases pos
          · exact .object rfl rfl ((orStr_dumps hn).1 (by simpa using h))
          · exact .dict (by simp) (by simpa using h)
        · exact .claims rfl ((orStr_dict env hn).1 h)
        · exact .dict (by simp) h
        · rcases orStr_moment.1 h with h | ⟨e, he, h3, h4⟩
          · exact .moment rfl (.inr ⟨_, rfl⟩) h
          · exact .notMoment rfl (.inr ⟨_, rfl⟩) he h3 h4
  · intro h
    cases h with
    | null => exact absurd rfl hne.1
    | nullText => exact absurd rfl hne.1
    | text t => exact absurd rfl (hne.2.2.2 t)
    | items => exact absurd rfl (hne.2.2.1 _)
    | words => exact absurd rfl (hne.2.2.1 _)
    | names d h => subst h; exact ⟨_, rfl, rfl⟩
    | json h _ _ h2 => subst h; exact ⟨_, (orStr_dumps hn).2 h2, rfl⟩
    | object h hp h2 => subst h hp; exact ⟨_, by simpa [serUrlOther] using (orStr_dumps hn).2 h2, rfl⟩
    | claims h h2 => subst h; exact ⟨_, (orStr_dict env hn).2 h2, rfl⟩
    | claimsFirst => exact absurd rfl (hne.2.2.1 _)
    | claimsNothing => exact absurd rfl (hne.2.2.1 _)
    | claimsMessage => exact absurd rfl (hne.2.2.1 _)
    | forms => exact absurd rfl (hne.2.2.1 _)
    | formNames h h2 => subst h; exact ⟨_, h2, rfl⟩
    | moment h _ h2 => subst h; exact ⟨_, orStr_moment.2 (.inl h2), rfl⟩
    | notMoment h _ h2 h3 h4 => subst h; exact ⟨_, orStr_moment.2 (.inr ⟨_, h2, h3, h4⟩), rfl⟩
    | @scalar _ t h1 h2 hs h3 =>
      refine ⟨t, ?_, rfl⟩
      rcases hs with ⟨i, rfl⟩ | ⟨i, rfl⟩ | ⟨i, rfl⟩ <;> cases s with
        | none => exact h3
        | some s => cases s <;> first | exact h3 | exact absurd rfl h1 | exact absurd rfl h2
    | @dict d t h h2 => rcases h with rfl | rfl | rfl | rfl | ⟨rfl, rfl⟩ <;> exact ⟨t, h2, rfl⟩
    | list => exact absurd rfl (hne.2.2.1 _)

theorem list_exact (env : SerEnv) (pos : Bool) (ps : Assoc Spec) (k : String) (l : List Val) (hn : ∀ x ∈ l, PlainOrMessage x)
    (r : List (String × String)) :
    urlPairs env pos ps k (.list l) = .ok r ↔
      ∃ ts, FormTexts env pos (serFor ps k) (nullFor ps k) (.list l) ts ∧ r = ts.map (fun t => (k, t)) := by
  have notScalar : ¬ IsScalar (.list l) := by rintro (⟨_, h⟩ | ⟨_, h⟩ | ⟨_, h⟩) <;> cases h
  generalize nullFor ps k = b
  rw [urlPairs.eq_def]
  simp only
  generalize serFor ps k = s
  constructor
  · intro h
    cases s with
    | none =>
      simp only at h
      obtain ⟨ts, h1, h2⟩ := (pyStrEach_iff env k hn).1 h
      exact ⟨ts, .items rfl h1, h2⟩
    | some s =>
      cases s <;> simp only [serUrlList] at h
      · replace h := map_ok_iff.1 h
        obtain ⟨t, h, rfl⟩ := h
        split at h
        · next ss hs => cases h; exact ⟨_, .words ss (by simp) (joinStrs_iff.1 hs), rfl⟩
        · cases h
      · replace h := map_ok_iff.1 h
        obtain ⟨t, h, rfl⟩ := h
        split at h
        · next ss hs => cases h; exact ⟨_, .words ss (by simp) (joinStrs_iff.1 hs), rfl⟩
        · cases h
      · replace h := map_ok_iff.1 h
        obtain ⟨t, h, rfl⟩ := h
        exact ⟨_, .json rfl (by simp) rfl h, rfl⟩
      · replace h := map_ok_iff.1 h
        obtain ⟨t, h, rfl⟩ := h
        exact ⟨_, .list (by simp) h, rfl⟩
      · obtain ⟨w, t, h1, h2, rfl⟩ := bind_dep_ok.1 h
        exact ⟨_, .forms (links := false) rfl ((each_iff env hn).1.1 h1) h2, rfl⟩
      · replace h := map_ok_iff.1 h
        obtain ⟨t, h, rfl⟩ := h
        cases pos
        · exact ⟨_, .list (by simp) (by simpa using h), rfl⟩
        · simp at h
      · replace h := map_ok_iff.1 h
        obtain ⟨t, h, rfl⟩ := h
        refine ⟨[t], ?_, rfl⟩
        cases l with
        | nil => simp [claimsUrl] at h
        | cons v l =>
          have hv := hn v (List.mem_cons_self ..)
          cases v with
          | dict d =>
            have hd : noMsg (.dict d) = true := by rcases hv with h | ⟨_, _, h⟩; exact h; cases h
            exact .claimsFirst rfl ((urlencodeDict_iff env hd).1 (by simpa [claimsUrl] using h))
          | str x =>
            by_cases hx : x = ""
            · simp [claimsUrl, hx] at h; subst h; exact .claimsNothing rfl (by simp [hx])
            · simp [claimsUrl, hx] at h
          | list m =>
            cases m with
            | nil => simp [claimsUrl] at h; subst h; exact .claimsNothing rfl (by simp)
            | cons _ _ => simp [claimsUrl] at h
          | msg c d => exact .claimsMessage rfl (by simpa [claimsUrl, OwnForm] using h)
          | _ => simp [claimsUrl] at h
      · obtain ⟨w, t, h1, h2, rfl⟩ := bind_dep_ok.1 h
        exact ⟨_, .forms (links := true) rfl ((each_iff env hn).2.1 h1) h2, rfl⟩
      · cases h
  · rintro ⟨ts, h, rfl⟩
    cases h with
    | items h h2 => subst h; exact (pyStrEach_iff env k hn).2 ⟨_, h2, rfl⟩
    | words ss h h2 => rcases h with rfl | rfl <;> simp [serUrlList, joinStrs_iff.2 h2, Except.map]
    | json h _ _ h2 => subst h; simp [serUrlList, h2, Except.map]
    | @claimsFirst d _ _ h h2 =>
      subst h
      have hd : noMsg (.dict d) = true := by rcases hn _ (List.mem_cons_self ..) with h | ⟨_, _, h⟩; exact h; cases h
      simp [claimsUrl, (urlencodeDict_iff env hd).2 h2, Except.map]
    | claimsMessage h h2 =>
      subst h
      have h3 := h2
      unfold OwnForm at h3
      simp [claimsUrl, h3, Except.map]
    | claimsNothing h h2 => subst h; rcases h2 with rfl | rfl <;> simp [claimsUrl, Except.map]
    | @forms links _ _ _ h h2 h3 =>
      subst h
      cases links
      · exact bind_dep_ok.2 ⟨_, _, (each_iff env hn).1.2 h2, h3, rfl⟩
      · exact bind_dep_ok.2 ⟨_, _, (each_iff env hn).2.2 h2, h3, rfl⟩
    | moment h h2 => rcases h2 with h2 | ⟨_, h2⟩; exact absurd h2 notScalar; cases h2
    | notMoment h h2 => rcases h2 with h2 | ⟨_, h2⟩; exact absurd h2 notScalar; cases h2
    | scalar _ _ h2 => exact absurd h2 notScalar
    | list h h2 => rcases h with rfl | ⟨rfl, rfl⟩ <;> simp [serUrlList, h2, Except.map]

/-- **C177**, one parameter: it can be written exactly when there are texts for its value, and then the name stands in the form
once with each of them. -/
theorem C177_entry (env : SerEnv) (pos : Bool) (ps : Assoc Spec) (k : String) (v : Val) (hm : MessagesOnTop v) (hc : ∀ c d, v ≠ .msg c d)
    (r : List (String × String)) :
    urlPairs env pos ps k v = .ok r ↔
      ∃ ts, FormTexts env pos (serFor ps k) (nullFor ps k) v ts ∧ r = ts.map (fun t => (k, t)) := by
  have hn : (∀ l, v ≠ .list l) → noMsg v = true := by
    intro h
    rcases hm with (h2 | ⟨c, d, rfl⟩) | ⟨l, rfl, -⟩
    · exact h2
    · exact absurd rfl (hc c d)
    · exact absurd rfl (h l)
  have items : ∀ l, v = .list l → ∀ x ∈ l, PlainOrMessage x := by
    rintro l rfl x hx
    rcases hm with (h2 | ⟨c, d, h2⟩) | ⟨l', h2, h3⟩
    · refine .inl ?_
      have h2 : noMsgList l = true := h2
      clear hn hc
      induction l with
      | nil => cases hx
      | cons y l ih =>
        simp only [noMsgList, Bool.and_eq_true] at h2
        rcases List.mem_cons.1 hx with rfl | hx
        · exact h2.1
        · exact ih hx h2.2 h2.2
    · cases h2
    · cases h2; exact h3 x hx
  have other : IsScalar v ∨ (∃ d, v = .dict d) →
      ((serUrlOther env pos (serFor ps k) v).map (fun t => [(k, t)]) = .ok r ↔
        ∃ ts, FormTexts env pos (serFor ps k) (nullFor ps k) v ts ∧ r = ts.map (fun t => (k, t))) := by
    intro hv
    replace hn := hn (by rintro l rfl; rcases hv with (⟨_, h⟩ | ⟨_, h⟩ | ⟨_, h⟩) | ⟨_, h⟩ <;> cases h)
    rw [map_ok_iff]
    constructor
    · rintro ⟨t, h, rfl⟩; exact ⟨[t], (other_exact env pos _ _ hn hv _).1 ⟨t, h, rfl⟩, rfl⟩
    · rintro ⟨ts, h, rfl⟩
      obtain ⟨t, h2, rfl⟩ := (other_exact env pos _ _ hn hv _).2 h
      exact ⟨t, h2, rfl⟩
  cases v with
  | list l => exact list_exact env pos ps k l (items l rfl) r
  | msg c d => exact absurd rfl (hc c d)
  | none =>
    rw [urlPairs.eq_def]
    have nos : ¬ IsScalar .none := by rintro (⟨_, h⟩ | ⟨_, h⟩ | ⟨_, h⟩) <;> cases h
    constructor
    · intro h
      by_cases hb : nullFor ps k = true
      · simp only [hb, if_true] at h; cases h; exact ⟨_, .nullText hb, rfl⟩
      · simp only [hb, Bool.false_eq_true, if_false] at h; cases h; exact ⟨_, .null (by simpa using hb), rfl⟩
    · rintro ⟨ts, h, rfl⟩
      cases h with
      | null h => simp [h]
      | nullText h => simp [h]
      | json _ h => exact absurd rfl h
      | moment h h2 => rcases h2 with h2 | ⟨_, h2⟩; exact absurd h2 nos; cases h2
      | notMoment h h2 => rcases h2 with h2 | ⟨_, h2⟩; exact absurd h2 nos; cases h2
      | scalar _ _ h2 => exact absurd h2 nos
  | str x =>
    rw [urlPairs.eq_def]
    have nos : ¬ IsScalar (.str x) := by rintro (⟨_, h⟩ | ⟨_, h⟩ | ⟨_, h⟩) <;> cases h
    constructor
    · intro h; cases h; exact ⟨_, .text x, rfl⟩
    · rintro ⟨ts, h, rfl⟩
      cases h with
      | text => rfl
      | json _ _ h => cases h
      | moment h h2 => rcases h2 with h2 | ⟨_, h2⟩; exact absurd h2 nos; cases h2
      | notMoment h h2 => rcases h2 with h2 | ⟨_, h2⟩; exact absurd h2 nos; cases h2
      | scalar _ _ h2 => exact absurd h2 nos
  | bool x => rw [urlPairs.eq_def]; exact other (.inl (.inr (.inl ⟨_, rfl⟩)))
  | int x => rw [urlPairs.eq_def]; exact other (.inl (.inl ⟨_, rfl⟩))
  | flt x => rw [urlPairs.eq_def]; exact other (.inl (.inr (.inr ⟨_, rfl⟩)))
  | dict d => rw [urlPairs.eq_def]; exact other (.inr ⟨_, rfl⟩)

/-- what stands in a form for a message: the JSON text of what its writer makes of it; its Python text if there is no writer, or one for
JSON, or what is written has a message in it -/
def MessageForm (env : SerEnv) (s : Option Ser) (c : Cls) (d : Dict) (t : String) : Prop :=
  (∃ s' w, s = some s' ∧ WrittenValue env (some s') (.msg c d) w ∧
    (dumps w = .ok t ∨ (dumps w = .error .typeError ∧ MessageText env c d t))) ∨
  ((s = none ∨ s = some .json) ∧ MessageText env c d t)

/-- **C177**, a message inside the message: it stands as the JSON text of what its writer makes of it; as its Python text if there is
no writer, or one for JSON, or what is written has a message in it. -/
theorem C177_message (env : SerEnv) (pos : Bool) (ps : Assoc Spec) (k : String) (c : Cls) (d : Dict) (r : List (String × String)) :
    urlPairs env pos ps k (.msg c d) = .ok r ↔ ∃ t, r = [(k, t)] ∧ MessageForm env (serFor ps k) c d t := by
  unfold MessageForm
  have txt := pyStrOf_message env c d
  have undone : ∀ {e} {t}, toDict env c d = .error e → ¬ MessageText env c d t := by
    rintro e t h ⟨x, hx, -⟩
    rw [(toDict_written env c d x).2 hx] at h; cases h
  -- the writer fails with a `TypeError`: then the message cannot be written at all, unless the writer is the one for JSON
  have te : ∀ {s : Ser} {t : String}, serDict env (some s) (.msg c d) = .error .typeError → MessageText env c d t → s = .json := by
    intro s t h hm
    cases e1 : toDict env c d with
    | error e => exact absurd hm (undone e1)
    | ok x =>
      unfold serDict at h
      cases s <;> simp only [e1, Except.map, reduceCtorEq] at h <;> first | rfl | (cases h; done) | (split at h <;> cases h)
  rw [urlPairs.eq_def]
  simp only
  rw [map_ok_iff]
  constructor
  · rintro ⟨t, h, rfl⟩
    refine ⟨t, rfl, ?_⟩
    cases hs : serFor ps k with
    | none =>
      rw [hs] at h
      exact .inr ⟨.inl rfl, (txt t).1 h⟩
    | some s =>
      rw [hs] at h
      simp only [urlMsg] at h
      cases e1 : serDict env (some s) (.msg c d) with
      | ok w =>
        rw [e1] at h
        refine .inl ⟨s, w, rfl, (serDict_written env _ _ w).1 e1, ?_⟩
        cases e2 : dumps w with
        | ok a => simp only [e2] at h; cases h; exact .inl rfl
        | error e =>
          simp only [e2] at h
          cases e <;> first | exact .inr ⟨rfl, (txt t).1 h⟩ | cases h
      | error e =>
        rw [e1] at h
        cases e <;> first | (have hm := (txt t).1 h; exact .inr ⟨.inr (by rw [te e1 hm]), hm⟩) | cases h
  · rintro ⟨t, rfl, h⟩
    refine ⟨t, ?_, rfl⟩
    rcases h with ⟨s, w, hs, hw, h⟩ | ⟨hs | hs, h⟩
    · rw [hs]
      simp only [urlMsg, (serDict_written env _ _ w).2 hw]
      rcases h with h | ⟨h, h2⟩
      · rw [h]
      · rw [h]; exact (txt t).2 h2
    · rw [hs]; exact (txt t).2 h
    · rw [hs]
      have : serDict env (some .json) (.msg c d) = .error .typeError := by unfold serDict; rfl
      simp only [urlMsg, this]
      exact (txt t).2 h

/-- How a class writes what stands under a name, and whether null is written there: as declared for the name; if it is not declared,
as declared for the part of it before the first number sign; if that is not declared either, as declared for all names; and if
nothing is, without a writer and not null. -/
inductive WriteDecl (ps : Assoc Spec) (k : String) : Option Ser → Bool → Prop
  | name {sp : Spec} : dget ps k = some sp → WriteDecl ps k sp.ser sp.nullAllowed
  | base {sp : Spec} : dget ps k = none → dget ps (langBase k) = some sp → WriteDecl ps k sp.ser sp.nullAllowed
  | all {sp : Spec} : dget ps k = none → dget ps (langBase k) = none → dget ps "*" = some sp → WriteDecl ps k sp.ser sp.nullAllowed
  | undeclared : dget ps k = none → dget ps (langBase k) = none → dget ps "*" = none → WriteDecl ps k none false

theorem writeDecl_iff {ps : Assoc Spec} {k : String} {s : Option Ser} {b : Bool} :
    WriteDecl ps k s b ↔ s = serFor ps k ∧ b = nullFor ps k := by
  have self : WriteDecl ps k (serFor ps k) (nullFor ps k) := by
    unfold serFor nullFor lookupSpec
    cases h1 : dget ps k with
    | some sp => exact .name h1
    | none =>
      cases h2 : dget ps (langBase k) with
      | some sp => exact .base h1 h2
      | none =>
        cases h3 : dget ps "*" with
        | some sp => exact .all h1 h2 h3
        | none => exact .undeclared h1 h2 h3
  constructor
  · intro h
    cases h with
    | name h1 => simp [serFor, nullFor, lookupSpec, h1]
    | base h1 h2 => simp [serFor, nullFor, lookupSpec, h1, h2]
    | all h1 h2 h3 => simp [serFor, nullFor, lookupSpec, h1, h2, h3]
    | undeclared h1 h2 h3 => simp [serFor, nullFor, lookupSpec, h1, h2, h3]
  · rintro ⟨rfl, rfl⟩; exact self

/-- **C176**, the writer that is used for a name. -/
theorem C176_writer (env : SerEnv) (c : Cls) (k : String) (s : Option Ser) :
    env.ser c k = s ↔ ∃ b, WriteDecl (env.params c) k s b := by
  unfold SerEnv.ser
  constructor
  · rintro rfl; exact ⟨_, writeDecl_iff.2 ⟨rfl, rfl⟩⟩
  · rintro ⟨b, h⟩; exact (writeDecl_iff.1 h).1.symm

-- a name with a language tag, and one that is not declared
example : WriteDecl oidc_RegistrationRequest.params "contacts#de" (some .list) false := by
  rw [writeDecl_iff]; decide +kernel
example : WriteDecl oidc_RegistrationRequest.params "x" none false := .undeclared (by decide +kernel) (by decide +kernel) (by decide +kernel)

/-- the parameters of the form, in turn -/
inductive FormPairs (env : SerEnv) (pos : Bool) (ps : Assoc Spec) : List (String × Val) → List (String × String) → Prop
  | nil : FormPairs env pos ps [] []
  | value {k : String} {v : Val} {s : Option Ser} {b : Bool} {ts : List String} {st : List (String × Val)} {r : List (String × String)} :
      (∀ c d, v ≠ .msg c d) → WriteDecl ps k s b → FormTexts env pos s b v ts → FormPairs env pos ps st r →
      FormPairs env pos ps ((k, v) :: st) (ts.map (fun t => (k, t)) ++ r)
  | message {k : String} {c : Cls} {d : Dict} {s : Option Ser} {b : Bool} {t : String} {st : List (String × Val)}
      {r : List (String × String)} : WriteDecl ps k s b → MessageForm env s c d t → FormPairs env pos ps st r → FormPairs env pos ps ((k, .msg c d) :: st) ((k, t) :: r)

theorem formPairs_iff (env : SerEnv) (pos : Bool) (sch : Schema) : ∀ {st : List (String × Val)}, (∀ p ∈ st, MessagesOnTop p.2) →
    ∀ r, urlPairsAll env pos sch.params st = .ok r ↔ FormPairs env pos sch.params st r := by
  intro st
  induction st with
  | nil =>
    intro _ r
    rw [urlPairsAll.eq_def]
    constructor
    · intro h; cases h; exact .nil
    · intro h; cases h; rfl
  | cons p st ih =>
    obtain ⟨k, v⟩ := p
    intro hn r
    have hv := hn _ (List.mem_cons_self ..)
    replace ih := ih (fun p hp => hn p (List.mem_cons_of_mem _ hp))
    rw [urlPairsAll.eq_def]
    simp only
    rw [bind2_ok]
    constructor
    · rintro ⟨a, b, h1, h2, rfl⟩
      by_cases hc : ∃ c d, v = .msg c d
      · obtain ⟨c, d, rfl⟩ := hc
        obtain ⟨t, rfl, h3⟩ := (C177_message env _ _ k c d a).1 h1
        exact .message (writeDecl_iff.2 ⟨rfl, rfl⟩) h3 ((ih b).1 h2)
      · have hc : ∀ c d, v ≠ .msg c d := fun c d h => hc ⟨c, d, h⟩
        obtain ⟨ts, h3, rfl⟩ := (C177_entry env pos _ k v hv hc a).1 h1
        exact .value hc (writeDecl_iff.2 ⟨rfl, rfl⟩) h3 ((ih b).1 h2)
    · intro h
      cases h with
      | value hc hd h1 h2 =>
        obtain ⟨rfl, rfl⟩ := writeDecl_iff.1 hd
        exact ⟨_, _, (C177_entry env pos _ k v hv hc _).2 ⟨_, h1, rfl⟩, (ih _).2 h2, rfl⟩
      | message hd h1 h2 =>
        obtain ⟨rfl, rfl⟩ := writeDecl_iff.1 hd
        exact ⟨_, _, (C177_message env _ _ k _ _ _).2 ⟨_, rfl, h1⟩, (ih _).2 h2, rfl⟩

/-- **C177**, at any level (`pos`: it is positive): a message in which other messages are values of parameters or items of lists can be
written as a form exactly when its required parameters are there and there are texts for each value; the form is the encoding of
these, under their names and in their order. -/
theorem C177_level (env : SerEnv) (pos : Bool) (sch : Schema) (st : Dict) (hn : ∀ p ∈ st, MessagesOnTop p.2) (txt : String) :
    urlFinish env sch.cls sch.params st (urlPairsAll env pos sch.params st) = .ok txt ↔
      ¬ RequiredMissing sch st ∧ ∃ r, FormPairs env pos sch.params st r ∧ txt = urlencode r := by
  unfold urlFinish
  by_cases hm : sch.params.any (fun p => p.2.required && !dhas st p.1) = true
  · have hm' := (anyMissing_iff _ _).1 hm
    simp only [hm, if_true, hm', not_true_eq_false, false_and, iff_false]
    unfold raiseMissing
    split <;> simp
  · have hm' : ¬ RequiredMissing sch st := fun h => hm ((anyMissing_iff _ _).2 h)
    simp only [hm, Bool.false_eq_true, if_false, hm', not_false_eq_true, true_and]
    rw [map_ok_iff]
    constructor
    · rintro ⟨r, h, rfl⟩; exact ⟨r, (formPairs_iff env pos sch hn r).1 h, rfl⟩
    · rintro ⟨r, h, rfl⟩; exact ⟨r, (formPairs_iff env pos sch hn r).2 h, rfl⟩

/-- **C177.**  The form that `to_urlencoded()` gives. -/
theorem C177_form (env : SerEnv) (sch : Schema) (st : Dict) (hn : ∀ p ∈ st, MessagesOnTop p.2) (txt : String) :
    toUrlencoded env sch st = .ok txt ↔
      ¬ RequiredMissing sch st ∧ ∃ r, FormPairs env false sch.params st r ∧ txt = urlencode r :=
  C177_level env false sch st hn txt

/-- **C177**, lax messages: only the texts are needed, whatever is missing. -/
theorem C177_lax (env : SerEnv) (sch : Schema) (st : Dict) (hn : ∀ p ∈ st, MessagesOnTop p.2) (txt : String) :
    toUrlencodedWith true env sch st = .ok txt ↔ ∃ r, FormPairs env false sch.params st r ∧ txt = urlencode r := by
  unfold toUrlencodedWith
  rw [if_pos rfl, map_ok_iff]
  constructor
  · rintro ⟨r, h, rfl⟩; exact ⟨r, (formPairs_iff env false sch hn r).1 h, rfl⟩
  · rintro ⟨r, h, rfl⟩; exact ⟨r, (formPairs_iff env false sch hn r).2 h, rfl⟩

-- an authorization request without its client
example : toUrlencodedWith true libEnv oauth2_AuthorizationRequest [("response_type", .list [.str "code"])] = .ok "response_type=code" ∧
    toUrlencoded libEnv oauth2_AuthorizationRequest [("response_type", .list [.str "code"])] = .error .missingRequiredAttribute := by
  constructor <;> decide +kernel

/-- **C177**, the form of a message that is an item of a list, in which it is written by itself. -/
theorem C177_own (env : SerEnv) (pos : Bool) (sch : Schema) (hs : env.params sch.cls = sch.params) (d : Dict)
    (hn : ∀ p ∈ d, MessagesOnTop p.2) (txt : String) :
    OwnForm env pos sch.cls d txt ↔ ¬ RequiredMissing sch d ∧ ∃ r, FormPairs env pos sch.params d r ∧ txt = urlencode r := by
  unfold OwnForm
  rw [hs]
  exact C177_level env pos sch d hn txt

example : libEnv.params oidc_Link.cls = oidc_Link.params := by rfl

-- an object in a parameter that is declared as one: JSON in the message itself, the Python text at a higher level
example : FormTexts libEnv false (some .msgJson) false (.dict [("a", .int 1)]) ["{\"a\": 1}"] ∧
    FormTexts libEnv true (some .msgJson) false (.dict [("a", .int 1)]) ["{'a': 1}"] :=
  ⟨.object rfl rfl (by decide +kernel), .dict (by simp) (by decide +kernel)⟩

-- a request whose scope is a list, with a number and a null beside it; and one whose scope holds a number
example : ∃ r, FormPairs libEnv false oauth2_AuthorizationRequest.params
    [("response_type", .list [.str "code", .str "token"]), ("client_id", .str "c"), ("n", .int 5), ("state", .none)] r ∧
    urlencode r = "response_type=code+token&client_id=c&n=5" := by
  obtain ⟨-, r, h1, h2⟩ := (C177_form libEnv oauth2_AuthorizationRequest
    [("response_type", .list [.str "code", .str "token"]), ("client_id", .str "c"), ("n", .int 5), ("state", .none)] (fun p hp => .inl (.inl (by revert p; decide +kernel)))
    "response_type=code+token&client_id=c&n=5").1 (by decide +kernel)
  exact ⟨r, h1, h2.symm⟩
example : toUrlencoded libEnv oauth2_AuthorizationRequest
    [("response_type", .list [.str "code", .int 1]), ("client_id", .str "c")] = .error .typeError := by decide +kernel

example : toUrlencoded libEnv oidc_AuthorizationRequest
    [("response_type", .list [.str "code"]), ("client_id", .str "c"), ("scope", .list [.str "openid"]), ("redirect_uri", .str "r"),
      ("claims", .msg oidc_ClaimsRequest.cls [("userinfo", .msg oidc_Claims.cls [("a", .none)])])] =
    .ok "response_type=code&client_id=c&scope=openid&redirect_uri=r&claims=%7B%22userinfo%22%3A+%7B%22a%22%3A+null%7D%7D" := by
  decide +kernel

-- a list of links: a link, a dict and a text
example : ∃ r, FormPairs libEnv false oidc_JRD.params
    [("links", .list [.msg linkCls [("rel", .str "a"), ("href", .str "b")], .dict [("rel", .str "c")], .str "d"])] r ∧
    urlencode r = "links=%5B%27rel%3Da%26href%3Db%27%2C+%27rel%3Dc%27%2C+%27d%27%5D" := by
  obtain ⟨-, r, h1, h2⟩ := (C177_form libEnv oidc_JRD
    [("links", .list [.msg linkCls [("rel", .str "a"), ("href", .str "b")], .dict [("rel", .str "c")], .str "d"])]
    (by
      intro p hp
      obtain rfl := List.mem_singleton.1 hp
      refine .inr ⟨_, rfl, ?_⟩
      intro x hx
      simp only [List.mem_cons, List.not_mem_nil, or_false] at hx
      rcases hx with rfl | rfl | rfl
      · exact .inr ⟨_, _, rfl⟩
      · exact .inl rfl
      · exact .inl rfl)
    "links=%5B%27rel%3Da%26href%3Db%27%2C+%27rel%3Dc%27%2C+%27d%27%5D").1 (by decide +kernel)
  exact ⟨r, h1, h2.symm⟩

end Verif
