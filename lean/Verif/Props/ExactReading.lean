import Verif.Props.RefusedTokens
import Verif.Props.JsonIndent

/-!
# Exactly which data is read as a message, and what the message then holds: C174
-/

namespace Verif

/-- the kinds of simple parameters: a text, a number, a truth value, a list of words, a list of words with spaces between, a token (a
message without a reader), and a value of the type `t` for which there is a reader -/
inductive ParamKind where
  | text | number | truth | words | spaced | token
  | read (t : Ty) (reader : Val → Fmt → Res Val)

/-- the declaration is of this kind; null is not allowed in lists -/
def SpecKind (sp : Spec) : ParamKind → Prop
  | .text => sp.vtyp = .single .str ∧ sp.deser = none ∧ sp.nullAllowed = false
  | .number => sp.vtyp = .single .int ∧ sp.deser = none ∧ sp.nullAllowed = false
  | .truth => sp.vtyp = .single .bool ∧ sp.deser = none ∧ sp.nullAllowed = false
  | .words => sp.vtyp = .list .str ∧ sp.deser = some listDeser ∧ sp.nullAllowed = false
  | .spaced => sp.vtyp = .list .str ∧ sp.deser = some spSepDeser ∧ sp.nullAllowed = false
  | .token => sp.vtyp = .single messageTy ∧ sp.deser = none ∧ sp.nullAllowed = false
  | .read t f => (sp.vtyp = .single t ∧ t ≠ .bool) ∧ sp.deser = some f ∧ sp.nullAllowed = false

/-- a list that no parameter stores: the empty one, and one that begins with a null -/
def Overlooked (v : Val) : Prop := v = .list [] ∨ ∃ l, v = .list (.none :: l)

/-- the value is `True` or `False` -/
def Val.isTruth : Val → Bool
  | .bool _ => true
  | _ => false

/-- the values without content -/
def EmptyText (v : Val) : Prop := v = .str "" ∨ v = .list [.str ""]

/-- The parameter of this kind takes the value and then holds the other one (`none`: what it held before). -/
inductive ParamKind.Takes : ParamKind → Val → Option Val → Prop
  | overlooked (kd : ParamKind) {v : Val} : Overlooked v → kd.Takes v none
  | textNull : ParamKind.text.Takes .none (some .none)
  | text (s : String) : ParamKind.text.Takes (.str s) (some (.str s))
  | numberNull : ParamKind.number.Takes .none (some .none)
  | number (i : Int) : ParamKind.number.Takes (.int i) (some (.int i))
  /-- a float is cut off at the point -/
  | float (q : Rat) : ParamKind.number.Takes (.flt q) (some (.int (Int.tdiv q.num q.den)))
  /-- a numeral stands for its number -/
  | numeral {s : String} {i : Int} : pyIntOfString s = some i → ParamKind.number.Takes (.str s) (some (.int i))
  | truthNull : ParamKind.truth.Takes .none (some .none)
  | truth (b : Bool) : ParamKind.truth.Takes (.bool b) (some (.bool b))
  | tokenNull : ParamKind.token.Takes .none (some .none)
  | tokenText (s : String) : ParamKind.token.Takes (.str s) (some (.str s))
  | tokenDict (d : Dict) : ParamKind.token.Takes (.dict d) (some (.dict d))
  | tokenMsg (c : Cls) (d : Dict) : ParamKind.token.Takes (.msg c d) (some (.msg c d))
  /-- a text is cut at every space -/
  | wordsText (s : String) : ParamKind.words.Takes (.str s) (some (.list ((pySplit ' ' s).map .str)))
  | wordsList {l : List Val} : l ≠ [] → (∀ v ∈ l, ∃ s, v = .str s) → ParamKind.words.Takes (.list l) (some (.list l))
  /-- a dict is not looked at -/
  | wordsDict (d : Dict) : ParamKind.words.Takes (.dict d) (some (.dict d))
  | spacedText (s : String) : ParamKind.spaced.Takes (.str s) (some (.list ((pySplit ' ' s).map .str)))
  /-- a list with a single text is taken like the text -/
  | spacedSingle (s : String) : ParamKind.spaced.Takes (.list [.str s]) (some (.list ((pySplit ' ' s).map .str)))
  | spacedList {l : List Val} : 2 ≤ l.length → (∀ v ∈ l, ∃ s, v = .str s) → ParamKind.spaced.Takes (.list l) (some (.list l))
  | spacedDict (d : Dict) : ParamKind.spaced.Takes (.dict d) (some (.dict d))
  | readNull (t : Ty) (f : Val → Fmt → Res Val) : (ParamKind.read t f).Takes .none (some .none)
  /-- a value of the type is taken as it is -/
  | readValue {t : Ty} {f : Val → Fmt → Res Val} {v : Val} : v.isTruth = false → t.isInst v = true → (ParamKind.read t f).Takes v (some v)
  /-- of another one, what the reader makes of it -/
  | readOther {t : Ty} {f : Val → Fmt → Res Val} {v w : Val} : ¬ Overlooked v → v ≠ .none → v.isTruth = false → t.isInst v = false →
      f v .dict = .ok w → (ParamKind.read t f).Takes v (some w)

/-- the message afterwards -/
def holding (st : Dict) (k : String) : Option Val → Dict
  | none => st
  | some w => dset st k w

theorem all_str_iff (l : List Val) : l.all (fun v => Ty.str.isInst v) = true ↔ ∀ v ∈ l, ∃ s, v = .str s := by
  rw [List.all_eq_true]
  constructor
  · intro h v hv
    have := h v hv
    cases v <;> simp [Ty.isInst] at this
    exact ⟨_, rfl⟩
  · intro h v hv
    obtain ⟨s, rfl⟩ := h v hv
    rfl

theorem ignored_iff {sp : Spec} (hn : sp.nullAllowed = false) (v : Val) : ignoredList sp v = true ↔ Overlooked v := by
  unfold Overlooked
  cases v with
  | list l =>
    cases l with
    | nil => simp [ignoredList, hn]
    | cons x l => cases x <;> simp [ignoredList, hn, Val.isNone]
  | _ => simp [ignoredList]

theorem overlooked_takes {kd : ParamKind} {v : Val} (h : Overlooked v) {o : Option Val} (ht : kd.Takes v o) : o = none := by
  rcases h with rfl | ⟨l, rfl⟩
  · cases ht with
    | overlooked => rfl
    | wordsList h => exact absurd rfl h
    | spacedList h => simp at h
    | @readValue t _ _ _ h => cases t <;> cases h
    | readOther h => exact absurd (.inl rfl) h
  · cases ht with
    | overlooked => rfl
    | wordsList _ h => obtain ⟨s, e⟩ := h .none (List.mem_cons_self ..); cases e
    | spacedList _ h => obtain ⟨s, e⟩ := h .none (List.mem_cons_self ..); cases e
    | @readValue t _ _ _ h => cases t <;> cases h
    | readOther h => exact absurd (.inr ⟨l, rfl⟩) h

/-- of a value that is not overlooked: what a single-valued parameter stores -/
theorem single_exact {sp : Spec} {t : Ty} {kd : ParamKind} (hd : sp.deser = none)
    (hk : (t = .str ∧ kd = .text) ∨ (t = .int ∧ kd = .number) ∨ (t = .bool ∧ kd = .truth) ∨ (t = messageTy ∧ kd = .token))
    {v : Val} (hv : ¬ Overlooked v) (w : Val) :
    singleValue t sp v = .ok w ↔ kd.Takes v (some w) := by
  constructor
  · intro h
    rcases hk with ⟨rfl, rfl⟩ | ⟨rfl, rfl⟩ | ⟨rfl, rfl⟩ | ⟨rfl, rfl⟩ <;> cases v <;>
      simp [singleValue, hd, Ty.isInst, coerceSingle, pyInt, messageTy, messageSchema] at h
    all_goals first
      | (subst h; first | exact .textNull | exact .text _ | exact .numberNull | exact .number _ | exact .float _ |
          exact .truthNull | exact .truth _ | exact .tokenNull | exact .tokenText _ | exact .tokenDict _ | exact .tokenMsg _ _)
      | skip
    split at h
    · next i hi => cases h; exact .numeral hi
    · cases h
  · intro h
    cases h <;> rcases hk with ⟨rfl, hk⟩ | ⟨rfl, hk⟩ | ⟨rfl, hk⟩ | ⟨rfl, hk⟩ <;> (try cases hk) <;>
      simp_all [singleValue, Ty.isInst, coerceSingle, pyInt, messageTy, messageSchema]

/-- of a value that is not overlooked: what a single-valued parameter with a reader stores -/
theorem read_exact {sp : Spec} {t : Ty} {f : Val → Fmt → Res Val} (hd : sp.deser = some f) (ht : t ≠ .bool) {v : Val}
    (hv : ¬ Overlooked v) (w : Val) : singleValue t sp v = .ok w ↔ (ParamKind.read t f).Takes v (some w) := by
  have dec : ∀ (r : Res Val), orDecodeError r = .ok w ↔ r = .ok w := by
    intro r
    cases r with
    | ok a => simp [orDecodeError]
    | error e => cases e <;> simp [orDecodeError]
  have other : v ≠ .none → v.isTruth = false → singleValue t sp v = if t.isInst v then .ok v else orDecodeError (f v .dict) := by
    intro h1 h2
    cases v with
    | none => exact absurd rfl h1
    | bool b => cases h2
    | _ => simp only [singleValue, hd]
  constructor
  · intro h
    by_cases h1 : v = .none
    · subst h1; cases h; exact .readNull t f
    · cases h2 : v.isTruth with
      | true =>
        cases v with
        | bool b => cases t <;> simp_all [singleValue]
        | _ => cases h2
      | false =>
        rw [other h1 h2] at h
        split at h
        · next hi => cases h; exact .readValue h2 hi
        · next hi => exact .readOther hv h1 h2 (by simpa using hi) ((dec _).1 h)
  · intro h
    cases h with
    | readNull => rfl
    | readValue h2 hi => rw [other (by rintro rfl; cases t <;> cases hi) h2, if_pos hi]
    | readOther _ h1 h2 hi hf => rw [other h1 h2, if_neg (by simp [hi])]; exact (dec _).2 hf

/-- of a value that is not overlooked: what a parameter with a list of words stores -/
theorem words_exact {sp : Spec} {kd : ParamKind} (hn : sp.nullAllowed = false)
    (hk : (sp.deser = some listDeser ∧ kd = .words) ∨ (sp.deser = some spSepDeser ∧ kd = .spaced))
    {v : Val} (hv : ¬ Overlooked v) (st : Dict) (k : String) (st' : Dict) :
    addToList .str sp st k v = .ok st' ↔ ∃ w, kd.Takes v (some w) ∧ st' = dset st k w := by
  have hlist : ∀ l : List Val, checkItems .str (.list l) = .ok (.list l) ↔ ∀ v ∈ l, ∃ s, v = .str s := by
    intro l
    rw [← all_str_iff]
    simp only [checkItems, Val.iter, bind, Except.bind]
    split <;> simp_all
  have hlist' : ∀ (l : List Val) w, checkItems .str (.list l) = .ok w → w = .list l := by
    intro l w h
    simp only [checkItems, Val.iter, bind, Except.bind] at h
    split at h
    · cases h; rfl
    · cases h
  constructor
  · intro h
    rcases hk with ⟨hd, rfl⟩ | ⟨hd, rfl⟩
    · cases v with
      | none => simp [addToList, Val.isNone, hn] at h
      | str s =>
        simp [addToList, Val.isNone, Ty.isInst, hd, listDeser, orDecodeError] at h
        exact ⟨_, .wordsText s, h.symm⟩
      | dict d =>
        simp [addToList, Val.isNone, Ty.isInst, hd, listDeser, orDecodeError] at h
        exact ⟨_, .wordsDict d, h.symm⟩
      | list l =>
        simp only [addToList, Val.isNone, Ty.isInst, Bool.false_eq_true, if_false, addListOfList, deserList, hd, listDeser,
          orDecodeError, bind, Except.bind, reduceCtorEq] at h
        split at h
        · next w hw =>
          cases h
          have := hlist' _ _ hw; subst this
          exact ⟨_, .wordsList (fun e => hv (.inl (by rw [e]))) ((hlist l).1 hw), rfl⟩
        · cases h
      | _ => simp [addToList, Val.isNone, Ty.isInst] at h
    · cases v with
      | none => simp [addToList, Val.isNone, hn] at h
      | str s =>
        simp [addToList, Val.isNone, Ty.isInst, hd, spSepDeser, orDecodeError] at h
        exact ⟨_, .spacedText s, h.symm⟩
      | dict d =>
        simp [addToList, Val.isNone, Ty.isInst, hd, spSepDeser, orDecodeError] at h
        exact ⟨_, .spacedDict d, h.symm⟩
      | list l =>
        match l, hv, h with
        | [], hv, _ => exact absurd (.inl rfl) hv
        | [x], _, h =>
          cases x with
          | str s =>
            have hw : checkItems .str (.list ((pySplit ' ' s).map .str)) = .ok (.list ((pySplit ' ' s).map .str)) :=
              (hlist _).2 (by simp)
            simp only [addToList, Val.isNone, Ty.isInst, Bool.false_eq_true, if_false, addListOfList, deserList, hd, spSepDeser,
              splitItem, orDecodeError, bind, Except.bind, hw, ok_ok] at h
            exact ⟨_, .spacedSingle s, h.symm⟩
          | _ => simp [addToList, Val.isNone, Ty.isInst, addListOfList, deserList, hd, spSepDeser, splitItem, orDecodeError, bind,
              Except.bind] at h
        | x :: y :: l, _, h =>
          simp only [addToList, Val.isNone, Ty.isInst, Bool.false_eq_true, if_false, addListOfList, deserList, hd, spSepDeser,
            orDecodeError, bind, Except.bind] at h
          split at h
          · next w hw =>
            cases h
            have := hlist' _ _ hw; subst this
            exact ⟨_, .spacedList (by simp) ((hlist _).1 hw), rfl⟩
          · cases h
      | _ => simp [addToList, Val.isNone, Ty.isInst] at h
  · rintro ⟨w, h, rfl⟩
    rcases hk with ⟨hd, rfl⟩ | ⟨hd, rfl⟩
    · cases h with
      | wordsText s => simp [addToList, Val.isNone, Ty.isInst, hd, listDeser, orDecodeError]
      | wordsDict d => simp [addToList, Val.isNone, Ty.isInst, hd, listDeser, orDecodeError]
      | wordsList h1 h2 =>
        simp [addToList, Val.isNone, Ty.isInst, addListOfList, deserList, hd, listDeser, orDecodeError, bind, Except.bind, (hlist _).2 h2]
    · cases h with
      | spacedText s => simp [addToList, Val.isNone, Ty.isInst, hd, spSepDeser, orDecodeError]
      | spacedDict d => simp [addToList, Val.isNone, Ty.isInst, hd, spSepDeser, orDecodeError]
      | spacedSingle s =>
        have hw : checkItems .str (.list ((pySplit ' ' s).map .str)) = .ok (.list ((pySplit ' ' s).map .str)) :=
          (hlist _).2 (by simp)
        simp [addToList, Val.isNone, Ty.isInst, addListOfList, deserList, hd, spSepDeser, splitItem, orDecodeError, bind, Except.bind, hw]
      | @spacedList l h1 h2 =>
        match l, h1, h2 with
        | x :: y :: l, _, h2 =>
          simp [addToList, Val.isNone, Ty.isInst, addListOfList, deserList, hd, spSepDeser, orDecodeError, bind, Except.bind,
            (hlist _).2 h2]

theorem addValue_exact {sp : Spec} {kd : ParamKind} (hk : SpecKind sp kd) (st : Dict) (k : String) (v : Val) (st' : Dict) :
    addValue sp st k v = .ok st' ↔ ∃ o, kd.Takes v o ∧ st' = holding st k o := by
  have hn : sp.nullAllowed = false := by cases kd <;> exact hk.2.2
  by_cases ho : Overlooked v
  · simp only [addValue, (ignored_iff hn v).2 ho, if_true, ok_ok]
    constructor
    · rintro rfl; exact ⟨none, .overlooked _ ho, rfl⟩
    · rintro ⟨o, ht, rfl⟩
      rw [overlooked_takes ho ht]; rfl
  · have hi : ignoredList sp v = false := by
      cases h : ignoredList sp v with
      | false => rfl
      | true => exact absurd ((ignored_iff hn v).1 h) ho
    have some_only : ∀ o, kd.Takes v o → ∃ w, o = some w := by
      intro o ht
      cases ht with
      | overlooked _ h => exact absurd h ho
      | _ => exact ⟨_, rfl⟩
    have fin : (∃ o, kd.Takes v o ∧ st' = holding st k o) ↔ ∃ w, kd.Takes v (some w) ∧ st' = dset st k w := by
      constructor
      · rintro ⟨o, ht, rfl⟩
        obtain ⟨w, rfl⟩ := some_only o ht
        exact ⟨w, ht, rfl⟩
      · rintro ⟨w, ht, rfl⟩; exact ⟨some w, ht, rfl⟩
    rw [fin]
    have single : ∀ t, sp.vtyp = .single t → sp.deser = none →
        ((t = .str ∧ kd = .text) ∨ (t = .int ∧ kd = .number) ∨ (t = .bool ∧ kd = .truth) ∨ (t = messageTy ∧ kd = .token)) →
        (addValue sp st k v = .ok st' ↔ ∃ w, kd.Takes v (some w) ∧ st' = dset st k w) := by
      intro t ht hd hkd
      simp only [addValue, hi, ht, Bool.false_eq_true, if_false, ← single_exact hd hkd ho]
      cases singleValue t sp v with
      | error e => simp
      | ok w => simp only [ok_ok, exists_eq_left']; exact ⟨Eq.symm, Eq.symm⟩
    have read : ∀ t f, kd = .read t f → (addValue sp st k v = .ok st' ↔ ∃ w, kd.Takes v (some w) ∧ st' = dset st k w) := by
      rintro t f rfl
      simp only [addValue, hi, hk.1.1, Bool.false_eq_true, if_false, ← read_exact hk.2.1 hk.1.2 ho]
      cases singleValue t sp v with
      | error e => simp
      | ok w => simp only [ok_ok, exists_eq_left']; exact ⟨Eq.symm, Eq.symm⟩
    have list : sp.vtyp = .list .str →
        ((sp.deser = some listDeser ∧ kd = .words) ∨ (sp.deser = some spSepDeser ∧ kd = .spaced)) →
        (addValue sp st k v = .ok st' ↔ ∃ w, kd.Takes v (some w) ∧ st' = dset st k w) := by
      intro ht hkd
      simp only [addValue, hi, ht, Bool.false_eq_true, if_false]
      exact words_exact hn hkd ho st k st'
    cases kd with
    | text => exact single _ hk.1 hk.2.1 (.inl ⟨rfl, rfl⟩)
    | number => exact single _ hk.1 hk.2.1 (.inr (.inl ⟨rfl, rfl⟩))
    | truth => exact single _ hk.1 hk.2.1 (.inr (.inr (.inl ⟨rfl, rfl⟩)))
    | token => exact single _ hk.1 hk.2.1 (.inr (.inr (.inr ⟨rfl, rfl⟩)))
    | read t f => exact read t f rfl
    | words => exact list hk.1 (.inl ⟨hk.2.1, rfl⟩)
    | spaced => exact list hk.1 (.inr ⟨hk.2.1, rfl⟩)

/-- the class declares the parameter, or the one without the language tag, this way -/
def DeclaredSpec (sch : Schema) (k : String) (sp : Spec) : Prop :=
  dget sch.params k = some sp ∨ dget sch.params k = none ∧ dget sch.params (langBase k) = some sp

/-- a class with simple parameters only, and none for all other names -/
def SimpleClass (sch : Schema) : Prop := dget sch.params "*" = none ∧ ∀ k sp, (k, sp) ∈ sch.params → ∃ kd, SpecKind sp kd

/-- The message of the class takes the value under the name, and then holds the other one there (`none`: what it held before). -/
def TakenAs (sch : Schema) (k : String) (v : Val) (o : Option Val) : Prop :=
  (EmptyText v ∧ o = none) ∨
  ¬ EmptyText v ∧
    (((∀ sp, ¬ DeclaredSpec sch k sp) ∧ o = some v) ∨ ∃ sp kd, DeclaredSpec sch k sp ∧ SpecKind sp kd ∧ kd.Takes v o)

/-- reading the members one after the other -/
inductive ReadInTurn (sch : Schema) : Dict → List (String × Val) → Dict → Prop
  | nil (st : Dict) : ReadInTurn sch st [] st
  | cons {st st' : Dict} {k : String} {v : Val} {o : Option Val} {d : List (String × Val)} :
      TakenAs sch k v o → ReadInTurn sch (holding st k o) d st' → ReadInTurn sch st ((k, v) :: d) st'

theorem blank_empty (v : Val) : isBlank v = true ↔ EmptyText v := by
  unfold EmptyText
  cases v with
  | str s => simp [isBlank]
  | list l =>
    match l with
    | [] => simp [isBlank]
    | [x] => cases x <;> simp [isBlank]
    | x :: y :: l => simp [isBlank]
  | _ => simp [isBlank]

/-- **C174, one member.** -/
theorem C174_item {sch : Schema} (hs : SimpleClass sch) (st : Dict) (k : String) (v : Val) (st' : Dict) :
    addItem sch st k v = .ok st' ↔ ∃ o, TakenAs sch k v o ∧ st' = holding st k o := by
  unfold addItem
  by_cases hb : isBlank v = true
  · rw [if_pos hb, ok_ok]
    have he := (blank_empty v).1 hb
    constructor
    · rintro rfl; exact ⟨none, .inl ⟨he, rfl⟩, rfl⟩
    · rintro ⟨o, ⟨-, rfl⟩ | ⟨hne, -⟩, rfl⟩
      · rfl
      · exact absurd he hne
  · rw [if_neg hb]
    have he : ¬ EmptyText v := fun h => hb ((blank_empty v).2 h)
    have red : ∀ o, TakenAs sch k v o ↔
        (((∀ sp, ¬ DeclaredSpec sch k sp) ∧ o = some v) ∨ ∃ sp kd, DeclaredSpec sch k sp ∧ SpecKind sp kd ∧ kd.Takes v o) :=
      fun o => ⟨fun h => h.elim (fun h => absurd h.1 he) (·.2), fun h => .inr ⟨he, h⟩⟩
    have declared : ∀ sp, lookupSpec sch.params k = some (false, sp) → DeclaredSpec sch k sp → (k' : String) → (k', sp) ∈ sch.params →
        (∀ sp', DeclaredSpec sch k sp' → sp' = sp) →
        (addValue sp st k v = .ok st' ↔ ∃ o, TakenAs sch k v o ∧ st' = holding st k o) := by
      intro sp _ hd k' hm huniq
      obtain ⟨kd, hkd⟩ := hs.2 k' sp hm
      rw [addValue_exact hkd]
      constructor
      · rintro ⟨o, ht, rfl⟩
        exact ⟨o, (red o).2 (.inr ⟨sp, kd, hd, hkd, ht⟩), rfl⟩
      · rintro ⟨o, ht, rfl⟩
        rcases (red o).1 ht with ⟨h, -⟩ | ⟨sp', kd', h1, h2, h3⟩
        · exact absurd hd (h sp)
        · rw [huniq sp' h1] at h2
          exact (addValue_exact hkd ..).1 ((addValue_exact h2 st k v _).2 ⟨o, h3, rfl⟩)
    cases h1 : dget sch.params k with
    | some sp =>
      have hl : lookupSpec sch.params k = some (false, sp) := by simp [lookupSpec, h1]
      rw [hl]
      simp only [Bool.false_and, Bool.false_eq_true, if_false]
      refine declared sp hl (.inl h1) k (dget_mem h1) ?_
      rintro sp' (h | ⟨h, -⟩)
      · rw [h1] at h; cases h; rfl
      · rw [h1] at h; cases h
    | none =>
      cases h2 : dget sch.params (langBase k) with
      | some sp =>
        have hl : lookupSpec sch.params k = some (false, sp) := by simp [lookupSpec, h1, h2]
        rw [hl]
        simp only [Bool.false_and, Bool.false_eq_true, if_false]
        refine declared sp hl (.inr ⟨h1, h2⟩) _ (dget_mem h2) ?_
        rintro sp' (h | ⟨-, h⟩)
        · rw [h1] at h; cases h
        · rw [h2] at h; cases h; rfl
      | none =>
        have hl : lookupSpec sch.params k = none := by simp [lookupSpec, h1, h2, hs.1]
        rw [hl]
        simp only [ok_ok]
        have hno : ∀ sp, ¬ DeclaredSpec sch k sp := by
          rintro sp (h | ⟨-, h⟩)
          · rw [h1] at h; cases h
          · rw [h2] at h; cases h
        constructor
        · rintro rfl; exact ⟨some v, (red _).2 (.inl ⟨hno, rfl⟩), rfl⟩
        · rintro ⟨o, ht, rfl⟩
          rcases (red o).1 ht with ⟨-, rfl⟩ | ⟨sp, kd, h, -⟩
          · rfl
          · exact absurd h (hno sp)

/-- **C174.**  An object is read as a message of a class with simple parameters exactly when each of its members is taken by the
parameter of its name; the message holds what the parameters made of the members. -/
theorem C174_from_dict {sch : Schema} (hs : SimpleClass sch) (st : Dict) (d : List (String × Val)) (st' : Dict) :
    fromDictR sch st d = .ok st' ↔ ReadInTurn sch st d st' := by
  have key : ∀ (d : List (String × Val)) (st : Dict), fromDict sch st d = (st', none) ↔ ReadInTurn sch st d st' := by
    intro d
    induction d with
    | nil =>
      intro st
      simp only [fromDict, Prod.mk.injEq, and_true]
      exact ⟨fun h => h ▸ .nil st, fun h => by cases h; rfl⟩
    | cons p d ih =>
      intro st
      obtain ⟨k, v⟩ := p
      simp only [fromDict]
      constructor
      · intro h
        split at h
        · cases h
        · next st₁ ha =>
          obtain ⟨o, ht, rfl⟩ := (C174_item hs ..).1 ha
          exact .cons ht ((ih _).1 h)
      · intro h
        cases h with
        | @cons _ _ _ _ o _ ht hr =>
          rw [(C174_item hs st k v _).2 ⟨o, ht, rfl⟩]
          exact (ih _).2 hr
  rw [← key]
  unfold fromDictR
  split
  · next s h => simp [h]
  · next s e h => simp [h]

/-- **C174, whether.**  It can be read if and only if every member is taken. -/
theorem C174_readable {sch : Schema} (hs : SimpleClass sch) (st : Dict) (d : List (String × Val)) :
    (∃ st', fromDictR sch st d = .ok st') ↔ ∀ k v, (k, v) ∈ d → ∃ o, TakenAs sch k v o := by
  simp only [C174_from_dict hs]
  induction d generalizing st with
  | nil => exact ⟨fun _ k v h => (by cases h), fun _ => ⟨st, .nil st⟩⟩
  | cons p d ih =>
    obtain ⟨k, v⟩ := p
    constructor
    · rintro ⟨st', h⟩ k' v' hm
      cases h with
      | @cons _ _ _ _ o _ ht hr =>
        rcases List.mem_cons.1 hm with e | hm
        · cases e; exact ⟨o, ht⟩
        · exact (ih _).1 ⟨st', hr⟩ k' v' hm
    · intro h
      obtain ⟨o, ho⟩ := h k v (List.mem_cons_self ..)
      obtain ⟨st', hr⟩ := (ih (holding st k o)).2 fun k' v' hm => h k' v' (List.mem_cons_of_mem _ hm)
      exact ⟨st', .cons ho hr⟩

/-! ## the classes -/

/-- a list of messages is not read by its parameter alone -/
def Spec.readable (sp : Spec) : Bool :=
  !sp.nullAllowed &&
  match sp.vtyp, sp.ser, sp.deser with
  | .single .bool, _, d => d.isNone
  | .single .dict, _, d => d.isSome
  | .single _, _, _ => true
  | .list .str, some .list, _ | .list .str, some .spSep, _ => true
  | _, _, _ => false

/-- the type of a token is `Message` -/
def Spec.tokened (sp : Spec) : Spec :=
  match sp.vtyp, sp.deser with
  | .single (.msg _ _ _), none => { sp with vtyp := .single messageTy }
  | _, _ => sp

theorem tokeneds : allSchemas.map (fun s => s.params.map (fun p => p.2.tokened)) =
    allSchemas.map (fun s => s.params.map Prod.snd) := rfl

theorem specKind_of {sp : Spec} (h1 : sp.simplified = sp) (h2 : sp.tokened = sp) (h3 : sp.readable = true) : ∃ kd, SpecKind sp kd := by
  obtain ⟨vt, req, ser, de, na⟩ := sp
  simp only [Spec.readable, Bool.and_eq_true, Bool.not_eq_true'] at h3
  obtain ⟨rfl, h3⟩ := h3
  cases vt with
  | single t =>
    cases de with
    | some f =>
      refine ⟨.read t f, ⟨rfl, ?_⟩, rfl, rfl⟩
      rintro rfl; simp at h3
    | none =>
      cases t with
      | str => exact ⟨.text, rfl, rfl, rfl⟩
      | int => exact ⟨.number, rfl, rfl, rfl⟩
      | bool => exact ⟨.truth, rfl, rfl, rfl⟩
      | dict => simp at h3
      | msg c sub ct =>
        simp only [Spec.tokened, Spec.mk.injEq] at h2
        exact ⟨.token, h2.1.symm, rfl, rfl⟩
  | list t =>
    cases t with
    | str =>
      cases ser with
      | none => simp at h3
      | some se =>
        cases se with
        | list =>
          simp only [Spec.simplified, Spec.mk.injEq] at h1
          exact ⟨.words, rfl, h1.2.2.2.1.symm, rfl⟩
        | spSep =>
          simp only [Spec.simplified, Spec.mk.injEq] at h1
          exact ⟨.spaced, rfl, h1.2.2.2.1.symm, rfl⟩
        | _ => simp at h3
    | _ => simp at h3

/-- **C174, the classes.**  All classes of the library are of this sort, except the three with a list of messages. -/
theorem C174_classes {sch : Schema} (hs : sch ∈ allSchemas)
    (hn : sch.cls ∉ [oidc_JRD.cls, ida_VerificationElement.cls, ida_VerificationElementRequest.cls]) : SimpleClass sch := by
  have all : allSchemas.all (fun s => (dget s.params "*").isNone && s.params.all (fun p => p.2.readable) ||
      decide (s.cls ∈ [oidc_JRD.cls, ida_VerificationElement.cls, ida_VerificationElementRequest.cls])) = true := by
    decide +kernel
  have := List.all_eq_true.1 all sch hs
  simp only [Bool.or_eq_true, Bool.and_eq_true, decide_eq_true_eq, List.all_eq_true] at this
  rcases this with ⟨h1, h2⟩ | h
  · refine ⟨by simpa using h1, fun k sp hm => ?_⟩
    exact specKind_of (simplified_eq hs hm) (List.map_inj_left.1 (List.map_inj_left.1 tokeneds sch hs) _ hm) (h2 _ hm)
  · exact absurd h hn

/-- **C174, JSON.**  A text is read as a message of such a class exactly when it is a JSON document of an object whose members are taken. -/
theorem C174_from_json {sch : Schema} (hs : SimpleClass sch) (st st' : Dict) (s : List Char) :
    fromJson sch st (String.ofList s) = .ok st' ↔ ∃ d, DocText (.dict d) s ∧ ReadInTurn sch st d st' := by
  simp only [C145_from_json, C174_from_dict hs]

/-- **C174, assignment.**  `msg[k] = v` for a parameter of the class is accepted exactly when its kind takes the value; empty texts are
not passed over here. -/
theorem C174_assign {sch : Schema} (hs : SimpleClass sch) (st : Dict) (k : String) (sp : Spec) (hd : dget sch.params k = some sp)
    (v : Val) (st' : Dict) :
    setItem sch st k v = .ok st' ↔ ∃ kd o, SpecKind sp kd ∧ kd.Takes v o ∧ st' = holding st k o := by
  obtain ⟨kd, hkd⟩ := hs.2 k sp (dget_mem hd)
  simp only [setItem, hd]
  constructor
  · intro h
    obtain ⟨o, h1, h2⟩ := (addValue_exact hkd ..).1 h
    exact ⟨kd, o, hkd, h1, h2⟩
  · rintro ⟨kd', o, h1, h2, h3⟩
    exact (addValue_exact h1 ..).2 ⟨o, h2, h3⟩

/-- the classes of the examples, and what a token request takes: the expiry as a numeral or a float, the scope as a text or as a dict; a truth
value is no number and no text -/
example : SimpleClass oauth2_AccessTokenResponse ∧
    fromDictR oauth2_AccessTokenResponse [] [("access_token", .str "a"), ("token_type", .str ""), ("expires_in", .str " 3_6 "),
      ("scope", .str "a b"), ("other", .bool true)] =
      .ok [("access_token", .str "a"), ("expires_in", .int 36), ("scope", .list [.str "a", .str "b"]), ("other", .bool true)] ∧
    fromDictR oauth2_AccessTokenResponse [] [("expires_in", .flt (7/2)), ("scope", .dict [("x", .int 1)])] =
      .ok [("expires_in", .int 3), ("scope", .dict [("x", .int 1)])] ∧
    (∀ b, ∃ e, fromDictR oauth2_AccessTokenResponse [] [("expires_in", .bool b)] = .error e) ∧
    ∃ e, fromDictR oauth2_AccessTokenResponse [] [("access_token", .int 1)] = .error e :=
  ⟨C174_classes (by simp [allSchemas]) (by decide), by decide +kernel, by decide +kernel,
    fun b => ⟨.valueError, by cases b <;> decide +kernel⟩, ⟨.valueError, by decide +kernel⟩⟩

/-- an ID token, a class with readers -/
example : SimpleClass oidc_IdToken ∧ SimpleClass oidc_RegistrationRequest ∧ SimpleClass session_LogoutToken :=
  ⟨C174_classes (by simp [allSchemas]) (by decide), C174_classes (by simp [allSchemas]) (by decide),
    C174_classes (by simp [allSchemas]) (by decide)⟩

end Verif
