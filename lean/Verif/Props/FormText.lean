import Verif.Props.RoundTrip
import Verif.Props.Tokens
import Verif.Model.Schemas

/-! # C123: what a form holds for containers

`to_urlencoded` writes a value it has no serialiser for with `str()`.  The text determines the value, but the reader gets
the text. -/

namespace Verif

/-! ### the text of a string determines the string -/

/-- the first character of the inside of a Python string literal, and what follows -/
def unescape : List Char → Option (Char × List Char)
  | '\\' :: 't' :: r => some ('\t', r)
  | '\\' :: 'n' :: r => some ('\n', r)
  | '\\' :: 'r' :: r => some ('\r', r)
  | '\\' :: 'x' :: a :: b :: r => (hex4? '0' '0' a b).map (fun n => (Char.ofNat n, r))
  | '\\' :: 'u' :: a :: b :: c :: d :: r => (hex4? a b c d).map (fun n => (Char.ofNat n, r))
  | '\\' :: 'U' :: a :: b :: c :: d :: e :: f :: g :: h :: r =>
    match hex4? a b c d, hex4? e f g h with
    | some m, some n => some (Char.ofNat (m * 65536 + n), r)
    | _, _ => none
  | '\\' :: c :: r => some (c, r)
  | c :: r => some (c, r)
  | [] => none

theorem hex4_digits (n : Nat) (h : n < 65536) :
    hex4 n = [hexDigitL (n / 4096 % 16), hexDigitL (n / 256 % 16), hexDigitL (n / 16 % 16), hexDigitL (n % 16)] := by
  simp only [hex4, hex2, List.cons_append, List.nil_append, Nat.div_div_eq_div_mul]

theorem unescape_plain {c : Char} (h : c ≠ '\\') (r : List Char) : unescape (c :: r) = some (c, r) := by
  unfold unescape
  split <;> simp_all

theorem unescape_reprChar (q c : Char) (hq : q = '\'' ∨ q = '"') (r : List Char) :
    unescape (reprChar q c ++ r) = some (c, r) := by
  unfold reprChar
  split
  · next h =>
    rcases h with rfl | rfl
    · rcases hq with rfl | rfl <;> simp [unescape]
    · simp [unescape]
  · next h1 =>
    have hb : c ≠ '\\' := fun e => h1 (.inr e)
    repeat' split
    · next h => subst h; simp [unescape]
    · next h => subst h; simp [unescape]
    · next h => subst h; simp [unescape]
    · exact unescape_plain hb r
    · exact unescape_plain hb r
    · next h =>
      have hx : hex4? '0' '0' (hexDigitL (c.toNat / 16 % 16)) (hexDigitL (c.toNat % 16)) = some c.toNat := by
        have h0 : hexVal? '0' = some 0 := by decide
        unfold hex4?
        rw [h0, hexVal_hexDigitL _ (by omega), hexVal_hexDigitL _ (by omega)]
        simp only []
        congr 1; omega
      simp only [hex2, List.cons_append, List.nil_append, unescape, hx, Option.map_some, Char.ofNat_toNat]
    · next h =>
      rw [hex4_digits _ h]
      simp only [List.cons_append, List.nil_append, unescape, hex4_uEsc _ h, Option.map_some, Char.ofNat_toNat]
    · have hc : c.toNat < 0x110000 := by
        have := c.valid
        have : c.toNat = c.val.toNat := rfl
        rcases c.valid with h | ⟨_, h⟩
        · have : c.val.toNat < 0xd800 := h
          omega
        · have : c.val.toNat < 0x110000 := h
          omega
      have h2 : c.toNat / 65536 < 65536 := by omega
      have e : hex4 c.toNat = hex4 (c.toNat % 65536) := by
        simp only [hex4, hex2]
        rw [show c.toNat / 256 / 16 % 16 = c.toNat % 65536 / 256 / 16 % 16 by omega,
          show c.toNat / 256 % 16 = c.toNat % 65536 / 256 % 16 by omega,
          show c.toNat / 16 % 16 = c.toNat % 65536 / 16 % 16 by omega,
          show c.toNat % 16 = c.toNat % 65536 % 16 by omega]
      rw [e, hex4_digits _ h2, hex4_digits _ (Nat.mod_lt _ (by decide))]
      simp only [List.cons_append, List.nil_append, unescape, hex4_uEsc _ h2, hex4_uEsc _ (Nat.mod_lt c.toNat (by decide : 0 < 65536))]
      rw [show c.toNat / 65536 * 65536 + c.toNat % 65536 = c.toNat by omega, Char.ofNat_toNat]

theorem reprChar_head (q c : Char) (hq : q = '\'' ∨ q = '"') : ∃ h t, reprChar q c = h :: t ∧ h ≠ q := by
  have hb : '\\' ≠ q := by rcases hq with rfl | rfl <;> decide
  unfold reprChar
  split
  · exact ⟨_, _, rfl, hb⟩
  · next h1 =>
    have hc : c ≠ q := fun e => h1 (.inl e)
    repeat' split
    all_goals first
      | exact ⟨_, _, rfl, hb⟩
      | exact ⟨_, _, rfl, hc⟩

theorem inside_inj (q : Char) (hq : q = '\'' ∨ q = '"') : ∀ (s t x y : List Char),
    s.flatMap (reprChar q) ++ q :: x = t.flatMap (reprChar q) ++ q :: y → s = t ∧ x = y
  | [], [], x, y, h => by simpa using h
  | [], d :: t, x, y, h => by
    obtain ⟨a, b, e, hne⟩ := reprChar_head q d hq
    simp only [List.flatMap_nil, List.nil_append, List.flatMap_cons, e, List.cons_append, List.cons.injEq] at h
    exact absurd h.1.symm hne
  | c :: s, [], x, y, h => by
    obtain ⟨a, b, e, hne⟩ := reprChar_head q c hq
    simp only [List.flatMap_nil, List.nil_append, List.flatMap_cons, e, List.cons_append, List.cons.injEq] at h
    exact absurd h.1 hne
  | c :: s, d :: t, x, y, h => by
    simp only [List.flatMap_cons, List.append_assoc] at h
    have h1 := congrArg unescape h
    rw [unescape_reprChar q c hq, unescape_reprChar q d hq] at h1
    simp only [Option.some.injEq, Prod.mk.injEq] at h1
    obtain ⟨rfl, h2⟩ := h1
    obtain ⟨rfl, rfl⟩ := inside_inj q hq s t x y h2
    exact ⟨rfl, rfl⟩

theorem reprQuote_cases (s : List Char) : reprQuote s = '\'' ∨ reprQuote s = '"' := by
  unfold reprQuote
  split
  · exact .inr rfl
  · exact .inl rfl

theorem strRepr_inj {s t : String} {x y : List Char} (h : strRepr s ++ x = strRepr t ++ y) : s = t ∧ x = y := by
  unfold strRepr at h
  simp only [List.cons_append, List.cons.injEq, List.append_assoc, List.nil_append] at h
  obtain ⟨hq, h⟩ := h
  rw [← hq] at h
  obtain ⟨h1, h2⟩ := inside_inj _ (reprQuote_cases _) _ _ _ _ h
  exact ⟨String.toList_inj.1 h1, h2⟩

/-! ### the text of a value determines the value -/

theorem strRepr_start (s : String) : ∃ r, strRepr s = '\'' :: r ∨ strRepr s = '"' :: r := by
  unfold strRepr
  rcases reprQuote_cases s.toList with h | h <;> rw [h]
  · exact ⟨_, .inl rfl⟩
  · exact ⟨_, .inr rfl⟩

/-- the kinds of values, told apart by the first character of the text -/
inductive Kind where
  | none | yes | no | int | str | list | dict | other
deriving DecidableEq

def kindOf : Val → Kind
  | .none => .none
  | .bool true => .yes
  | .bool false => .no
  | .int _ => .int
  | .flt _ => .int
  | .str _ => .str
  | .list _ => .list
  | .dict _ => .dict
  | _ => .other

def kindOfChar (c : Char) : Kind :=
  if c = 'N' then .none else if c = 'T' then .yes else if c = 'F' then .no
  else if c = '\'' ∨ c = '"' then .str else if c = '[' then .list else if c = '{' then .dict
  else if isDigitC c = true ∨ c = '-' then .int else .other

theorem repr_kind {v : Val} {a : List Char} (h : reprC v = .ok a) : ∃ c r, a = c :: r ∧ kindOfChar c = kindOf v := by
  have hint : ∀ c, (isDigitC c = true ∨ c = '-') → kindOfChar c = .int := by
    intro c hc
    have hd : ∀ x : Char, isDigitC x = false → x ≠ '-' → c ≠ x := by
      rintro x h1 h2 rfl
      rcases hc with hc | hc
      · rw [h1] at hc; cases hc
      · exact h2 hc
    unfold kindOfChar
    rw [if_neg (hd _ (by decide) (by decide)), if_neg (hd _ (by decide) (by decide)), if_neg (hd _ (by decide) (by decide)),
      if_neg (not_or.2 ⟨hd _ (by decide) (by decide), hd _ (by decide) (by decide)⟩), if_neg (hd _ (by decide) (by decide)),
      if_neg (hd _ (by decide) (by decide)), if_pos hc]
  match v, h with
  | .none, h => cases h; exact ⟨_, _, rfl, by decide⟩
  | .bool true, h => cases h; exact ⟨_, _, rfl, by decide⟩
  | .bool false, h => cases h; exact ⟨_, _, rfl, by decide⟩
  | .int i, h =>
    simp only [reprC, Except.ok.injEq] at h
    obtain ⟨c, r, e, hc⟩ := intRepr_start i
    exact ⟨c, r, by rw [← h, e], hint c hc⟩
  | .flt q, h =>
    rw [reprC] at h
    obtain ⟨_, e'⟩ := floatText_ok h
    obtain ⟨c, r, e, hc⟩ := floatRepr_start q
    exact ⟨c, r, by rw [← e', e], hint c hc⟩
  | .str s, h =>
    simp only [reprC, Except.ok.injEq] at h
    obtain ⟨r, e | e⟩ := strRepr_start s
    · exact ⟨_, r, by rw [← h, e], rfl⟩
    · exact ⟨_, r, by rw [← h, e], rfl⟩
  | .list [], h => cases h; exact ⟨_, _, rfl, by decide⟩
  | .list (v :: vs), h =>
    simp only [reprC, bind_ok] at h
    obtain ⟨x, _, y, _, e⟩ := h
    cases e
    exact ⟨_, _, rfl, rfl⟩
  | .dict [], h => cases h; exact ⟨_, _, rfl, by decide⟩
  | .dict ((k, v) :: d), h =>
    simp only [reprC, bind_ok] at h
    obtain ⟨x, _, y, _, e⟩ := h
    cases e
    exact ⟨_, _, rfl, rfl⟩
  | .msg c d, h => cases h

theorem reprList_rest {vs : List Val} {b : List Char} (h : reprList vs = .ok b) (x : List Char) : okRest (b ++ x) := by
  cases vs with
  | nil => cases h; intro c hc; cases hc; exact .inr (.inl rfl)
  | cons v vs =>
    simp only [reprList, bind_ok] at h
    obtain ⟨_, _, _, _, e⟩ := h
    cases e
    intro c hc; cases hc; exact .inl rfl

theorem reprDict_rest {d : List (String × Val)} {b : List Char} (h : reprDict d = .ok b) (x : List Char) : okRest (b ++ x) := by
  cases d with
  | nil => cases h; intro c hc; cases hc; exact .inr (.inr rfl)
  | cons p d =>
    rcases p with ⟨k, v⟩
    simp only [reprDict, bind_ok] at h
    obtain ⟨_, _, _, _, e⟩ := h
    cases e
    intro c hc; cases hc; exact .inl rfl

theorem kind_eq {v w : Val} {a b x y : List Char} (h1 : reprC v = .ok a) (h2 : reprC w = .ok b) (h : a ++ x = b ++ y) :
    kindOf v = kindOf w := by
  obtain ⟨c, r, rfl, e1⟩ := repr_kind h1
  obtain ⟨c', r', rfl, e2⟩ := repr_kind h2
  simp only [List.cons_append, List.cons.injEq] at h
  rw [← e1, ← e2, h.1]

theorem kind_not_other {v : Val} {a : List Char} (h : reprC v = .ok a) : kindOf v ≠ .other := by
  cases v with
  | msg c d => cases h
  | bool q => cases q <;> decide
  | _ => intro e; cases e

theorem repr_not_close {v : Val} {a : List Char} (h : reprC v = .ok a) {c : Char} {r : List Char} (hc : kindOfChar c = .other)
    {x : List Char} : a ++ x ≠ c :: r := by
  obtain ⟨c', r', rfl, e⟩ := repr_kind h
  intro he
  simp only [List.cons_append, List.cons.injEq] at he
  rw [he.1, hc] at e
  exact kind_not_other h e.symm

mutual
theorem reprC_inj : (v w : Val) → (a b x y : List Char) → reprC v = .ok a → reprC w = .ok b → okRest x → okRest y →
    a ++ x = b ++ y → v = w ∧ x = y
  | .none, w, a, b, x, y, h1, h2, hx, hy, h => by
    have hk := kind_eq h1 h2 h
    cases w with
    | none => cases h1; cases h2; exact ⟨rfl, by simpa using h⟩
    | bool q => cases q <;> cases hk
    | _ => cases hk
  | .bool p, w, a, b, x, y, h1, h2, hx, hy, h => by
    have hk := kind_eq h1 h2 h
    cases w with
    | bool q => cases p <;> cases q <;> first | (cases hk; done) | (cases h1; cases h2; exact ⟨rfl, by simpa using h⟩)
    | _ => cases p <;> cases hk
  | .flt p, w, a, b, x, y, h1, h2, hx, hy, h => by
    have hk := kind_eq h1 h2 h
    rw [reprC] at h1
    obtain ⟨hp, rfl⟩ := floatText_ok h1
    have e := congrArg jnum h
    rw [jnum_floatRepr hp x hx] at e
    cases w with
    | flt q =>
      rw [reprC] at h2
      obtain ⟨hq, rfl⟩ := floatText_ok h2
      rw [jnum_floatRepr hq y hy] at e
      simpa using e
    | int j =>
      simp only [reprC, Except.ok.injEq] at h2
      subst h2
      rw [jnum_intRepr j y hy] at e
      cases e
    | bool q => cases q <;> cases hk
    | _ => cases hk
  | .msg _ _, w, a, b, x, y, h1, h2, hx, hy, h => by cases h1
  | .int i, w, a, b, x, y, h1, h2, hx, hy, h => by
    have hk := kind_eq h1 h2 h
    cases w with
    | int j =>
      simp only [reprC, Except.ok.injEq] at h1 h2
      subst h1 h2
      have e := congrArg jnum h
      rw [jnum_intRepr i x hx, jnum_intRepr j y hy] at e
      simpa using e
    | flt q =>
      rw [reprC] at h2
      obtain ⟨hq, rfl⟩ := floatText_ok h2
      simp only [reprC, Except.ok.injEq] at h1
      subst h1
      have e := congrArg jnum h
      rw [jnum_intRepr i x hx, jnum_floatRepr hq y hy] at e
      cases e
    | bool q => cases q <;> cases hk
    | _ => cases hk
  | .str s, w, a, b, x, y, h1, h2, hx, hy, h => by
    have hk := kind_eq h1 h2 h
    cases w with
    | str t =>
      simp only [reprC, Except.ok.injEq] at h1 h2
      subst h1 h2
      obtain ⟨rfl, e⟩ := strRepr_inj h
      exact ⟨rfl, e⟩
    | bool q => cases q <;> cases hk
    | _ => cases hk
  | .list [], w, a, b, x, y, h1, h2, hx, hy, h => by
    have hk := kind_eq h1 h2 h
    cases w with
    | list ws =>
      cases ws with
      | nil => cases h1; cases h2; exact ⟨rfl, by simpa using h⟩
      | cons w ws =>
        cases h1
        simp only [reprC, bind_ok] at h2
        obtain ⟨p, hp, q, hq, e⟩ := h2
        cases e
        simp only [List.cons_append, List.cons.injEq, true_and, List.nil_append, List.append_assoc] at h
        exact absurd h.symm (repr_not_close hp (by decide +kernel))
    | bool q => cases q <;> cases hk
    | _ => cases hk
  | .list (v :: vs), w, a, b, x, y, h1, h2, hx, hy, h => by
    have hk := kind_eq h1 h2 h
    cases w with
    | list ws =>
      simp only [reprC, bind_ok] at h1
      obtain ⟨p, hp, q, hq, e⟩ := h1
      cases e
      cases ws with
      | nil =>
        cases h2
        simp only [List.cons_append, List.cons.injEq, true_and, List.nil_append, List.append_assoc] at h
        exact absurd h (repr_not_close hp (by decide +kernel))
      | cons w ws =>
        simp only [reprC, bind_ok] at h2
        obtain ⟨p', hp', q', hq', e⟩ := h2
        cases e
        simp only [List.cons_append, List.cons.injEq, true_and, List.append_assoc] at h
        obtain ⟨rfl, h⟩ := reprC_inj v w _ _ _ _ hp hp' (reprList_rest hq _) (reprList_rest hq' _) h
        obtain ⟨rfl, e⟩ := reprList_inj vs ws _ _ _ _ hq hq' hx hy h
        exact ⟨rfl, e⟩
    | bool q => cases q <;> cases hk
    | _ => cases hk
  | .dict [], w, a, b, x, y, h1, h2, hx, hy, h => by
    have hk := kind_eq h1 h2 h
    cases w with
    | dict ws =>
      cases ws with
      | nil => cases h1; cases h2; exact ⟨rfl, by simpa using h⟩
      | cons w ws =>
        obtain ⟨k, w⟩ := w
        cases h1
        simp only [reprC, bind_ok] at h2
        obtain ⟨p, hp, q, hq, e⟩ := h2
        cases e
        simp only [List.cons_append, List.cons.injEq, true_and, List.nil_append, List.append_assoc] at h
        exact absurd h.symm (repr_not_close (v := .str k) rfl (by decide +kernel))
    | bool q => cases q <;> cases hk
    | _ => cases hk
  | .dict ((k, v) :: vs), w, a, b, x, y, h1, h2, hx, hy, h => by
    have hk := kind_eq h1 h2 h
    cases w with
    | dict ws =>
      simp only [reprC, bind_ok] at h1
      obtain ⟨p, hp, q, hq, e⟩ := h1
      cases e
      cases ws with
      | nil =>
        cases h2
        simp only [List.cons_append, List.cons.injEq, true_and, List.nil_append, List.append_assoc] at h
        exact absurd h (repr_not_close (v := .str k) rfl (by decide +kernel))
      | cons w ws =>
        obtain ⟨k', w⟩ := w
        simp only [reprC, bind_ok] at h2
        obtain ⟨p', hp', q', hq', e⟩ := h2
        cases e
        simp only [List.cons_append, List.cons.injEq, true_and, List.append_assoc] at h
        obtain ⟨rfl, h'⟩ := strRepr_inj h
        injection h' with _ h'
        injection h' with _ h'
        clear h
        obtain ⟨rfl, h⟩ := reprC_inj v w _ _ _ _ hp hp' (reprDict_rest hq _) (reprDict_rest hq' _) h'
        obtain ⟨rfl, e⟩ := reprDict_inj vs ws _ _ _ _ hq hq' hx hy h
        exact ⟨rfl, e⟩
    | bool q => cases q <;> cases hk
    | _ => cases hk
termination_by structural v => v
theorem reprList_inj : (vs ws : List Val) → (a b x y : List Char) → reprList vs = .ok a → reprList ws = .ok b → okRest x →
    okRest y → a ++ x = b ++ y → vs = ws ∧ x = y
  | [], [], a, b, x, y, h1, h2, hx, hy, h => by cases h1; cases h2; exact ⟨rfl, by simpa using h⟩
  | [], w :: ws, a, b, x, y, h1, h2, hx, hy, h => by
    simp only [reprList, bind_ok] at h2
    obtain ⟨p, hp, q, hq, e⟩ := h2
    cases e
    cases h1
    simp only [List.cons_append, List.cons.injEq] at h
    exact absurd h.1 (by decide)
  | v :: vs, [], a, b, x, y, h1, h2, hx, hy, h => by
    simp only [reprList, bind_ok] at h1
    obtain ⟨p, hp, q, hq, e⟩ := h1
    cases e
    cases h2
    simp only [List.cons_append, List.cons.injEq] at h
    exact absurd h.1 (by decide)
  | v :: vs, w :: ws, a, b, x, y, h1, h2, hx, hy, h => by
    simp only [reprList, bind_ok] at h1 h2
    obtain ⟨p, hp, q, hq, e⟩ := h1
    cases e
    obtain ⟨p', hp', q', hq', e⟩ := h2
    cases e
    simp only [List.cons_append, List.cons.injEq, true_and, List.append_assoc] at h
    obtain ⟨rfl, h⟩ := reprC_inj v w _ _ _ _ hp hp' (reprList_rest hq _) (reprList_rest hq' _) h
    obtain ⟨rfl, e⟩ := reprList_inj vs ws _ _ _ _ hq hq' hx hy h
    exact ⟨rfl, e⟩
termination_by structural vs => vs
theorem reprDict_inj : (vs ws : List (String × Val)) → (a b x y : List Char) → reprDict vs = .ok a → reprDict ws = .ok b →
    okRest x → okRest y → a ++ x = b ++ y → vs = ws ∧ x = y
  | [], [], a, b, x, y, h1, h2, hx, hy, h => by cases h1; cases h2; exact ⟨rfl, by simpa using h⟩
  | [], (k', w) :: ws, a, b, x, y, h1, h2, hx, hy, h => by
    simp only [reprDict, bind_ok] at h2
    obtain ⟨p, hp, q, hq, e⟩ := h2
    cases e
    cases h1
    simp only [List.cons_append, List.cons.injEq] at h
    exact absurd h.1 (by decide)
  | (k, v) :: vs, [], a, b, x, y, h1, h2, hx, hy, h => by
    simp only [reprDict, bind_ok] at h1
    obtain ⟨p, hp, q, hq, e⟩ := h1
    cases e
    cases h2
    simp only [List.cons_append, List.cons.injEq] at h
    exact absurd h.1 (by decide)
  | (k, v) :: vs, (k', w) :: ws, a, b, x, y, h1, h2, hx, hy, h => by
    simp only [reprDict, bind_ok] at h1 h2
    obtain ⟨p, hp, q, hq, e⟩ := h1
    cases e
    obtain ⟨p', hp', q', hq', e⟩ := h2
    cases e
    simp only [List.cons_append, List.cons.injEq, true_and, List.append_assoc] at h
    obtain ⟨rfl, h'⟩ := strRepr_inj h
    injection h' with _ h'
    injection h' with _ h'
    clear h
    obtain ⟨rfl, h⟩ := reprC_inj v w _ _ _ _ hp hp' (reprDict_rest hq _) (reprDict_rest hq' _) h'
    obtain ⟨rfl, e⟩ := reprDict_inj vs ws _ _ _ _ hq hq' hx hy h
    exact ⟨rfl, e⟩
termination_by structural vs => vs
end

/-- the text of a container determines the container -/
theorem pyStr_inj {v w : Val} (hv : v.isStr = false) (hw : w.isStr = false) {t : String} (h1 : pyStr v = .ok t)
    (h2 : pyStr w = .ok t) : v = w := by
  have key : ∀ u : Val, u.isStr = false → pyStr u = .ok t → reprC u = .ok t.toList := by
    intro u hu h
    unfold pyStr at h
    split at h
    · cases hu
    · cases hr : reprC u with
      | error e => rw [hr] at h; cases h
      | ok a => rw [hr] at h; cases h; simp
  exact (reprC_inj v w _ _ [] [] (key v hv h1) (key w hw h2) (fun _ h => by cases h) (fun _ h => by cases h) rfl).1

/-! ### what the reader gets -/

theorem repr_ne_nil {v : Val} {a : List Char} (h : reprC v = .ok a) : a ≠ [] := by
  obtain ⟨c, r, rfl, _⟩ := repr_kind h
  simp

/-- a dict under a name the receiver does not know, or declared as a plain text, arrives as its Python text -/
theorem urlEntry_dict (env : SerEnv) {sch : Schema} {k t : String} {d : Dict} (ht : pyStr (.dict d) = .ok t)
    (h : lookupSpec sch.params k = none ∨ ∃ b sp ty, lookupSpec sch.params k = some (b, sp) ∧ sp.vtyp = .single ty ∧
      sp.ser = none ∧ sp.deser = none) :
    UrlEntry env sch k (.dict d) (some (.str t)) := by
  have hne : t ≠ "" := by
    rintro rfl
    simp only [pyStr] at ht
    cases hr : reprC (.dict d) with
    | error e => rw [hr] at ht; cases ht
    | ok a =>
      rw [hr] at ht
      have e : String.ofList a = "" := by injection ht
      exact repr_ne_nil hr (by simpa using e)
  have hser : serFor sch.params k = none := by
    rcases h with h | ⟨b, sp, ty, h, _, hs, _⟩ <;> simp [serFor, h]
    exact hs
  refine ⟨[t], by simp [urlPairs, hser, serUrlOther, ht, Except.map], .inr ⟨by simp [hne], _, rfl, fun st => ?_⟩⟩
  rcases h with h | ⟨b, sp, ty, h, hv, _, hd⟩
  · simp [hne, addUrl, h]
  · simp [hne, addUrl, h, hv, hd]

/-- **C123**: a message whose values are texts and dicts, none of them declared with a serialiser, is read back with every
dict replaced by its Python text. -/
theorem C123_form (env : SerEnv) (sch : Schema) (st : Dict) (hn : DNodup st) (hne : st ≠ []) (hreq : ¬ RequiredMissing sch st)
    (text : String → String)
    (h : ∀ k v, (k, v) ∈ st → lookupSpec sch.params k = none ∧
      ((v = .str (text k) ∧ text k ≠ "") ∨ (∃ d, v = .dict d) ∧ pyStr v = .ok (text k))) :
    ∃ txt, toUrlencoded env sch st = .ok txt ∧
      fromUrlencoded sch [] txt = .ok (st.map (fun p => (p.1, .str (text p.1)))) := by
  have hentry : ∀ k v, (k, v) ∈ st → UrlEntry env sch k v (some (.str (text k))) := by
    intro k v hm
    obtain ⟨hl, h | ⟨⟨d, rfl⟩, h⟩⟩ := h k v hm
    · obtain ⟨rfl, ht⟩ := h
      refine ⟨[text k], by simp [urlPairs], .inr ⟨by simp [ht], _, rfl, fun st => ?_⟩⟩
      simp [ht, addUrl, hl]
    · exact urlEntry_dict env h (.inl hl)
  obtain ⟨ps, bl, h1, h2, h3, h4, h5⟩ := url_all env sch (fun k _ => some (.str (text k))) st hn hentry
  have hid : st.filterMap (fun p => (some (Val.str (text p.1))).map (fun x => (p.1, x))) =
      st.map (fun p => (p.1, .str (text p.1))) := by simp
  rw [hid] at h4
  have hq : parseQs (urlencode ps) = bl := by
    have := h2 [] (by simp)
    rw [parseQs, parseQsl_urlencode, this]; rfl
  have hbl : bl ≠ [] := by rw [ne_eq, h4]; simpa using hne
  have hm : ¬ sch.params.any (fun p => p.2.required && !dhas st p.1) = true := by
    rw [anyMissing_iff]; exact hreq
  refine ⟨urlencode ps, ?_, ?_⟩
  · simp only [toUrlencoded, urlFinish, hm, h1, Except.map]
    rfl
  · simp only [fromUrlencoded, hq, hbl, and_false, if_false, h5, hid]
    rw [dupdate_nil_left]
    have : dkeys (st.map (fun p => (p.1, Val.str (text p.1)))) = dkeys st := by simp [dkeys]
    unfold DNodup at hn ⊢
    rw [this]
    exact hn

/-- **C123**: no two different dicts, lists, numbers, truth values or nulls have the same text, so nothing is lost. -/
theorem C123_injective {v w : Val} (hv : v.isStr = false) (hw : w.isStr = false) {t : String} (h1 : pyStr v = .ok t)
    (h2 : pyStr w = .ok t) : v = w := pyStr_inj hv hw h1 h2

/-- The text of a container is not the container, and a text may look like one: the reader cannot tell them apart. -/
theorem C123_ambiguous (env : SerEnv) (sch : Schema) (k : String) (d : Dict) {t : String} (ht : pyStr (.dict d) = .ok t)
    (hl : lookupSpec sch.params k = none) : urlPairs env false sch.params k (.dict d) = urlPairs env false sch.params k (.str t) := by
  simp [urlPairs, serFor, hl, serUrlOther, ht, Except.map]

theorem joinStrs_none {l : List Val} {v : Val} (hv : v ∈ l) (hs : v.isStr = false) : joinStrs l = none := by
  induction l with
  | nil => cases hv
  | cons w l ih =>
    rcases List.mem_cons.1 hv with rfl | hv'
    · cases v <;> first | rfl | cases hs
    · cases w <;> first | rfl | simp [joinStrs, ih hv']

/-- **C123**: a list of words is never written with `str()`: a value with anything else in it is a `TypeError`, and no form is
made. -/
theorem C123_words (env : SerEnv) (sch : Schema) (st : Dict) (k : String) (l : List Val) {b : Bool} {sp : Spec}
    (hl : lookupSpec sch.params k = some (b, sp)) (hs : sp.ser = some .list ∨ sp.ser = some .spSep) {v : Val} (hv : v ∈ l)
    (hns : v.isStr = false) (hm : (k, .list l) ∈ st) :
    urlPairs env false sch.params k (.list l) = .error .typeError ∧ ∃ e, toUrlencoded env sch st = .error e := by
  have h1 : urlPairs env false sch.params k (.list l) = .error .typeError := by
    rcases hs with hs | hs <;> simp [urlPairs, serFor, hl, hs, serUrlList, joinStrs_none hv hns, Except.map]
  refine ⟨h1, ?_⟩
  have h2 : ∀ st : List (String × Val), (k, .list l) ∈ st → ∃ e, urlPairsAll env false sch.params st = .error e := by
    intro st
    induction st with
    | nil => intro h; cases h
    | cons p st ih =>
      obtain ⟨k', w⟩ := p
      intro h
      rcases List.mem_cons.1 h with h | h
      · cases h
        exact ⟨_, by simp [urlPairsAll, h1, bind, Except.bind]; rfl⟩
      · obtain ⟨e, he⟩ := ih h
        cases hp : urlPairs env false sch.params k' w with
        | error e' => exact ⟨e', by simp [urlPairsAll, hp, bind, Except.bind]⟩
        | ok p => exact ⟨e, by simp [urlPairsAll, hp, he, bind, Except.bind]⟩
  unfold toUrlencoded urlFinish raiseMissing
  split
  · split
    · exact ⟨_, rfl⟩
    · exact ⟨_, rfl⟩
  · obtain ⟨e, he⟩ := h2 st hm
    exact ⟨e, by rw [he]; rfl⟩

/-- **C123**: of a list given for a parameter that holds claims, only the first element is written: the form of a dict, nothing
for an empty text or list; any other text, a number, a truth value or a null is refused. -/
theorem C123_claims (env : SerEnv) (sch : Schema) (k : String) {b : Bool} {sp : Spec}
    (hl : lookupSpec sch.params k = some (b, sp)) (hs : sp.ser = some .claims) (v : Val) (l : List Val) :
    urlPairs env false sch.params k (.list (v :: l)) = urlPairs env false sch.params k (.list [v]) ∧
    ((v = .str "" ∨ v = .list []) → urlPairs env false sch.params k (.list (v :: l)) = .ok [(k, "")]) ∧
    (∀ d, v = .dict d → urlPairs env false sch.params k (.list (v :: l)) = (urlencodeDict env d).map (fun t => [(k, t)])) ∧
    ((∃ s, v = .str s ∧ s ≠ "") ∨ v = .none ∨ (∃ i, v = .int i) ∨ (∃ c, v = .bool c) ∨ (∃ q, v = .flt q) ∨
      (∃ x xs, v = .list (x :: xs)) → urlPairs env false sch.params k (.list (v :: l)) = .error .typeError) := by
  have h : ∀ l, urlPairs env false sch.params k (.list l) = (claimsUrl env l).map (fun t => [(k, t)]) := by
    intro l
    simp [urlPairs, serFor, hl, hs, serUrlList]
  rw [h, h]
  refine ⟨?_, ?_, ?_, ?_⟩
  · rcases v with _ | _ | _ | _ | _ | (_ | _) | _ | _ <;> rfl
  · rintro (rfl | rfl) <;> rfl
  · rintro d rfl; rfl
  · rintro (⟨s, rfl, hne⟩ | rfl | ⟨i, rfl⟩ | ⟨c, rfl⟩ | ⟨q, rfl⟩ | ⟨x, xs, rfl⟩)
    · simp [claimsUrl, hne, Except.map]
    all_goals rfl

example : lookupSpec oidc_ClaimsRequest.params "userinfo" ≠ none ∧
    urlPairs libEnv false oidc_ClaimsRequest.params "userinfo" (.list [.dict [("a", .str "b c")], .int 7]) =
      .ok [("userinfo", "a=b+c")] := by decide +kernel

example : pyStr (.dict [("it's", .list [.str "a\n\"", .int (-3), .none, .bool true]), ("", .dict [])]) =
    .ok "{\"it's\": ['a\\n\"', -3, None, True], '': {}}" := by decide +kernel

example : ∃ txt, toUrlencoded libEnv messageSchema [("x", .dict [("a", .int 1)]), ("y", .str "z")] = .ok txt ∧
    fromUrlencoded messageSchema [] txt = .ok [("x", .str "{'a': 1}"), ("y", .str "z")] := by
  obtain ⟨txt, h1, h2⟩ := C123_form libEnv messageSchema [("x", .dict [("a", .int 1)]), ("y", .str "z")] (by decide) (by simp)
    (by rintro ⟨_, _, h, _⟩; cases h) (fun k => if k = "x" then "{'a': 1}" else "z") (by
      intro k v h
      simp only [List.mem_cons, Prod.mk.injEq, List.not_mem_nil, or_false] at h
      rcases h with ⟨rfl, rfl⟩ | ⟨rfl, rfl⟩
      · exact ⟨rfl, .inr ⟨⟨_, rfl⟩, by decide +kernel⟩⟩
      · exact ⟨rfl, .inl ⟨rfl, by decide⟩⟩)
  exact ⟨txt, h1, h2⟩

/-- a scope with a number in it -/
example : (∃ e, toUrlencoded libEnv oauth2_AuthorizationRequest [("response_type", .list [.str "code"]), ("client_id", .str "c"),
    ("scope", .list [.str "a", .int 5])] = .error e) :=
  (C123_words libEnv oauth2_AuthorizationRequest _ "scope" [.str "a", .int 5] (sp := optionalListOfSpSepStrings) (by rfl)
    (.inr rfl) (v := .int 5) (by simp) rfl (by simp)).2

/-- **C123**: a dict given for a list of words is written as its names with spaces between, in a form and in a document alike; what
was under the names is lost. -/
theorem C123_dict_for_words (env : SerEnv) (c : Cls) (ps : Assoc Spec) (k : String) (d : Dict) (pos : Bool) (t : String)
    (ht : t.toList = ([' '] : List Char).intercalate (d.map (fun p => p.1.toList))) :
    (env c k = some .spSep → toDict env c [(k, .dict d)] = .ok [(k, .str t)]) ∧
    (serFor ps k = some .spSep → urlPairs env pos ps k (.dict d) = .ok [(k, t)]) := by
  have hj : ∀ (l : List (List Char)), joinC ' ' l = ([' '] : List Char).intercalate l := by
    intro l
    induction l with
    | nil => rfl
    | cons x l ih =>
      cases l with
      | nil => simp [joinC]
      | cons y l => simp [joinC, ih]
  have e : pyJoin ' ' (dkeys d) = t := by
    rw [← String.toList_inj, ht, ← hj]
    simp [pyJoin, dkeys, Function.comp_def]
  refine ⟨fun h => ?_, fun h => ?_⟩
  · simp [toDict, h, serDict, serPlain, e, bind, Except.bind]
  · simp [urlPairs, h, serUrlOther, e, Except.map]

/-- **C123**: a dict given for a list of messages is written as the list of its names, and a text as the list of its characters. -/
theorem C123_misfit_for_messages (env : SerEnv) (c : Cls) (k : String) (h : env c k = some .msgList) :
    (∀ d, toDict env c [(k, .dict d)] = .ok [(k, .list (d.map (fun p => .str p.1)))]) ∧
    (∀ s, toDict env c [(k, .str s)] = .ok [(k, .list (s.toList.map (fun x => .str (String.ofList [x]))))]) ∧
    (∀ i, toDict env c [(k, .int i)] = .error .typeError) ∧ (∀ b, toDict env c [(k, .bool b)] = .error .typeError) ∧
    (∀ q, toDict env c [(k, .flt q)] = .error .typeError) := by
  refine ⟨fun d => ?_, fun s => ?_, fun i => ?_, fun b => ?_, fun q => ?_⟩ <;>
    simp [toDict, h, serDict, serPlain, bind, Except.bind]

/-- a scope given as a dict -/
example : toDict libEnv oauth2_AuthorizationRequest.cls [("scope", .dict [("openid", .none), ("email", .bool true)])] =
    .ok [("scope", .str "openid email")] :=
  (C123_dict_for_words libEnv _ [] "scope" _ false "openid email" (by decide +kernel)).1 rfl

end Verif
