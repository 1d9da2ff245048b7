import Verif.Props.IsoTime
import Verif.Props.TimeTexts

/-!
# C168: exactly which time stamps and dates are read, and as which instant

The texts are described by a grammar of their own, in addition to the one of `Props/TimeTexts.lean`.
-/

namespace Verif

/-- hours of an offset: two digits of any script, at most 23 -/
def HourText (t : List Char) (h : Nat) : Prop :=
  h ≤ 23 ∧ ∃ a b, t = [a, b] ∧ IsDecimal a (h / 10) ∧ IsDecimal b (h % 10)

/-- minutes or seconds of an offset: an ASCII digit and a digit of any script, at most 59 -/
def SixtyText (t : List Char) (n : Nat) : Prop := n ≤ 59 ∧ ∃ c, t = [digit (n / 10), c] ∧ IsDecimal c (n % 10)

/-- decimal places, the first of which counts `10^w / 10` -/
def PlacesText : Nat → List Char → Nat → Prop
  | _, [], u => u = 0
  | 0, _ :: _, _ => False
  | w + 1, c :: cs, u => ∃ k u', IsDecimal c k ∧ PlacesText w cs u' ∧ u = k * 10 ^ w + u'

/-- a fraction of a second in microseconds: one to six digits -/
def OffsetFrac (f : List Char) (u : Nat) : Prop := f ≠ [] ∧ PlacesText 6 f u

/-- an offset without its sign: `hhmm`, `hh:mm`, `hhmmss`, `hh:mm:ss`, and the last two with a fraction; the value is in
microseconds -/
def PlainOffset (r : List Char) (v : Nat) : Prop :=
  ∃ h m s u sep hh mm tail, v = (h * 3600 + m * 60 + s) * 1000000 + u ∧ (sep = [] ∨ sep = [':']) ∧
    r = hh ++ (sep ++ (mm ++ tail)) ∧ HourText hh h ∧ SixtyText mm m ∧
    ((tail = [] ∧ s = 0 ∧ u = 0) ∨
     ∃ ss fr, tail = sep ++ (ss ++ fr) ∧ SixtyText ss s ∧ ((fr = [] ∧ u = 0) ∨ ∃ f, fr = '.' :: f ∧ OffsetFrac f u))

/-- `%z`: an offset in microseconds; a capital `Z` is none -/
def OffsetText (t : List Char) (o : Int) : Prop :=
  (t = ['Z'] ∧ o = 0) ∨ ∃ r v : _, PlainOffset r v ∧ ((t = '+' :: r ∧ o = v) ∨ (t = '-' :: r ∧ o = -(v : Int)))

/-- `YYYY-MM-DDTHH:MM:SS` and an offset, and the microseconds since 1970 they stand for -/
def StampText (s : List Char) (us : Int) : Prop :=
  ∃ y m d h mi sec o dt t ht mt st ot, s = dt ++ t :: (ht ++ ':' :: (mt ++ ':' :: (st ++ ot))) ∧ DateText dt y m d ∧
    (t = 'T' ∨ t = 't') ∧ FieldText 23 ht h ∧ FieldText 59 mt mi ∧ FieldText 59 st sec ∧ OffsetText ot o ∧
    us = secondOf y m d h mi sec * 1000000 - o

theorem twoDigits_iff (a b : Char) (n : Nat) :
    twoDigits a b = some n ↔ IsDecimal a (n / 10) ∧ IsDecimal b (n % 10) := by
  unfold twoDigits
  constructor
  · intro h
    split at h
    · next x y hx hy =>
      simp only [Option.some.injEq] at h
      subst h
      rw [decimalVal_iff] at hx hy
      have h1 := isDecimal_lt hy
      rw [show (x * 10 + y) / 10 = x by omega, show (x * 10 + y) % 10 = y by omega]
      exact ⟨hx, hy⟩
    · simp at h
  · rintro ⟨h1, h2⟩
    rw [← decimalVal_iff] at h1 h2
    simp only [h1, h2]
    congr 1; omega

theorem sixtyDigits_iff (a b : Char) (n : Nat) :
    sixtyDigits a b = some n ↔ n < 100 ∧ a = digit (n / 10) ∧ IsDecimal b (n % 10) := by
  unfold sixtyDigits
  constructor
  · intro h
    split at h
    · next x y hx hy =>
      simp only [Option.some.injEq] at h
      subst h
      rw [decimalVal_iff] at hy
      have h1 := isDecimal_lt hy
      obtain ⟨h2, h3⟩ := digitVal_some hx
      rw [show (x * 10 + y) / 10 = x by omega, show (x * 10 + y) % 10 = y by omega]
      exact ⟨by omega, h3, hy⟩
    · simp at h
  · rintro ⟨h0, rfl, h2⟩
    rw [← decimalVal_iff] at h2
    simp only [digitVal_digit (show n / 10 < 10 by omega), h2]
    congr 1; omega

/-- an offset of whole seconds -/
def WholeOffset (r : List Char) (h m s : Nat) (b : Bool) : Prop :=
  ∃ sep hh mm tail, (sep = [] ∨ sep = [':']) ∧ r = hh ++ (sep ++ (mm ++ tail)) ∧ HourText hh h ∧ SixtyText mm m ∧
    ((b = false ∧ tail = [] ∧ s = 0) ∨ (b = true ∧ ∃ ss, tail = sep ++ ss ∧ SixtyText ss s))

def signed (neg : Bool) (v : Nat) : Int := if neg then -(v : Int) else v

theorem mkOffset_iff (neg : Bool) (h m s : Option Nat) (o : Int) :
    mkOffset neg h m s = some o ↔ ∃ h' m' s', h = some h' ∧ m = some m' ∧ s = some s' ∧ h' ≤ 23 ∧ m' ≤ 59 ∧ s' ≤ 59 ∧
      o = signed neg (h' * 3600 + m' * 60 + s') := by
  unfold mkOffset signed
  constructor
  · intro e
    split at e
    · next h' m' s' =>
      split at e
      · next hc =>
        simp only [Option.some.injEq] at e
        refine ⟨h', m', s', rfl, rfl, rfl, hc.2.2, hc.1, hc.2.1, ?_⟩
        rw [← e]; cases neg <;> simp
      · simp at e
    · simp at e
  · rintro ⟨h', m', s', rfl, rfl, rfl, h1, h2, h3, rfl⟩
    simp only
    rw [if_pos ⟨h2, h3, h1⟩]
    cases neg <;> simp

theorem hourText_iff (a b : Char) (h : Nat) : HourText [a, b] h ↔ twoDigits a b = some h ∧ h ≤ 23 := by
  rw [twoDigits_iff]
  unfold HourText
  constructor
  · rintro ⟨h1, x, y, e, h2, h3⟩
    simp only [List.cons.injEq, and_true] at e
    obtain ⟨rfl, rfl⟩ := e
    exact ⟨⟨h2, h3⟩, h1⟩
  · rintro ⟨⟨h2, h3⟩, h1⟩; exact ⟨h1, a, b, rfl, h2, h3⟩

theorem sixtyText_iff (a b : Char) (n : Nat) : SixtyText [a, b] n ↔ sixtyDigits a b = some n ∧ n ≤ 59 := by
  rw [sixtyDigits_iff]
  unfold SixtyText
  constructor
  · rintro ⟨h1, y, e, h3⟩
    simp only [List.cons.injEq, and_true] at e
    obtain ⟨rfl, rfl⟩ := e
    exact ⟨⟨by omega, rfl, h3⟩, h1⟩
  · rintro ⟨⟨_, rfl, h3⟩, h1⟩; exact ⟨h1, b, rfl, h3⟩

theorem hourText_two {t : List Char} {h : Nat} (e : HourText t h) : ∃ a b, t = [a, b] := by
  obtain ⟨_, a, b, rfl, _⟩ := e; exact ⟨a, b, rfl⟩
theorem sixtyText_two {t : List Char} {h : Nat} (e : SixtyText t h) : ∃ a b, t = [a, b] := by
  obtain ⟨_, b, rfl, _⟩ := e; exact ⟨_, b, rfl⟩

theorem sixty_zero : SixtyText ['0', '0'] 0 := by
  rw [sixtyText_iff]; decide +kernel

theorem strpOffset_iff (neg : Bool) (r : List Char) (o : Int) :
    strpOffset neg r = some o ↔ ∃ h m s b, WholeOffset r h m s b ∧ o = signed neg (h * 3600 + m * 60 + s) := by
  constructor
  · intro e
    unfold strpOffset at e
    split at e
    · next a b c d =>
      obtain ⟨h, m, s, h1, h2, h3, h4, h5, h6, rfl⟩ := (mkOffset_iff _ _ _ _ _).1 e
      simp only [Option.some.injEq] at h3; subst h3
      exact ⟨h, m, 0, false, ⟨[], [a, b], [c, d], [], .inl rfl, rfl, (hourText_iff _ _ _).2 ⟨h1, h4⟩,
        (sixtyText_iff _ _ _).2 ⟨h2, h5⟩, .inl ⟨rfl, rfl, rfl⟩⟩, rfl⟩
    · next a b x c d =>
      split at e
      · next hx =>
        subst hx
        obtain ⟨h, m, s, h1, h2, h3, h4, h5, h6, rfl⟩ := (mkOffset_iff _ _ _ _ _).1 e
        simp only [Option.some.injEq] at h3; subst h3
        exact ⟨h, m, 0, false, ⟨[':'], [a, b], [c, d], [], .inr rfl, rfl, (hourText_iff _ _ _).2 ⟨h1, h4⟩,
          (sixtyText_iff _ _ _).2 ⟨h2, h5⟩, .inl ⟨rfl, rfl, rfl⟩⟩, rfl⟩
      · simp at e
    · next a b c d e' f =>
      obtain ⟨h, m, s, h1, h2, h3, h4, h5, h6, rfl⟩ := (mkOffset_iff _ _ _ _ _).1 e
      exact ⟨h, m, s, true, ⟨[], [a, b], [c, d], [e', f], .inl rfl, rfl, (hourText_iff _ _ _).2 ⟨h1, h4⟩,
        (sixtyText_iff _ _ _).2 ⟨h2, h5⟩, .inr ⟨rfl, _, rfl, (sixtyText_iff _ _ _).2 ⟨h3, h6⟩⟩⟩, rfl⟩
    · next a b x c d y e' f =>
      split at e
      · next hx =>
        obtain ⟨rfl, rfl⟩ := hx
        obtain ⟨h, m, s, h1, h2, h3, h4, h5, h6, rfl⟩ := (mkOffset_iff _ _ _ _ _).1 e
        exact ⟨h, m, s, true, ⟨[':'], [a, b], [c, d], [':', e', f], .inr rfl, rfl, (hourText_iff _ _ _).2 ⟨h1, h4⟩,
          (sixtyText_iff _ _ _).2 ⟨h2, h5⟩, .inr ⟨rfl, [e', f], rfl, (sixtyText_iff _ _ _).2 ⟨h3, h6⟩⟩⟩, rfl⟩
      · simp at e
    · simp at e
  · rintro ⟨h, m, s, b, ⟨sep, hh, mm, tail, hsep, rfl, h1, h2, h3⟩, rfl⟩
    obtain ⟨a, b', rfl⟩ := hourText_two h1
    obtain ⟨c, d, rfl⟩ := sixtyText_two h2
    obtain ⟨h1, h1'⟩ := (hourText_iff _ _ _).1 h1
    obtain ⟨h2, h2'⟩ := (sixtyText_iff _ _ _).1 h2
    rcases h3 with ⟨_, rfl, rfl⟩ | ⟨_, ss, rfl, h3⟩
    · have := (mkOffset_iff neg (some h) (some m) (some 0) _).2 ⟨h, m, 0, rfl, rfl, rfl, h1', h2', by omega, rfl⟩
      rcases hsep with rfl | rfl
      · simp only [List.nil_append, List.cons_append, strpOffset, h1, h2, this]
      · simp only [List.nil_append, List.cons_append, strpOffset, if_true, h1, h2, this]
    · obtain ⟨e, f, rfl⟩ := sixtyText_two h3
      obtain ⟨h3, h3'⟩ := (sixtyText_iff _ _ _).1 h3
      have := (mkOffset_iff neg (some h) (some m) (some s) _).2 ⟨h, m, s, rfl, rfl, rfl, h1', h2', h3', rfl⟩
      rcases hsep with rfl | rfl
      · simp only [List.nil_append, List.cons_append, strpOffset, h1, h2, h3, this]
      · simp only [List.nil_append, List.cons_append, strpOffset, and_self, if_true, h1, h2, h3, this]

theorem wholeOffset_length {r : List Char} {h m s : Nat} {b : Bool} (e : WholeOffset r h m s b) :
    (b = true → 6 ≤ r.length) ∧ (b = false → r.length ≤ 5 ∧ s = 0) := by
  obtain ⟨sep, hh, mm, tail, hsep, rfl, h1, h2, h3⟩ := e
  obtain ⟨a, b', rfl⟩ := hourText_two h1
  obtain ⟨c, d, rfl⟩ := sixtyText_two h2
  rcases h3 with ⟨rfl, rfl, rfl⟩ | ⟨rfl, ss, rfl, h3⟩
  · rcases hsep with rfl | rfl <;> simp
  · obtain ⟨e, f, rfl⟩ := sixtyText_two h3
    rcases hsep with rfl | rfl <;> simp

/-- the characters of an offset of whole seconds -/
theorem wholeOffset_chars {r : List Char} {h m s : Nat} {b : Bool} (e : WholeOffset r h m s b) :
    ∀ c ∈ r, c = ':' ∨ ∃ k, IsDecimal c k := by
  obtain ⟨sep, hh, mm, tail, hsep, rfl, ⟨_, a, b', rfl, ha, hb⟩, ⟨h2, d, rfl, hd⟩, h3⟩ := e
  have hs : ∀ c ∈ sep, c = ':' ∨ ∃ k, IsDecimal c k := by
    rcases hsep with rfl | rfl
    · simp
    · intro c hc; simp at hc; exact .inl hc
  have ht : ∀ c ∈ tail, c = ':' ∨ ∃ k, IsDecimal c k := by
    rcases h3 with ⟨_, rfl, _⟩ | ⟨_, ss, rfl, h4, e, rfl, he⟩
    · simp
    · intro c hc
      simp only [List.mem_append, List.mem_cons, List.not_mem_nil, or_false] at hc
      rcases hc with hc | rfl | rfl
      · exact hs c hc
      · exact .inr ⟨_, digit_isDecimal (by omega)⟩
      · exact .inr ⟨_, he⟩
  intro c hc
  simp only [List.mem_append, List.mem_cons, List.not_mem_nil, or_false] at hc
  rcases hc with (rfl | rfl) | hc | (rfl | rfl) | hc
  · exact .inr ⟨_, ha⟩
  · exact .inr ⟨_, hb⟩
  · exact hs c hc
  · exact .inr ⟨_, digit_isDecimal (by omega)⟩
  · exact .inr ⟨_, hd⟩
  · exact ht c hc

theorem placesText_iff (w : Nat) (f : List Char) (u : Nat) :
    PlacesText w f u ↔ f.length ≤ w ∧ (∀ c ∈ f, ∃ k, IsDecimal c k) ∧
      u = f.foldl (fun n c => n * 10 + (decimalVal? c).getD 0) 0 * 10 ^ (w - f.length) := by
  have gen : ∀ (f : List Char) (w acc u : Nat), f.length ≤ w →
      (f.foldl (fun n c => n * 10 + (decimalVal? c).getD 0) acc * 10 ^ (w - f.length) =
        acc * 10 ^ w + f.foldl (fun n c => n * 10 + (decimalVal? c).getD 0) 0 * 10 ^ (w - f.length)) := by
    intro f
    induction f with
    | nil => intro w acc u _; simp
    | cons c cs ih =>
      intro w acc u hw
      obtain ⟨w', rfl⟩ : ∃ w', w = w' + 1 := ⟨w - 1, by simp at hw; omega⟩
      simp only [List.length_cons, Nat.add_le_add_iff_right] at hw
      simp only [List.foldl_cons, List.length_cons, Nat.add_sub_add_right]
      rw [ih w' _ 0 hw, ih w' (0 * 10 + _) 0 hw]
      simp only [Nat.zero_mul, Nat.zero_add, Nat.add_mul, Nat.pow_succ]
      rw [Nat.mul_assoc acc 10, Nat.mul_comm 10 (10 ^ w'), Nat.add_assoc]
  induction f generalizing w u with
  | nil =>
    cases w <;> simp [PlacesText]
  | cons c cs ih =>
    cases w with
    | zero => simp [PlacesText]
    | succ w =>
      simp only [PlacesText, ih, List.length_cons, Nat.add_le_add_iff_right, List.foldl_cons, Nat.add_sub_add_right,
        List.mem_cons, forall_eq_or_imp]
      constructor
      · rintro ⟨k, u', hk, ⟨h1, h2, rfl⟩, rfl⟩
        refine ⟨h1, ⟨⟨k, hk⟩, h2⟩, ?_⟩
        rw [gen cs w (0 * 10 + _) 0 h1, (decimalVal_iff _ _).2 hk]
        simp
      · rintro ⟨h1, ⟨⟨k, hk⟩, h2⟩, rfl⟩
        refine ⟨k, _, hk, ⟨h1, h2, rfl⟩, ?_⟩
        rw [gen cs w (0 * 10 + _) 0 h1, (decimalVal_iff _ _).2 hk]
        simp

theorem fracUs_iff (f : List Char) (u : Nat) : fracUs f = some u ↔ OffsetFrac f u := by
  unfold fracUs OffsetFrac
  rw [placesText_iff]
  have e : (f.all (fun c => (decimalVal? c).isSome) = true) ↔ ∀ c ∈ f, ∃ k, IsDecimal c k := by
    simp only [List.all_eq_true, isSome_decimal]
  constructor
  · intro h
    split at h
    · next hc =>
      simp only [Option.some.injEq] at h
      exact ⟨hc.1, hc.2.1, e.1 hc.2.2, h.symm⟩
    · simp at h
  · rintro ⟨h1, h2, h3, rfl⟩
    rw [if_pos ⟨h1, h2, e.2 h3⟩]

theorem addFrac_iff (neg : Bool) (o : Option Int) (u : Option Nat) (v : Int) :
    addFrac neg o u = some v ↔ ∃ o' u', o = some o' ∧ u = some u' ∧ v = o' * 1000000 + signed neg u' := by
  unfold addFrac signed
  constructor
  · intro h
    split at h
    · next o' u' => simp only [Option.some.injEq] at h; exact ⟨o', u', rfl, rfl, h.symm⟩
    · simp at h
  · rintro ⟨o', u', rfl, rfl, rfl⟩; rfl

theorem signed_frac (neg : Bool) (n u : Nat) :
    signed neg n * 1000000 + signed neg u = signed neg (n * 1000000 + u) := by
  cases neg <;> simp only [signed, Bool.false_eq_true, if_false, if_true] <;> omega

theorem plainOffset_iff (r : List Char) (v : Nat) :
    PlainOffset r v ↔ (∃ h m s b, WholeOffset r h m s b ∧ v = (h * 3600 + m * 60 + s) * 1000000) ∨
      ∃ a f h m s u, r = a ++ '.' :: f ∧ WholeOffset a h m s true ∧ OffsetFrac f u ∧
        v = (h * 3600 + m * 60 + s) * 1000000 + u := by
  constructor
  · rintro ⟨h, m, s, u, sep, hh, mm, tail, rfl, hsep, rfl, h1, h2, ⟨rfl, rfl, rfl⟩ | ⟨ss, fr, rfl, h3, ⟨rfl, rfl⟩ | ⟨f, rfl, hf⟩⟩⟩
    · exact .inl ⟨h, m, 0, false, ⟨sep, hh, mm, [], hsep, rfl, h1, h2, .inl ⟨rfl, rfl, rfl⟩⟩, Nat.add_zero _⟩
    · exact .inl ⟨h, m, s, true, ⟨sep, hh, mm, sep ++ ss, hsep, by simp, h1, h2, .inr ⟨rfl, ss, rfl, h3⟩⟩, Nat.add_zero _⟩
    · exact .inr ⟨hh ++ (sep ++ (mm ++ (sep ++ ss))), f, h, m, s, u, by simp,
        ⟨sep, hh, mm, sep ++ ss, hsep, rfl, h1, h2, .inr ⟨rfl, ss, rfl, h3⟩⟩, hf, rfl⟩
  · rintro (⟨h, m, s, b, ⟨sep, hh, mm, tail, hsep, rfl, h1, h2, h3⟩, rfl⟩ |
      ⟨a, f, h, m, s, u, rfl, ⟨sep, hh, mm, tail, hsep, rfl, h1, h2, h3⟩, hf, rfl⟩)
    · refine ⟨h, m, s, 0, sep, hh, mm, tail, (Nat.add_zero _).symm, hsep, rfl, h1, h2, ?_⟩
      rcases h3 with ⟨_, rfl, rfl⟩ | ⟨_, ss, rfl, h3⟩
      · exact .inl ⟨rfl, rfl, rfl⟩
      · exact .inr ⟨ss, [], by simp, h3, .inl ⟨rfl, rfl⟩⟩
    · rcases h3 with ⟨e, _⟩ | ⟨_, ss, rfl, h3⟩
      · cases e
      · exact ⟨h, m, s, u, sep, hh, mm, sep ++ (ss ++ '.' :: f), rfl, hsep, by simp, h1, h2,
          .inr ⟨ss, '.' :: f, rfl, h3, .inr ⟨f, rfl, hf⟩⟩⟩

theorem strpOffsetUs_iff (neg : Bool) (r : List Char) (o : Int) :
    strpOffsetUs neg r = some o ↔ ∃ v, PlainOffset r v ∧ o = signed neg v := by
  have nopoint : ∀ {a h m s b}, WholeOffset a h m s b → '.' ∉ a := fun e hm => by
    rcases wholeOffset_chars e _ hm with e | ⟨k, hk⟩
    · exact absurd e (by decide)
    · exact isDecimal_ne hk (by decide) rfl
  unfold strpOffsetUs
  constructor
  · intro e
    split at e
    · obtain ⟨o', u', h1, h2, rfl⟩ := (addFrac_iff _ _ _ _).1 e
      simp only [Option.some.injEq] at h2; subst h2
      obtain ⟨h, m, s, b, hw, rfl⟩ := (strpOffset_iff _ _ _).1 h1
      exact ⟨_, (plainOffset_iff _ _).2 (.inl ⟨h, m, s, b, hw, rfl⟩), by rw [signed_frac, Nat.add_zero]⟩
    · next a f hs =>
      split at e
      · next hl =>
        obtain ⟨o', u', h1, h2, rfl⟩ := (addFrac_iff _ _ _ _).1 e
        obtain ⟨h, m, s, b, hw, rfl⟩ := (strpOffset_iff _ _ _).1 h1
        have hb : b = true := by
          cases b with
          | true => rfl
          | false => have := ((wholeOffset_length hw).2 rfl).1; omega
        subst hb
        exact ⟨_, (plainOffset_iff _ _).2 (.inr ⟨a, f, h, m, s, u', (splitFirst_some_iff.1 hs).1, hw,
          (fracUs_iff _ _).1 h2, rfl⟩), by rw [signed_frac]⟩
      · simp at e
  · rintro ⟨v, hp, rfl⟩
    rcases (plainOffset_iff _ _).1 hp with ⟨h, m, s, b, hw, rfl⟩ | ⟨a, f, h, m, s, u, rfl, hw, hf, rfl⟩
    · rw [splitFirst_none_iff.2 ⟨rfl, nopoint hw⟩]
      exact (addFrac_iff _ _ _ _).2 ⟨_, 0, (strpOffset_iff _ _ _).2 ⟨h, m, s, b, hw, rfl⟩, rfl, by rw [signed_frac, Nat.add_zero]⟩
    · rw [splitFirst_some_iff.2 ⟨rfl, nopoint hw⟩]
      simp only []
      rw [if_pos ((wholeOffset_length hw).1 rfl)]
      exact (addFrac_iff _ _ _ _).2 ⟨_, u, (strpOffset_iff _ _ _).2 ⟨h, m, s, true, hw, rfl⟩, (fracUs_iff _ _).2 hf,
        by rw [signed_frac]⟩

theorem placesText_chars {w : Nat} {f : List Char} {u : Nat} (h : PlacesText w f u) : ∀ c ∈ f, ∃ k, IsDecimal c k :=
  ((placesText_iff _ _ _).1 h).2.1

/-- the characters of an offset -/
theorem plainOffset_chars {r : List Char} {v : Nat} (h : PlainOffset r v) :
    ∀ c ∈ r, c = ':' ∨ c = '.' ∨ ∃ k, IsDecimal c k := by
  intro c hc
  rcases (plainOffset_iff _ _).1 h with ⟨h, m, s, b, hw, rfl⟩ | ⟨a, f, h, m, s, u, rfl, hw, hf, rfl⟩
  · rcases wholeOffset_chars hw c hc with h | h
    · exact .inl h
    · exact .inr (.inr h)
  · simp only [List.mem_append, List.mem_cons] at hc
    rcases hc with hc | hc | hc
    · rcases wholeOffset_chars hw c hc with h | h
      · exact .inl h
      · exact .inr (.inr h)
    · exact .inr (.inl hc)
    · exact .inr (.inr (placesText_chars hf.2 c hc))

theorem isDecimal_ne_plus {c : Char} {n : Nat} (h : IsDecimal c n) : c ≠ '+' := by
  rintro rfl
  have := (decimalVal_iff _ _).2 h
  rw [show decimalVal? '+' = none by decide +kernel] at this
  simp at this

theorem strpSecOff_iff (s : List Char) (n : Nat) (o : Int) :
    strpSecOff s = some (n, o) ↔ ∃ st ot, s = st ++ ot ∧ FieldText 59 st n ∧ OffsetText ot o := by
  have nosign : ∀ {mx t k}, mx < 100 → FieldText mx t k → '+' ∉ t ∧ '-' ∉ t ∧ 'Z' ∉ t := fun hm h =>
    ⟨fun hc => by obtain ⟨k, hk⟩ := fieldText_chars hm h _ hc; exact isDecimal_ne_plus hk rfl,
      fieldText_not_mem hm h (by decide), fieldText_not_mem hm h (by decide)⟩
  unfold strpSecOff OffsetText
  constructor
  · intro e
    split at e
    · next sec r hs =>
      split at e
      · next n' o' h1 h2 =>
        simp only [Option.some.injEq, Prod.mk.injEq] at e
        obtain ⟨rfl, rfl⟩ := e
        obtain ⟨v, hv, rfl⟩ := (strpOffsetUs_iff _ _ _).1 h2
        exact ⟨sec, '+' :: r, (splitFirst_some_iff.1 hs).1, (strpTwo_iff (by decide) _ _).1 h1,
          .inr ⟨r, v, hv, .inl ⟨rfl, rfl⟩⟩⟩
      · simp at e
    · split at e
      · next sec r hs =>
        split at e
        · next n' o' h1 h2 =>
          simp only [Option.some.injEq, Prod.mk.injEq] at e
          obtain ⟨rfl, rfl⟩ := e
          obtain ⟨v, hv, rfl⟩ := (strpOffsetUs_iff _ _ _).1 h2
          exact ⟨sec, '-' :: r, (splitFirst_some_iff.1 hs).1, (strpTwo_iff (by decide) _ _).1 h1,
            .inr ⟨r, v, hv, .inr ⟨rfl, rfl⟩⟩⟩
        · simp at e
      · split at e
        · next sec hs =>
          simp only [Option.map_eq_some_iff, Prod.mk.injEq] at e
          obtain ⟨k, hk, rfl, rfl⟩ := e
          exact ⟨sec, ['Z'], (splitFirst_some_iff.1 hs).1, (strpTwo_iff (by decide) _ _).1 hk, .inl ⟨rfl, rfl⟩⟩
        · simp at e
  · rintro ⟨st, ot, rfl, hf, ⟨rfl, rfl⟩ | ⟨r, v, hv, ⟨rfl, rfl⟩ | ⟨rfl, rfl⟩⟩⟩
    all_goals obtain ⟨n1, n2, n3⟩ := nosign (by decide) hf
    · rw [splitFirst_none_iff.2 ⟨rfl, by simp [n1]⟩]
      simp only []
      rw [splitFirst_none_iff.2 ⟨rfl, by simp [n2]⟩]
      simp only []
      rw [splitFirst_some_iff.2 ⟨rfl, n3⟩]
      simp only [(strpTwo_iff (by decide) _ _).2 hf, Option.map_some]
    · rw [splitFirst_some_iff.2 ⟨rfl, n1⟩]
      simp only [(strpTwo_iff (by decide) _ _).2 hf, (strpOffsetUs_iff false _ _).2 ⟨v, hv, rfl⟩]
      rfl
    · have hp : '+' ∉ st ++ '-' :: r := by
        simp only [List.mem_append, List.mem_cons, not_or]
        refine ⟨n1, by decide, fun hc => ?_⟩
        rcases plainOffset_chars hv _ hc with e | e | ⟨k, hk⟩
        · exact absurd e (by decide)
        · exact absurd e (by decide)
        · exact isDecimal_ne_plus hk rfl
      rw [splitFirst_none_iff.2 ⟨rfl, hp⟩]
      simp only []
      rw [splitFirst_some_iff.2 ⟨rfl, n2⟩]
      simp only [(strpTwo_iff (by decide) _ _).2 hf, (strpOffsetUs_iff true _ _).2 ⟨v, hv, rfl⟩]
      rfl

theorem strpClockOff_iff (s : List Char) (h m n : Nat) (o : Int) :
    strpClockOff s = some (h, m, n, o) ↔ ∃ ht mt st ot, s = ht ++ ':' :: (mt ++ ':' :: (st ++ ot)) ∧ FieldText 23 ht h ∧
      FieldText 59 mt m ∧ FieldText 59 st n ∧ OffsetText ot o := by
  unfold strpClockOff
  constructor
  · intro hh
    split at hh
    · simp at hh
    · next ht r hs =>
      split at hh
      · next h' m' n' o' h1 h2 =>
        simp only [Option.some.injEq, Prod.mk.injEq] at hh
        obtain ⟨rfl, rfl, rfl, rfl⟩ := hh
        unfold strpMinSecOff at h2
        split at h2
        · simp at h2
        · next mt r' hs' =>
          split at h2
          · next m'' n'' o'' h3 h4 =>
            simp only [Option.some.injEq, Prod.mk.injEq] at h2
            obtain ⟨rfl, rfl, rfl⟩ := h2
            obtain ⟨st, ot, rfl, h5, h6⟩ := (strpSecOff_iff _ _ _).1 h4
            have e' := (splitFirst_some_iff.1 hs').1
            subst e'
            exact ⟨ht, mt, st, ot, (splitFirst_some_iff.1 hs).1, (strpTwo_iff (by decide) _ _).1 h1,
              (strpTwo_iff (by decide) _ _).1 h3, h5, h6⟩
          · simp at h2
      · simp at hh
  · rintro ⟨ht, mt, st, ot, rfl, h1, h2, h3, h4⟩
    have e : strpMinSecOff (mt ++ ':' :: (st ++ ot)) = some (m, n, o) := by
      unfold strpMinSecOff
      rw [splitFirst_some_iff.2 ⟨rfl, fieldText_not_mem (by decide) h2 (by decide)⟩]
      simp only [(strpTwo_iff (by decide) _ _).2 h2, (strpSecOff_iff _ _ _).2 ⟨st, ot, rfl, h3, h4⟩]
    rw [splitFirst_some_iff.2 ⟨rfl, fieldText_not_mem (by decide) h1 (by decide)⟩]
    simp only [(strpTwo_iff (by decide) _ _).2 h1, e]

theorem timegm_tmFields (y m d h mi sec : Nat) : timegm (tmFields y m d h mi sec) = secondOf y m d h mi sec :=
  timegm_secondOf _ _ _ _ _ _ _ _

theorem fromIsoTime_iff (s : List Char) (us : Int) : fromIsoTime s = some us ↔ StampText s us := by
  unfold fromIsoTime StampText
  constructor
  · intro hh
    split at hh
    · simp at hh
    · next dt ct hs =>
      split at hh
      · next y m d h mi sec o h1 h2 =>
        simp only [Option.some.injEq] at hh
        obtain ⟨t, e, ht, _⟩ := splitFirstP_some_iff.1 hs
        obtain ⟨ht', mt, st, ot, rfl, c1, c2, c3, c4⟩ := (strpClockOff_iff _ _ _ _ _).1 h2
        exact ⟨y, m, d, h, mi, sec, o, dt, t, ht', mt, st, ot, e, (strpDate_iff _ _ _ _).1 h1, by simpa using ht, c1, c2, c3,
          c4, by rw [← hh, timegm_tmFields]⟩
      · simp at hh
  · rintro ⟨y, m, d, h, mi, sec, o, dt, t, ht, mt, st, ot, rfl, h1, h2, c1, c2, c3, c4, rfl⟩
    rw [splitFirstP_some_iff.2 ⟨t, rfl, by simpa using h2, fun x hx => ?_⟩]
    · simp only [(strpDate_iff _ _ _ _).2 h1, (strpClockOff_iff _ _ _ _ _).2 ⟨ht, mt, st, ot, rfl, c1, c2, c3, c4⟩,
        timegm_tmFields]
    · rcases dateText_chars h1 x hx with rfl | rfl | ⟨k, hk⟩
      · decide
      · decide
      · have h1 : x ≠ 'T' := isDecimal_ne hk (by decide)
        have h2 : x ≠ 't' := isDecimal_ne hk (by decide)
        simp [h1, h2]

/-- **C168, exactly which time stamps are read**: those of the grammar, as the float of the microseconds they stand for;
every other text is a `ValueError`. -/
theorem C168_time (z : Zone) (t : String) :
    (∀ v, isoDeser z .time (.str t) = .ok v ↔ ∃ us, StampText t.toList us ∧ v = .flt (secondsOfUs us)) ∧
    (isoDeser z .time (.str t) = .error .valueError ↔ ¬ ∃ us, StampText t.toList us) := by
  simp only [isoDeser, fromIso, ← fromIsoTime_iff]
  cases h : fromIsoTime t.toList with
  | none => simp
  | some us =>
    simp only [Option.map_some, Except.ok.injEq, Option.some.injEq]
    refine ⟨fun v => ⟨fun e => ⟨us, rfl, e.symm⟩, ?_⟩, ?_⟩
    · rintro ⟨_, rfl, rfl⟩; rfl
    · constructor
      · intro e; cases e
      · intro e; exact absurd ⟨us, rfl⟩ e

/-- **C168, exactly which dates are read**: existing days, as the beginning of the day in the local zone; every other text is
a `ValueError`. -/
theorem C168_date (z : Zone) (t : String) :
    (∀ v, isoDeser z .date (.str t) = .ok v ↔
      ∃ y m d, DateText t.toList y m d ∧ v = .flt (pyMktime z (secondOf y m d 0 0 0) : Int)) ∧
    (isoDeser z .date (.str t) = .error .valueError ↔ ¬ ∃ y m d, DateText t.toList y m d) := by
  simp only [isoDeser, fromIso, fromIsoDate, ← strpDate_iff]
  cases h : strpDate t.toList with
  | none => simp
  | some x =>
    obtain ⟨y, m, d⟩ := x
    simp only [Option.map_some, Except.ok.injEq, Option.some.injEq, Prod.mk.injEq, timegm_tmFields]
    refine ⟨fun v => ⟨fun e => ⟨y, m, d, ⟨rfl, rfl, rfl⟩, e.symm⟩, ?_⟩, ?_⟩
    · rintro ⟨_, _, _, ⟨rfl, rfl, rfl⟩, rfl⟩; rfl
    · constructor
      · intro e; cases e
      · intro e; exact absurd ⟨y, m, d, rfl, rfl, rfl⟩ e

/-- **C168, the number read**: the microseconds divided by a million when that is whole (and below `2^53`), and otherwise no
number of 53 bits is closer to the quotient. -/
theorem C168_seconds (us : Int) :
    (∀ x : Int, us = x * 1000000 → x.natAbs < 2 ^ 53 → secondsOfUs us = x) ∧
    (∀ m, IsUnits m → dist (us.natAbs * unitDen) (fltUnits (secondsOfUs us) * 1000000) ≤
      dist (us.natAbs * unitDen) (m * 1000000)) := by
  constructor
  · rintro x rfl h; exact secondsOfUs_whole h
  · intro m hm
    unfold secondsOfUs
    rw [fltUnits_fltOfUnits]
    exact roundUnits_nearest _ _ m (by decide) hm

/-- the sign: a time before 1970 is negative -/
theorem C168_sign (us : Int) : (0 ≤ us → 0 ≤ secondsOfUs us) ∧ (us ≤ 0 → secondsOfUs us ≤ 0) := by
  unfold secondsOfUs
  by_cases h0 : roundUnits us.natAbs 1000000 = 0
  · rw [h0, fltOfUnits_zero]
    exact ⟨fun _ => by decide, fun _ => by decide⟩
  · have h1 := fltOfUnits_neg (decide (us < 0)) _ h0
    rw [decide_eq_true_eq] at h1
    constructor
    · intro h
      rw [← Rat.num_nonneg]
      omega
    · intro h
      by_cases hz : us = 0
      · subst hz
        exact absurd (by simp [roundUnits, divEven]) h0
      · have h2 := h1.2 (by omega)
        refine Rat.le_of_lt (Rat.not_le.1 fun hc => ?_)
        have := Rat.num_nonneg.2 hc
        omega

/-! The forms of an offset, and a fraction. -/
example : fromIsoTime "2024-02-29T12:00:00+0130".toList = some (1709208000000000 - 5400000000) := by decide +kernel
example : fromIsoTime "2024-02-29T12:00:00-01:30:15".toList = some (1709208000000000 + 5415000000) := by decide +kernel
example : fromIsoTime "2024-02-29T12:00:00-00:00:00.25".toList = some (1709208000000000 + 250000) := by decide +kernel
example : fromIsoTime "2024-02-29T12:00:00+00:00.25".toList = none := by decide +kernel
example : fromIsoTime "2024-02-29T12:00:00+0000:15".toList = none := by decide +kernel
example : fromIsoTime "2024-02-29T12:00:00Z".toList = some 1709208000000000 := by decide +kernel
example : fromIsoTime "2024-02-29T12:00:60Z".toList = none := by decide +kernel
/-- so the grammar has texts -/
example : StampText "2024-02-29T12:00:00-00:00:00.25".toList 1709208000250000 :=
  (fromIsoTime_iff _ _).1 (by decide +kernel)
example : ¬ ∃ us, StampText "2024-02-29T12:00:00z".toList us := by
  rintro ⟨us, h⟩
  have := (fromIsoTime_iff _ _).2 h
  rw [show fromIsoTime "2024-02-29T12:00:00z".toList = none by decide +kernel] at this
  cases this

end Verif
