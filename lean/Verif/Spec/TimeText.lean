import Verif.Spec.Calendar
import Verif.Spec.Decimal
/-
What a date-and-time text says, independently of the code.
-/
namespace Abieos.Spec

/-- The date `n` days after 1 January 1970. -/
def dayDate : Nat → Date
  | 0 => ⟨1970, 1, 1⟩
  | n + 1 => tomorrow (dayDate n)

/-- `s` is the number `v` written with exactly `k` decimal digits. -/
def Padded (k v : Nat) (s : List UInt8) : Prop := s.length = k ∧ (∀ c ∈ s, IsDigit c) ∧ decVal s = v

/-- `s` reads `YYYY-MM-DDThh:mm:ss`, with these numbers. -/
def DateTimeText (y m d hour min sec : Nat) (s : List UInt8) : Prop :=
  ∃ sy sm sd sh smin ss, Padded 4 y sy ∧ Padded 2 m sm ∧ Padded 2 d sd ∧ Padded 2 hour sh ∧ Padded 2 min smin ∧ Padded 2 sec ss ∧
    s = sy ++ [45] ++ sm ++ [45] ++ sd ++ [84] ++ sh ++ [58] ++ smin ++ [58] ++ ss

/-- The number of seconds from 1970-01-01T00:00:00 to the given time of the day that comes `days` days after 1 January
1970. -/
def instant (days hour min sec : Nat) : Nat := ((days * 24 + hour) * 60 + min) * 60 + sec

/-- `DayNumber x n`: the date `x` of the calendar is `n` days after 1 January 1970, or `-n` days before it. -/
inductive DayNumber : Date → Int → Prop
  | epoch : DayNumber ⟨1970, 1, 1⟩ 0
  | after {x : Date} {n : Int} : DayNumber x n → DayNumber (tomorrow x) (n + 1)
  | before {x : Date} {n : Int} : ValidDate x → DayNumber (tomorrow x) n → DayNumber x (n - 1)

/-- The day that counts as the first of month `m` of year `y`. Month 0 is December of the year before; months after December are
counted from 1 March, by the same formula that gives the length of the other months, 153 days for five months. -/
inductive MonthStart (y : Int) : Nat → Int → Prop
  | month {m : Nat} {n : Int} : 1 ≤ m → m ≤ 12 → DayNumber ⟨y, m, 1⟩ n → MonthStart y m n
  | zero {n : Int} : DayNumber ⟨y - 1, 12, 1⟩ n → MonthStart y 0 n
  | beyond {m : Nat} {n : Int} : 12 < m → DayNumber ⟨y, 3, 1⟩ n → MonthStart y m (n + (153 * (m - 3) + 2) / 5)

/-- The text `w` reads `YYYY-MM-DDThh:mm:ss`, and is the time `t` seconds after the start of 1970. Each of the six numbers may be too large (or
zero); days, hours, minutes and seconds are then counted on. -/
def SecondsText (w : List UInt8) (t : Int) : Prop :=
  ∃ y m d hour min sec n, DateTimeText y m d hour min sec w ∧ MonthStart y m n ∧ t = (((n + d - 1) * 24 + hour) * 60 + min) * 60 + sec

/-- The text is a time with an optional fraction of a second, the digits `g`, which has at most `most` digits if that is said. -/
def TimeText (most : Option Nat) (s : List UInt8) (t : Int) (g : List UInt8) : Prop :=
  ∃ w, SecondsText w t ∧ (∀ c ∈ g, IsDigit c) ∧ (∀ k, most = some k → g.length ≤ k) ∧ ((g = [] ∧ s = w) ∨ s = w ++ 46 :: g)

end Abieos.Spec
