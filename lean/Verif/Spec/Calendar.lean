import Verif.Model.Time
/-
The proleptic Gregorian calendar, by its usual rules.
-/
namespace Abieos.Spec

/-- Leap years: divisible by 4, but not by 100 unless by 400. -/
def IsLeap (y : Int) : Prop := y % 4 = 0 ∧ (y % 100 ≠ 0 ∨ y % 400 = 0)
instance (y : Int) : Decidable (IsLeap y) := by unfold IsLeap; infer_instance

/-- Length of a month. -/
def monthLength (y : Int) (m : Nat) : Nat :=
  if m = 2 then (if IsLeap y then 29 else 28) else if m = 4 ∨ m = 6 ∨ m = 9 ∨ m = 11 then 30 else 31

/-- A date of the calendar. -/
def ValidDate (x : Date) : Prop := 1 ≤ x.m ∧ x.m ≤ 12 ∧ 1 ≤ x.d ∧ x.d ≤ monthLength x.y x.m

instance (x : Date) : Decidable (ValidDate x) := by unfold ValidDate; infer_instance

/-- The day after. -/
def tomorrow (x : Date) : Date :=
  if x.d < monthLength x.y x.m then ⟨x.y, x.m, x.d + 1⟩
  else if x.m < 12 then ⟨x.y, x.m + 1, 1⟩
  else ⟨x.y + 1, 1, 1⟩

end Abieos.Spec
