/-! Independent specification of decimal digit strings. -/
namespace Abieos.Spec

/-- A decimal digit character: '0' is 48, '9' is 57. -/
def IsDigit (c : UInt8) : Prop := 48 ≤ c.toNat ∧ c.toNat ≤ 57
instance (c : UInt8) : Decidable (IsDigit c) := by unfold IsDigit; infer_instance

/-- The value of a digit character. (Irreducible only to keep unification fast.) -/
@[irreducible] def digitVal (c : UInt8) : Nat := c.toNat - 48

theorem digitVal_eq (c : UInt8) : digitVal c = c.toNat - 48 := by unfold digitVal; rfl

/-- The number a digit string denotes, continuing from the number `m` already read. -/
def decFrom (m : Nat) : List UInt8 → Nat
  | [] => m
  | c :: s => decFrom (m * 10 + digitVal c) s

/-- The number a digit string denotes. -/
def decVal (s : List UInt8) : Nat := decFrom 0 s

/-- `s` is a non-empty string of decimal digits denoting `n`. -/
def IsDecimal (s : List UInt8) (n : Nat) : Prop := s ≠ [] ∧ (∀ c ∈ s, IsDigit c) ∧ decVal s = n

/-- `s` is the text of the integer `v`: decimal digits, with a leading '-' (45) allowed for signed types. -/
def IsIntText (signed : Bool) (s : List UInt8) (v : Int) : Prop :=
  (∃ n : Nat, IsDecimal s n ∧ v = n) ∨
  (signed = true ∧ ∃ s' n, s = 45 :: s' ∧ IsDecimal s' n ∧ v = -(n : Int))

end Abieos.Spec
