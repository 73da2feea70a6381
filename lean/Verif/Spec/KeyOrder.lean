import Verif.Model.ToKey
import Verif.Spec.FixedBytes
/-
The order of C++ values: `operator<` of the standard library's types, and of structs compared field by field.
-/
namespace Abieos.Spec

/-- `std::lexicographical_compare` -/
def LexLess {α : Type} (lt : α → α → Prop) : List α → List α → Prop
  | _, [] => False
  | [], _ :: _ => True
  | x :: a, y :: b => lt x y ∨ (¬ lt y x ∧ LexLess lt a b)

/-- IEEE 754 binary format with `p` fraction bits and `e` exponent bits: not a NaN -/
def NotNan (p e bits : Nat) : Prop := ¬ (bits / 2 ^ p % 2 ^ e = 2 ^ e - 1 ∧ bits % 2 ^ p ≠ 0)

/-- The magnitude of a number, in units of the least denormal. Infinity is what would come after the largest finite number. -/
def ieeeUnits (p mag : Nat) : Nat :=
  if mag / 2 ^ p = 0 then mag % 2 ^ p else (2 ^ p + mag % 2 ^ p) * 2 ^ (mag / 2 ^ p - 1)

/-- The number, in units of the least denormal: the sign bit is before the exponent bits, these are before the fraction bits. -/
def ieeeValue (p e bits : Nat) : Int :=
  if bits / 2 ^ (p + e) % 2 = 1 then -(ieeeUnits p (bits % 2 ^ (p + e)) : Int) else ieeeUnits p (bits % 2 ^ (p + e))

mutual
/-- `a < b` for two values of the type. Characters of strings compare as unsigned, elements of containers one after the other, empty
optionals come first, variants compare their index first. -/
def KeyLess : KTy → KVal → KVal → Prop
  | .uint _, .nat a, .nat b => a < b
  | .sint _, .int a, .int b => a < b
  | .bool, .flag a, .flag b => a = false ∧ b = true
  | .float, .bits a, .bits b => ieeeValue 23 8 a < ieeeValue 23 8 b
  | .double, .bits a, .bits b => ieeeValue 52 11 a < ieeeValue 52 11 b
  | .varuint32, .nat a, .nat b => a < b
  | .str, .bytes a, .bytes b => LexLess (fun x y => x.toNat < y.toNat) a b
  | .fixed _ _, .words a, .words b => LexLess (fun x y => x < y) a b
  | .seq t, .list a, .list b => LexLess (KeyLess t) a b
  | .arr _ t, .list a, .list b => LexLess (KeyLess t) a b
  | .opt _, .none, .some _ => True
  | .opt t, .some a, .some b => KeyLess t a b
  | .variant ts, .alt i a, .alt j b => i < j ∨ (i = j ∧ KeyLessAlt ts i a b)
  | .struct ts, .list a, .list b => KeyLessFields ts a b
  | _, _, _ => False
def KeyLessAlt : List KTy → Nat → KVal → KVal → Prop
  | [], _, _, _ => False
  | t :: _, 0, a, b => KeyLess t a b
  | _ :: ts, i + 1, a, b => KeyLessAlt ts i a b
def KeyLessFields : List KTy → List KVal → List KVal → Prop
  | t :: ts, x :: a, y :: b => KeyLess t x y ∨ (¬ KeyLess t y x ∧ KeyLessFields ts a b)
  | _, _, _ => False
end

mutual
/-- The value is one of the type. NaNs are left out: they are not ordered. The words of a `fixed_bytes` have no bits but those of
its bytes. -/
def IsKey : KTy → KVal → Prop
  | .uint n, .nat x => 0 < n ∧ x < 256 ^ n
  | .sint n, .int x => 0 < n ∧ -(2 ^ (8 * n - 1)) ≤ x ∧ x < 2 ^ (8 * n - 1)
  | .bool, .flag _ => True
  | .float, .bits x => x < 2 ^ 32 ∧ NotNan 23 8 x
  | .double, .bits x => x < 2 ^ 64 ∧ NotNan 52 11 x
  | .varuint32, .nat x => x < 2 ^ 32
  | .str, .bytes _ => True
  | .fixed size word, .words l => 0 < word ∧ ∃ b, Holds size word l b
  | .seq t, .list l => ∀ v ∈ l, IsKey t v
  | .arr n t, .list l => l.length = n ∧ ∀ v ∈ l, IsKey t v
  | .opt _, .none => True
  | .opt t, .some v => IsKey t v
  | .variant ts, .alt i v => i < 2 ^ 32 ∧ IsKeyAlt ts i v
  | .struct ts, .list l => IsKeyFields ts l
  | _, _ => False
def IsKeyAlt : List KTy → Nat → KVal → Prop
  | [], _, _ => False
  | t :: _, 0, v => IsKey t v
  | _ :: ts, i + 1, v => IsKeyAlt ts i v
def IsKeyFields : List KTy → List KVal → Prop
  | [], [] => True
  | t :: ts, v :: l => IsKey t v ∧ IsKeyFields ts l
  | _, _ => False
end

mutual
/-- The type has no floating-point numbers in it. -/
def Exact : KTy → Prop
  | .float => False
  | .double => False
  | .seq t => Exact t
  | .arr _ t => Exact t
  | .opt t => Exact t
  | .variant ts => ExactAll ts
  | .struct ts => ExactAll ts
  | _ => True
def ExactAll : List KTy → Prop
  | [] => True
  | t :: ts => Exact t ∧ ExactAll ts
end

end Abieos.Spec
