import Verif.Model.StaticBin
/-!
The binary format of C++ values, stated without the code that writes or reads it. The types and values are those of the model
(`BTy`, `BVal`).
-/
namespace Abieos.Spec

/-- Unsigned LEB128: seven bits per byte, least significant first, the top bit set on all bytes but the last. -/
inductive Leb : Nat → List UInt8 → Prop
  | last {n : Nat} (h : n < 128) : Leb n [UInt8.ofNat n]
  | more {n : Nat} {b : List UInt8} (h : 128 ≤ n) (hb : Leb (n / 128) b) : Leb n (UInt8.ofNat (n % 128 + 128) :: b)

/-- A size or index prefix: a number below 2^32 in LEB128. -/
def Size (n : Nat) (b : List UInt8) : Prop := n < 2 ^ 32 ∧ Leb n b

/-- The zig-zag image of the signed number whose 32-bit two's complement pattern is `n`: 0, -1, 1, -2, ... give 0, 1, 2, 3, ... -/
def zz (n : Nat) : Nat := if n < 2 ^ 31 then 2 * n else 2 * (2 ^ 32 - n) - 1

/-- The concatenation of the layouts of elements. -/
def Elems (R : BVal → List UInt8 → Prop) : List BVal → List UInt8 → Prop
  | [], b => b = []
  | v :: l, b => ∃ x y, R v x ∧ Elems R l y ∧ b = x ++ y

mutual
/-- `Layout t v b`: `v` is a value of type `t` that can be serialized, and its serialization is `b`. -/
def Layout : BTy → BVal → List UInt8 → Prop
  | .raw n => fun v b => v = .raw b ∧ b.length = n
  | .bool => fun v b => v = .raw b ∧ (b = [0] ∨ b = [1])
  | .varuint32 => fun v b => ∃ n, v = .num n ∧ Size n b
  | .varint32 => fun v b => ∃ n, v = .num n ∧ n < 2 ^ 32 ∧ Leb (zz n) b
  | .str => fun v b => ∃ h s, v = .raw s ∧ Size s.length h ∧ b = h ++ s
  | .rawVec n => fun v b => ∃ h s k, v = .raw s ∧ Size k h ∧ s.length = k * n ∧ k * n < 2 ^ 63 ∧ b = h ++ s
  | .vec t => fun v b => ∃ h l e, v = .list l ∧ Size l.length h ∧ Elems (Layout t) l e ∧ b = h ++ e
  | .set lt t => fun v b => ∃ h l e, v = .list l ∧ l.Pairwise (fun x y => lt x y = true) ∧ Size l.length h ∧
      Elems (Layout t) l e ∧ b = h ++ e
  | .map lt k u => fun v b => ∃ h l e, v = .list l ∧
      l.Pairwise (fun p q => ∃ x y x' y', p = .list [x, y] ∧ q = .list [x', y'] ∧ lt x x' = true) ∧ Size l.length h ∧
      Elems (fun p b => ∃ x y bx b', p = .list [x, y] ∧ Layout k x bx ∧ Layout u y b' ∧ b = bx ++ b') l e ∧ b = h ++ e
  | .stream => fun v b => ∃ h s, v = .raw s ∧ Size s.length h ∧ b = h ++ s
  | .carr n t => fun v b => ∃ h l e, v = .list l ∧ l.length = n ∧ Size n h ∧ Elems (Layout t) l e ∧ b = h ++ e
  | .arr n t => fun v b => ∃ l, v = .list l ∧ l.length = n ∧ Elems (Layout t) l b
  | .opt t => fun v b => (v = .none ∧ b = [0]) ∨ ∃ x e, v = .some x ∧ Layout t x e ∧ b = 1 :: e
  | .variant ts => fun v b => ∃ i x h e, v = .alt i x ∧ Size i h ∧ LayoutAlt ts i x e ∧ b = h ++ e
  | .struct ts => fun v b => ∃ l, v = .list l ∧ LayoutFields ts l b
  | .maybe _ t => Layout t
/-- alternative `i` -/
def LayoutAlt : List BTy → Nat → BVal → List UInt8 → Prop
  | [] => fun _ _ _ => False
  | t :: ts => fun i v b => (i = 0 ∧ Layout t v b) ∨ ∃ j, i = j + 1 ∧ LayoutAlt ts j v b
/-- the fields one after the other -/
def LayoutFields : List BTy → List BVal → List UInt8 → Prop
  | [] => fun l b => l = [] ∧ b = []
  | t :: ts => fun l b => ∃ v l' x y, l = v :: l' ∧ Layout t v x ∧ LayoutFields ts l' y ∧ b = x ++ y
end

mutual
/-- Types whose serialization is never empty. -/
def NonEmpty : BTy → Prop
  | .raw n => 0 < n
  | .arr n t => 0 < n ∧ NonEmpty t
  | .struct ts => NonEmptySome ts
  | .maybe _ t => NonEmpty t
  | _ => True
def NonEmptySome : List BTy → Prop
  | [] => False
  | t :: ts => NonEmpty t ∨ NonEmptySome ts
end

mutual
/-- Types of the C++ program: `sizeof` is not zero, sets and maps are ordered by transitive orders, `might_not_exist` is only used where
the value takes at least one byte, and its default is a value of the type. -/
def WfType : BTy → Prop
  | .raw n => 0 < n
  | .rawVec n => 0 < n
  | .vec t => WfType t
  | .set lt t => WfType t ∧ ∀ x y z, lt x y = true → lt y z = true → lt x z = true
  | .map lt k v => WfType k ∧ WfType v ∧ ∀ x y z, lt x y = true → lt y z = true → lt x z = true
  | .carr n t => n < 2 ^ 32 ∧ WfType t
  | .arr _ t => WfType t
  | .opt t => WfType t
  | .variant ts => ts.length < 2 ^ 32 ∧ WfTypes ts
  | .struct ts => WfTypes ts
  | .maybe d t => WfType t ∧ NonEmpty t ∧ ∃ b, Layout t d b
  | _ => True
def WfTypes : List BTy → Prop
  | [] => True
  | t :: ts => WfType t ∧ WfTypes ts
end

end Abieos.Spec
