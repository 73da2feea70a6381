import Verif.Spec.BinLayout
import Verif.Spec.Shown
/-!
What the binary readers of C++ values accept, stated without the code that reads: besides the form the library writes, sizes with superfluous
groups, presence and truth bytes other than 0 and 1, sets and maps in any order and with repetitions, and missing extensions at the end of
the input.
-/
namespace Abieos.Spec

/-- One element after the other. -/
def ScanAll (R : BVal → List UInt8 → List UInt8 → Prop) : List BVal → List UInt8 → List UInt8 → Prop
  | [], s, r => s = r
  | v :: l, s, r => ∃ m, R v s m ∧ ScanAll R l m r

/-- `x` and `y` count as equal. -/
def Tied (lt : BVal → BVal → Bool) (x y : BVal) : Prop := lt x y = false ∧ lt y x = false

/-- `y` is the first of the elements equal to it. -/
def FirstOf (lt : BVal → BVal → Bool) (l : List BVal) (y : BVal) : Prop := ∃ a b, l = a ++ y :: b ∧ ∀ x ∈ a, ¬ Tied lt x y

/-- What a set holds after the elements of `l` have been put into it: sorted, of equal elements only the first. -/
def SetOf (lt : BVal → BVal → Bool) (l m : List BVal) : Prop := m.Pairwise (fun x y => lt x y = true) ∧ ∀ y, y ∈ m ↔ FirstOf lt l y

/-- A strict weak order, what C++ asks of a comparison. -/
structure WeakOrder (lt : BVal → BVal → Bool) : Prop where
  irrefl : ∀ x, lt x x = false
  trans : ∀ x y z, lt x y = true → lt y z = true → lt x z = true
  same : ∀ x y z, Tied lt x y → Tied lt y z → Tied lt x z

/-- the order of the entries of a map, by their keys -/
def byKey (lt : BVal → BVal → Bool) : BVal → BVal → Bool
  | .list (a :: _), .list (b :: _) => lt a b
  | _, _ => false

mutual
/-- `Scan t v s r`: from `s` a value `v` of type `t` is read, and `r` is left. -/
def Scan : BTy → BVal → List UInt8 → List UInt8 → Prop
  | .raw n => fun v s r => ∃ b, s = b ++ r ∧ b.length = n ∧ v = .raw b
  | .bool => fun v s r => ∃ b : UInt8, s = b :: r ∧ v = .raw [if b = 0 then 0 else 1]
  | .varuint32 => fun v s r => ∃ h n, s = h ++ r ∧ SizeRead n h ∧ v = .num n
  | .varint32 => fun v s r => ∃ h n, s = h ++ r ∧ n < 2 ^ 32 ∧ SizeRead (zz n) h ∧ v = .num n
  | .str => fun v s r => ∃ h b, s = h ++ (b ++ r) ∧ SizeRead b.length h ∧ v = .raw b
  | .rawVec n => fun v s r => ∃ h k b, s = h ++ (b ++ r) ∧ VarRead 64 10 k h ∧ b.length = k * n ∧ k ≤ (2 ^ 63 - 1) / n ∧ v = .raw b
  | .vec t => fun v s r => ∃ h l m, s = h ++ m ∧ SizeRead l.length h ∧ ScanAll (Scan t) l m r ∧ v = .list l
  | .set lt t => fun v s r => ∃ h l m e, s = h ++ m ∧ SizeRead l.length h ∧ ScanAll (Scan t) l m r ∧ SetOf lt l e ∧ v = .list e
  | .map lt k u => fun v s r => ∃ h l m e, s = h ++ m ∧ SizeRead l.length h ∧
      ScanAll (fun p s r => ∃ x y m, Scan k x s m ∧ Scan u y m r ∧ p = .list [x, y]) l m r ∧ SetOf (byKey lt) l e ∧ v = .list e
  | .stream => fun v s r => ∃ h b, s = h ++ (b ++ r) ∧ VarRead 64 10 b.length h ∧ v = .raw b
  | .carr n t => fun v s r => ∃ h l m, s = h ++ m ∧ SizeRead n h ∧ l.length = n ∧ ScanAll (Scan t) l m r ∧ v = .list l
  | .arr n t => fun v s r => ∃ l, l.length = n ∧ ScanAll (Scan t) l s r ∧ v = .list l
  | .opt t => fun v s r => (s = 0 :: r ∧ v = .none) ∨ ∃ (b : UInt8) (m : List UInt8) (x : BVal), s = b :: m ∧ b ≠ 0 ∧ Scan t x m r ∧ v = .some x
  | .variant ts => fun v s r => ∃ h i m x, s = h ++ m ∧ SizeRead i h ∧ ScanAlt ts i x m r ∧ v = .alt i x
  | .struct ts => fun v s r => ∃ l, ScanFields ts l s r ∧ v = .list l
  | .maybe d t => fun v s r => (s = [] ∧ r = [] ∧ v = d) ∨ (s ≠ [] ∧ Scan t v s r)
def ScanAlt : List BTy → Nat → BVal → List UInt8 → List UInt8 → Prop
  | [] => fun _ _ _ _ => False
  | t :: ts => fun i v s r => (i = 0 ∧ Scan t v s r) ∨ ∃ j, i = j + 1 ∧ ScanAlt ts j v s r
def ScanFields : List BTy → List BVal → List UInt8 → List UInt8 → Prop
  | [] => fun l s r => l = [] ∧ s = r
  | t :: ts => fun l s r => ∃ v l' m, l = v :: l' ∧ Scan t v s m ∧ ScanFields ts l' m r
end

mutual
/-- The sets and maps of the type are ordered as C++ asks. -/
def Orders : BTy → Prop
  | .vec t => Orders t
  | .set lt t => Orders t ∧ WeakOrder lt
  | .map lt k v => Orders k ∧ Orders v ∧ WeakOrder lt
  | .carr _ t => Orders t
  | .arr _ t => Orders t
  | .opt t => Orders t
  | .variant ts => OrdersAll ts
  | .struct ts => OrdersAll ts
  | .maybe _ t => Orders t
  | _ => True
def OrdersAll : List BTy → Prop
  | [] => True
  | t :: ts => Orders t ∧ OrdersAll ts
end

end Abieos.Spec
