import Verif.Spec.Single
import Verif.Spec.Layout
import Verif.Spec.LittleEndian
import Verif.Model.Varint
/-
Where the conversions are allowed to be undefined.
-/
namespace Abieos.Spec

/-- No array of the document has 2^31 elements or more. -/
def ShortArrays : JVal → Prop
  | .arr l => l.length < 2147483648 ∧ go l
  | .obj l => goM l
  | _ => True
where
  go : List JVal → Prop
    | [] => True
    | v :: l => ShortArrays v ∧ go l
  goM : List (Bytes × JVal) → Prop
    | [] => True
    | (_, v) :: l => ShortArrays v ∧ goM l

/-- `Inside T ty ty'`: values of type `ty` can contain values of type `ty'`. -/
inductive Inside (T : Table) : Ptr → Ptr → Prop
  | here (ty : Ptr) : Inside T ty ty
  | optional {ty p ty' : Ptr} : T.get ty = some (.optional p) → Inside T p ty' → Inside T ty ty'
  | extension {ty p ty' : Ptr} : T.get ty = some (.extension p) → Inside T p ty' → Inside T ty ty'
  | elem {ty p ty' : Ptr} : T.get ty = some (.array p) → Inside T p ty' → Inside T ty ty'
  | field {ty ty' : Ptr} {fs : List Field} {f : Field} : T.get ty = some (.struct fs) → f ∈ fs → Inside T f.type ty' → Inside T ty ty'
  | alt {ty ty' : Ptr} {fs : List Field} {f : Field} : T.get ty = some (.variant fs) → f ∈ fs → Inside T f.type ty' → Inside T ty ty'

/-- The bytes start with an asset whose amount is the smallest 64-bit number. -/
def SmallestAmount (b : List UInt8) : Prop := ∃ sym rest, sym.length = 8 ∧ b = [0, 0, 0, 0, 0, 0, 0, 128] ++ sym ++ rest

/-- A double whose shortest decimal text is a minus sign followed by 24 digits. -/
def LongDouble (bits : Nat) : Prop := Finite bits ∧ ∃ x, Nearest bits x ∧ -10 ^ 24 < x ∧ x ≤ -10 ^ 23

/-- The bytes start with a double (in little-endian order) that has such a text. -/
def LongFloat64 (b : List UInt8) : Prop := ∃ a rest, a.length = 8 ∧ b = a ++ rest ∧ LongDouble (leVal a)

/-- The bytes start with a float that, as a double, has such a text. -/
def LongFloat32 (b : List UInt8) : Prop :=
  ∃ a rest bits, a.length = 4 ∧ b = a ++ rest ∧ floatValue (leVal a) = doubleValue bits ∧ LongDouble bits

/-- The bytes start with a size of 2^31 or more. -/
def HugeSize (b : List UInt8) : Prop := ∃ n rest, varuint32FromBin b = .ok (n, rest) ∧ 2147483648 ≤ n

end Abieos.Spec
