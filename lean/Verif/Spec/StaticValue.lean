import Verif.Spec.BinLayout
import Verif.Spec.AddType
import Verif.Model.Keys
/-!
The binary form of C++ values, stated without the code that writes or reads it, and what the two ways through JSON and binary (templates for
C++ types, and type descriptions in an ABI) have to agree on.
-/
namespace Abieos.Spec

/-- The bytes of the values of a builtin type. -/
def LeafBytes : Builtin → List UInt8 → Prop
  | .bool, b => b = [0] ∨ b = [1]
  | .int8, b | .uint8, b => b.length = 1
  | .int16, b | .uint16, b => b.length = 2
  | .int32, b | .uint32, b | .float32, b | .time_point_sec, b | .block_timestamp, b => b.length = 4
  | .int64, b | .uint64, b | .float64, b | .time_point, b | .name, b | .symbol, b | .symbol_code, b => b.length = 8
  | .int128, b | .uint128, b | .float128, b | .asset, b => b.length = 16
  | .checksum160, b => b.length = 20
  | .checksum256, b => b.length = 32
  | .checksum512, b => b.length = 64
  | .varuint32, b => ∃ n, n < 2 ^ 32 ∧ Leb n b
  | .varint32, b => ∃ n, n < 2 ^ 32 ∧ Leb n b
  | .bytes, b | .string, b => ∃ h a, Size a.length h ∧ b = h ++ a
  | .public_key, b => ∃ x, Layout publicKeyTy x b
  | .private_key, b => ∃ x, Layout privateKeyTy x b
  | .signature, b => ∃ x, Layout signatureTy x b

mutual
/-- `Stored P t v b`: `v` is a value of type `t` that can be serialized, and its serialization is `b`. -/
inductive Stored (P : Prog) : CTy → SVal → List UInt8 → Prop
  | leaf {k : Builtin} {b : List UInt8} : LeafBytes k b → Stored P (.leaf k) (.leaf b) b
  | vec {t : CTy} {l : List SVal} {h b : List UInt8} : Size l.length h → StoredAll P t l b → Stored P (.vec t) (.vec l) (h ++ b)
  | absent {t : CTy} : Stored P (.opt t) .absent [0]
  | present {t : CTy} {v : SVal} {b : List UInt8} : Stored P t v b → Stored P (.opt t) (.present v) (1 :: b)
  | alt {ts : List CTy} {i : Nat} {t : CTy} {v : SVal} {h b : List UInt8} : ts[i]? = some t → Size i h → Stored P t v b →
      Stored P (.variant ts) (.alt i v) (h ++ b)
  | struct {n : List UInt8} {l : List SVal} {b : List UInt8} : StoredFields P (P.fields n) l b → Stored P (.struct n) (.struct l) b
  /-- an extension, as what it holds; if that has no bytes, one cannot tell whether it is there -/
  | ext {t : CTy} {v : SVal} {b : List UInt8} : Stored P t v b → b ≠ [] → Stored P (.ext t) v b

inductive StoredAll (P : Prog) : CTy → List SVal → List UInt8 → Prop
  | nil {t : CTy} : StoredAll P t [] []
  | cons {t : CTy} {v : SVal} {l : List SVal} {b c : List UInt8} : Stored P t v b → StoredAll P t l c → StoredAll P t (v :: l) (b ++ c)

inductive StoredFields (P : Prog) : List (List UInt8 × CTy) → List SVal → List UInt8 → Prop
  | nil : StoredFields P [] [] []
  | cons {n : List UInt8} {t : CTy} {fs : List (List UInt8 × CTy)} {v : SVal} {l : List SVal} {b c : List UInt8} : Stored P t v b → StoredFields P fs l c →
      StoredFields P ((n, t) :: fs) (v :: l) (b ++ c)
end

/-- The type uses no binary extensions. -/
def NoExt (P : Prog) (t : CTy) : Prop := ∀ u, Uses P t (.ext u) → False

/-- Integers and floats with a fixed number of bytes. -/
def IsFixedNumber : Builtin → Prop
  | .int8 | .uint8 | .int16 | .uint16 | .int32 | .uint32 | .int64 | .uint64 | .int128 | .uint128 | .float32 | .float64 => True
  | _ => False

/-- The type uses no vectors of such numbers. -/
def NoNumberVectors (P : Prog) (t : CTy) : Prop := ∀ k, Uses P t (.vec (.leaf k)) → ¬ IsFixedNumber k

/-- The members of the structs that the type uses have different names. -/
def MembersDiffer (P : Prog) (t : CTy) : Prop := ∀ n, Uses P t (.struct n) → ((P.fields n).map Prod.fst).Nodup

mutual
/-- How deep arrays and objects are nested. -/
def Tree.depth : Tree → Nat
  | .atom _ => 0
  | .arr l => Tree.depthAll l + 1
  | .obj l => Tree.depthMembers l + 1
def Tree.depthAll : List Tree → Nat
  | [] => 0
  | x :: l => max x.depth (Tree.depthAll l)
def Tree.depthMembers : List (List UInt8 × Tree) → Nat
  | [] => 0
  | m :: l => max m.2.depth (Tree.depthMembers l)
end

mutual
/-- No vector in the value has 2^31 elements or more. -/
def Short : SVal → Prop
  | .vec l => l.length < 2 ^ 31 ∧ ShortAll l
  | .present v => Short v
  | .alt _ v => Short v
  | .struct l => ShortAll l
  | _ => True
def ShortAll : List SVal → Prop
  | [] => True
  | v :: l => Short v ∧ ShortAll l
end

end Abieos.Spec
