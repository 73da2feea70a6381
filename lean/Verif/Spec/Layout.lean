import Verif.Spec.JsonText
import Verif.Model.AbiType
/-
The ABI serialization format, as a relation between types, bytes, JSON texts and documents. It is written without
reference to the conversion loops.
-/
namespace Abieos.Spec

/-- A scalar as a document. -/
def ofScalar : Scalar → JVal
  | .bool b => .bool b
  | .str s => .str s

/-- `b` is the encoding of the scalar `s` of builtin type `k`, and `text` is its JSON text: encoding `s` gives `b`,
decoding `b` (whatever follows) gives `text`, and reading `text` gives `s`. -/
def LeafSer (L : Leaves) (k : Builtin) (b text : Bytes) (s : Scalar) : Prop :=
  L.toBin k s = .ok b ∧ (∀ r, L.fromBin k (b ++ r) = .ok (text, r)) ∧ Reads text (ofScalar s) ∧ b ≠ []

/-- Is this type a binary extension (`T$`)? -/
def IsExt (T : Table) (p : Ptr) : Prop := ∃ q, T.get p = some (.extension q)

/-- Fields of a struct from number `i` on: bytes, members, and the JSON text up to the closing brace.
Either all fields that are left are extensions, the input ends here, and nothing is written; or the field is written
and the rest follows. -/
def SerFields (T : Table) (E : Bool → Ptr → Bytes → Bytes → JVal → Prop) (allow : Bool) :
    List Field → (i : Nat) → (b text : Bytes) → List (Bytes × JVal) → Prop
  | [], _, b, t, ms => b = [] ∧ t = str "}" ∧ ms = []
  | f :: fs, i, b, t, ms =>
    (allow = true ∧ (∀ g ∈ f :: fs, IsExt T g.type) ∧ b = [] ∧ t = str "}" ∧ ms = []) ∨
    (¬ (allow = true ∧ IsExt T f.type ∧ b = []) ∧
      ∃ b1 b2 t1 t2 v ms', E (allow && fs.isEmpty) f.type b1 t1 v ∧ SerFields T E allow fs (i + 1) b2 t2 ms' ∧
        b = b1 ++ b2 ∧ ms = (f.name, v) :: ms' ∧
        t = (if i ≠ 0 then str "," else []) ++ jsonString f.name ++ str ":" ++ t1 ++ t2)

/-- Elements of an array from number `i` on, with the JSON text up to the closing bracket. -/
def SerElems (E : Bytes → Bytes → JVal → Prop) : (i : Nat) → (b text : Bytes) → List JVal → Prop
  | _, b, t, [] => b = [] ∧ t = str "]"
  | i, b, t, v :: l =>
    ∃ b1 b2 t1 t2, E b1 t1 v ∧ SerElems E (i + 1) b2 t2 l ∧ b = b1 ++ b2 ∧
      t = (if i ≠ 0 then str "," else []) ++ t1 ++ t2

/-- `Ser T L n lvl allow ty b text v`: inside `lvl` containers, `b` is the serialization of a value of type `ty` whose
JSON text is `text` and whose document is `v`. `allow` says that missing extensions are allowed here. `n` bounds the
height of the derivation. Containers may be nested `maxStack` = 128 deep. -/
def Ser (T : Table) (L : Leaves) : Nat → Nat → Bool → Ptr → Bytes → Bytes → JVal → Prop
  | 0, _, _, _, _, _, _ => False
  | n + 1, lvl, allow, ty, b, t, v =>
    match T.get ty with
    | some (.builtin k) => ∃ s, LeafSer L k b t s ∧ v = ofScalar s
    | some (.optional p) =>
      (b = [0] ∧ t = str "null" ∧ v = .null) ∨
      (∃ b', b = 1 :: b' ∧ v.isNull = false ∧ Ser T L n lvl allow p b' t v)
    | some (.extension p) => Ser T L n lvl allow p b t v
    | some (.struct fs) =>
      lvl + 1 ≤ maxStack ∧ fs.length < 2147483648 ∧
      ∃ ms t', SerFields T (Ser T L n (lvl + 1)) allow fs 0 b t' ms ∧ v = .obj ms ∧ t = str "{" ++ t'
    | some (.array p) =>
      lvl + 1 ≤ maxStack ∧
      ∃ l c b' t', SerElems (Ser T L n (lvl + 1) false p) 0 b' t' l ∧ v = .arr l ∧ l.length < 2147483648 ∧
        varuint32ToBin l.length = .ok c ∧ b = c ++ b' ∧ t = str "[" ++ t'
    | some (.variant alts) =>
      lvl + 1 ≤ maxStack ∧
      ∃ name i f c b' t' x, findAlt name alts 0 = some (i, f) ∧ varuint32ToBin i = .ok c ∧
        Ser T L n (lvl + 1) allow f.type b' t' x ∧ v = .arr [.str name, x] ∧ b = c ++ b' ∧
        t = str "[" ++ jsonString name ++ str "," ++ t' ++ str "]"
    | _ => False

end Abieos.Spec
