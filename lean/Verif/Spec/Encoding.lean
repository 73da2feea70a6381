import Verif.Spec.Regular
import Verif.Spec.Doc
import Mathlib.Data.List.Forall2
/-
The ABI encoding of a JSON document, and relations between documents, written without reference to the conversion loops.
-/
namespace Abieos.Spec

/-- The fields of a struct in the document `ms`: the leading fields are present and their encodings follow each other;
the fields that are missing are the last ones, and are extensions, in a place where extensions may be missing. The value of
a key is that of its last occurrence. -/
def EncFields (T : Table) (E : Bool → Ptr → JVal → Bytes → Prop) (allow : Bool) (ms : List (Bytes × JVal)) :
    List Field → Bytes → Prop
  | [], b => b = []
  | f :: fs, b =>
    (allow = true ∧ (∀ g ∈ f :: fs, IsExt T g.type ∧ lastValue g.name ms = none) ∧ b = []) ∨
    (∃ x b1 b2, lastValue f.name ms = some x ∧ E (allow && fs.isEmpty) f.type x b1 ∧ EncFields T E allow ms fs b2 ∧
      b = b1 ++ b2)

/-- The elements of an array: their encodings follow each other. -/
def EncElems (E : JVal → Bytes → Prop) : List JVal → Bytes → Prop
  | [], b => b = []
  | v :: l, b => ∃ b1 b2, E v b1 ∧ EncElems E l b2 ∧ b = b1 ++ b2

/-- `b` is the encoding of the document `v` as a value of type `ty`. `allow` says that extensions may be missing here: at
the top, and in the last field of a struct and the alternative of a variant where that holds for the struct or variant.
`n` bounds the height of the derivation. -/
def Enc (T : Table) (L : Leaves) : Nat → Bool → Ptr → JVal → Bytes → Prop
  | 0, _, _, _, _ => False
  | n + 1, allow, ty, v, b =>
    match T.get ty with
    | some (.builtin k) => ∃ s, v = ofScalar s ∧ L.toBin k s = .ok b
    | some (.optional p) => (v = .null ∧ b = [0]) ∨ (v ≠ .null ∧ ∃ b', b = 1 :: b' ∧ Enc T L n allow p v b')
    | some (.extension p) => Enc T L n allow p v b
    | some (.struct fs) => ∃ ms, v = .obj ms ∧ EncFields T (Enc T L n) allow ms fs b
    | some (.array p) =>
      ∃ l c b', v = .arr l ∧ l.length < 2147483648 ∧ varuint32ToBin l.length = .ok c ∧
        EncElems (Enc T L n false p) l b' ∧ b = c ++ b'
    | some (.variant alts) =>
      ∃ name x i f c b', v = .arr [.str name, x] ∧ findAlt name alts 0 = some (i, f) ∧ varuint32ToBin i = .ok c ∧
        Enc T L n allow f.type x b' ∧ b = c ++ b'
    | _ => False

/-- `b` is the ABI encoding of `v` at type `ty`. -/
def Encodes (T : Table) (L : Leaves) (ty : Ptr) (v : JVal) (b : Bytes) : Prop := ∃ n, Enc T L n true ty v b

/-- The objects of the document list their members in the order of the ABI, without unknown keys (to depth `n`). -/
def InOrderTo (T : Table) : Nat → Ptr → JVal → Prop
  | 0, _, _ => True
  | n + 1, ty, v =>
    match T.get ty, v with
    | some (.optional p), v => InOrderTo T n p v
    | some (.extension p), v => InOrderTo T n p v
    | some (.struct fs), .obj ms =>
      (ms.map (·.1)).Sublist (fs.map (·.name)) ∧
      ∀ f ∈ fs, ∀ x, (f.name, x) ∈ ms → InOrderTo T n f.type x
    | some (.array p), .arr l => ∀ x ∈ l, InOrderTo T n p x
    | some (.variant alts), .arr [.str name, x] => ∀ i f, findAlt name alts 0 = some (i, f) → InOrderTo T n f.type x
    | _, _ => True

/-- The objects of the document list their members in the order of the ABI, without unknown keys. -/
def InOrder (T : Table) (ty : Ptr) (v : JVal) : Prop := ∀ n, InOrderTo T n ty v

/-- Containers the ordered conversion keeps open at the same time: like nesting depth, but an empty object is closed at
once. -/
def openDepth : JVal → Nat
  | .arr l => go l + 1
  | .obj [] => 0
  | .obj (m :: l) => max (openDepth m.2) (goM l) + 1
  | _ => 0
where
  go : List JVal → Nat
    | [] => 0
    | v :: l => max (openDepth v) (go l)
  goM : List (Bytes × JVal) → Nat
    | [] => 0
    | (_, v) :: l => max (openDepth v) (goM l)

/-- `v` and `w` say the same to the reorderable conversion at type `ty` (to depth `n`): in objects read as structs, each
field of the struct has the same value, whatever the order of the members, earlier values of the same key, and members
that are no fields. -/
def SameTo (T : Table) : Nat → Ptr → JVal → JVal → Prop
  | 0, _, v, w => v = w
  | n + 1, ty, v, w =>
    v = w ∨
    match T.get ty, v, w with
    | some (.optional p), v, w => SameTo T n p v w
    | some (.extension p), v, w => SameTo T n p v w
    | some (.struct fs), .obj ms, .obj ms' =>
      ∀ f ∈ fs, (lastValue f.name ms = none ∧ lastValue f.name ms' = none) ∨
        ∃ x y, lastValue f.name ms = some x ∧ lastValue f.name ms' = some y ∧ SameTo T n f.type x y
    | some (.array p), .arr l, .arr l' => List.Forall₂ (SameTo T n p) l l'
    | some (.variant alts), .arr [.str name, x], .arr [.str name', y] =>
      name = name' ∧ ∀ i f, findAlt name alts 0 = some (i, f) → SameTo T n f.type x y
    | _, _, _ => False

/-- `v` and `w` say the same to the reorderable conversion at type `ty`. -/
def Same (T : Table) (ty : Ptr) (v w : JVal) : Prop := ∃ n, SameTo T n ty v w

end Abieos.Spec
