import Verif.Spec.AbiMeaning
import Verif.Spec.BinLayout
import Verif.Spec.Doc
import Verif.Spec.Layout
/-
The ABI wire format, read off the ABI definition itself: no type table, no lookup, no conversion loops. `S` says how scalars of the builtin types
are stored (`StoredScalar` in `Spec/BuiltinFormat.lean`); `M` says which keys an object may have, in which order, if it stands for a struct with the given fields.
-/
namespace Abieos.Spec

mutual
/-- `Wire D S M last p v b`: the document `v` is a value of the type with the text `p` of the definition `D`, and its binary form is `b`. `last` says
that nothing follows the value, so that extensions at its end may be left out. -/
inductive Wire (D : AbiDef) (S : Builtin → Scalar → Bytes → Prop) (M : List Bytes → List Bytes → Prop) : Bool → Ptr → JVal → Bytes → Prop
  /-- a builtin type -/
  | scalar {last : Bool} {p : Ptr} {k : Builtin} {s : Scalar} {b : Bytes} : Meaning D p (.builtin k) → S k s b → Wire D S M last p (ofScalar s) b
  /-- `T?`, no value: a zero -/
  | none {last : Bool} {p q : Ptr} : Meaning D p (.optional q) → Wire D S M last p .null [0]
  /-- `T?`, with a value: a one, then the value -/
  | some {last : Bool} {p q : Ptr} {v : JVal} {b : Bytes} : Meaning D p (.optional q) → v ≠ .null → Wire D S M last q v b → Wire D S M last p v (1 :: b)
  /-- `T$`: the value -/
  | extension {last : Bool} {p q : Ptr} {v : JVal} {b : Bytes} : Meaning D p (.extension q) → Wire D S M last q v b → Wire D S M last p v b
  /-- a struct: an object, its fields -/
  | struct {last : Bool} {p : Ptr} {fs : List Field} {ms : List (Bytes × JVal)} {b : Bytes} : Meaning D p (.struct fs) →
      M (ms.map (·.1)) (fs.map (·.name)) → WireFields D S M last ms fs b →      Wire D S M last p (.obj ms) b
  /-- `T[]`: the number of elements, then the elements -/
  | array {last : Bool} {p q : Ptr} {l : List JVal} {c b : Bytes} : Meaning D p (.array q) → l.length < 2 ^ 31 → Size l.length c → WireElems D S M q l b →
      Wire D S M last p (.arr l) (c ++ b)
  /-- a variant: the name and the value; the number of the first alternative with that name, then the value -/
  | variant {last : Bool} {p : Ptr} {before after : List Field} {f : Field} {x : JVal} {c b : Bytes} : Meaning D p (.variant (before ++ f :: after)) →
      (∀ g ∈ before, g.name ≠ f.name) → Size before.length c → Wire D S M last f.type x b → Wire D S M last p (.arr [.str f.name, x]) (c ++ b)

/-- The fields of a struct, one after the other; the value of a field is the last one the object gives. If nothing follows, extensions at the end that have no value
are left out. -/
inductive WireFields (D : AbiDef) (S : Builtin → Scalar → Bytes → Prop) (M : List Bytes → List Bytes → Prop) : Bool → List (Bytes × JVal) → List Field → Bytes → Prop
  | nil {last : Bool} {ms : List (Bytes × JVal)} : WireFields D S M last ms [] []
  | missing {ms : List (Bytes × JVal)} {fs : List Field} : (∀ f ∈ fs, (∃ q, Meaning D f.type (.extension q)) ∧ lastValue f.name ms = Option.none) →
      WireFields D S M true ms fs []
  | present {last : Bool} {ms : List (Bytes × JVal)} {f : Field} {fs : List Field} {x : JVal} {b1 b2 : Bytes} : lastValue f.name ms = Option.some x →
      Wire D S M (last && fs.isEmpty) f.type x b1 → WireFields D S M last ms fs b2 → WireFields D S M last ms (f :: fs) (b1 ++ b2)

/-- The elements of an array, one after the other; nothing may be left out in them. -/
inductive WireElems (D : AbiDef) (S : Builtin → Scalar → Bytes → Prop) (M : List Bytes → List Bytes → Prop) : Ptr → List JVal → Bytes → Prop
  | nil {q : Ptr} : WireElems D S M q [] []
  | cons {q : Ptr} {v : JVal} {l : List JVal} {b1 b2 : Bytes} : Wire D S M false q v b1 → WireElems D S M q l b2 → WireElems D S M q (v :: l) (b1 ++ b2)
end

/-- Any keys, in any order. -/
def AnyKeys : List Bytes → List Bytes → Prop := fun _ _ => True

/-- Keys of fields only, in the order of the fields, none repeated. -/
def OrderedKeys (keys fields : List Bytes) : Prop := keys.Sublist fields

/-- No struct has 2^31 fields or more. -/
def SmallDef (D : AbiDef) : Prop := ∀ k fs, Meaning D k (.struct fs) → fs.length < 2 ^ 31

/-- The field names of each struct are distinct. -/
def DistinctDef (D : AbiDef) : Prop := ∀ k fs, Meaning D k (.struct fs) → (fs.map (·.name)).Nodup

/-- In each struct, binary extensions come last. -/
def ExtLastDef (D : AbiDef) : Prop := ∀ k fs, Meaning D k (.struct fs) → ∀ pre f post, fs = pre ++ f :: post →
  (∃ q, Meaning D f.type (.extension q)) → ∀ g ∈ post, ∃ q, Meaning D g.type (.extension q)

end Abieos.Spec

namespace Abieos.Spec

/-- What the round trips need of a definition: extensions come last, field names are distinct, names are valid UTF-8, and no struct or variant is
absurdly large. -/
structure RegularDef (D : AbiDef) : Prop where
  small : SmallDef D
  distinct : DistinctDef D
  extLast : ExtLastDef D
  utf8 : ∀ k fs, Meaning D k (.struct fs) ∨ Meaning D k (.variant fs) → ∀ f ∈ fs, Utf8 f.name
  alts : ∀ k fs, Meaning D k (.variant fs) → fs.length < 2 ^ 32

end Abieos.Spec
