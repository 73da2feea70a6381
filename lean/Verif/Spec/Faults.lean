import Verif.Spec.Wire
import Verif.Spec.Encoding
/-
What the conversions from JSON say about a document they refuse: the first fault in the order of the type's definition (reorderable conversion)
or of the document (ordered conversion), with the text of its message. Read off the ABI definition: no type table, no conversion loops.
`S` says how scalars are stored and `B` what is wrong with a value of a builtin type that is not.
-/
namespace Abieos.Spec

/-- The type is a binary extension. -/
def ExtType (D : AbiDef) (p : Ptr) : Prop := ∃ q, Meaning D p (.extension q)

/-- No variant has 2^32 alternatives or more. -/
def SmallVariants (D : AbiDef) : Prop := ∀ k fs, Meaning D k (.variant fs) → fs.length < 2 ^ 32

/-- Fields after one that was left out: they must be left out too. -/
inductive SkippedFault (D : AbiDef) (ms : List (Bytes × JVal)) : List Field → String → Prop
  | present {f : Field} {fs : List Field} {x : JVal} : lastValue f.name ms = some x → SkippedFault D ms (f :: fs) "Unexpected field"
  | missing {f : Field} {fs : List Field} : lastValue f.name ms = none → ¬ ExtType D f.type → SkippedFault D ms (f :: fs) "Expected field"
  | next {f : Field} {fs : List Field} {m : String} : lastValue f.name ms = none → ExtType D f.type → SkippedFault D ms fs m → SkippedFault D ms (f :: fs) m

mutual
/-- `Fault D S B last p v m`: the reorderable conversion of `v` to the type `p` fails with the message `m`. -/
inductive Fault (D : AbiDef) (S : Builtin → Scalar → Bytes → Prop) (B : Builtin → JVal → String → Prop) : Bool → Ptr → JVal → String → Prop
  | scalar {last : Bool} {p : Ptr} {k : Builtin} {v : JVal} {m : String} : Meaning D p (.builtin k) → B k v m → Fault D S B last p v m
  | some {last : Bool} {p q : Ptr} {v : JVal} {m : String} : Meaning D p (.optional q) → v ≠ .null → Fault D S B last q v m → Fault D S B last p v m
  | extension {last : Bool} {p q : Ptr} {v : JVal} {m : String} : Meaning D p (.extension q) → Fault D S B last q v m → Fault D S B last p v m
  | notObject {last : Bool} {p : Ptr} {fs : List Field} {v : JVal} : Meaning D p (.struct fs) → (∀ ms, v ≠ .obj ms) → Fault D S B last p v "Expected {"
  | fields {last : Bool} {p : Ptr} {fs : List Field} {ms : List (Bytes × JVal)} {m : String} : Meaning D p (.struct fs) → FieldsFault D S B last ms fs m →
      Fault D S B last p (.obj ms) m
  | notArray {last : Bool} {p q : Ptr} {v : JVal} : Meaning D p (.array q) → (∀ l, v ≠ .arr l) → Fault D S B last p v "Expected ["
  | elems {last : Bool} {p q : Ptr} {l : List JVal} {m : String} : Meaning D p (.array q) → ElemsFault D S B q l m → Fault D S B last p (.arr l) m
  | notPair {last : Bool} {p : Ptr} {alts : List Field} {v : JVal} : Meaning D p (.variant alts) → (∀ name x, v ≠ .arr [.str name, x]) →
      Fault D S B last p v "Expected variant: [\"type\", value]"
  | noAlternative {last : Bool} {p : Ptr} {alts : List Field} {name : Bytes} {x : JVal} : Meaning D p (.variant alts) → (∀ g ∈ alts, g.name ≠ name) →
      Fault D S B last p (.arr [.str name, x]) "Invalid type for variant"
  | alternative {last : Bool} {p : Ptr} {before after : List Field} {f : Field} {x : JVal} {m : String} : Meaning D p (.variant (before ++ f :: after)) →
      (∀ g ∈ before, g.name ≠ f.name) → Fault D S B last f.type x m → Fault D S B last p (.arr [.str f.name, x]) m

/-- The first fault in the fields of a struct, in the order of the definition; members that are no fields do not matter. -/
inductive FieldsFault (D : AbiDef) (S : Builtin → Scalar → Bytes → Prop) (B : Builtin → JVal → String → Prop) : Bool → List (Bytes × JVal) → List Field → String → Prop
  | here {last : Bool} {ms : List (Bytes × JVal)} {f : Field} {fs : List Field} {x : JVal} {m : String} : lastValue f.name ms = Option.some x →
      Fault D S B (last && fs.isEmpty) f.type x m → FieldsFault D S B last ms (f :: fs) m
  | later {last : Bool} {ms : List (Bytes × JVal)} {f : Field} {fs : List Field} {x : JVal} {b : Bytes} {m : String} : lastValue f.name ms = Option.some x →
      Wire D S AnyKeys (last && fs.isEmpty) f.type x b → FieldsFault D S B last ms fs m → FieldsFault D S B last ms (f :: fs) m
  | missing {last : Bool} {ms : List (Bytes × JVal)} {f : Field} {fs : List Field} : lastValue f.name ms = none →
      (last = true → ¬ ExtType D f.type) → FieldsFault D S B last ms (f :: fs) "Expected field"
  | skipped {ms : List (Bytes × JVal)} {f : Field} {fs : List Field} {m : String} : lastValue f.name ms = none →
      ExtType D f.type → SkippedFault D ms fs m → FieldsFault D S B true ms (f :: fs) m

/-- The first fault in the elements of an array. -/
inductive ElemsFault (D : AbiDef) (S : Builtin → Scalar → Bytes → Prop) (B : Builtin → JVal → String → Prop) : Ptr → List JVal → String → Prop
  | here {q : Ptr} {v : JVal} {l : List JVal} {m : String} : Fault D S B false q v m → ElemsFault D S B q (v :: l) m
  | later {q : Ptr} {v : JVal} {l : List JVal} {b : Bytes} {m : String} : Wire D S AnyKeys false q v b → ElemsFault D S B q l m → ElemsFault D S B q (v :: l) m
end

/-- The ordered conversion accepts the document inside `depth` open containers. -/
def FitsIn (D : AbiDef) (S : Builtin → Scalar → Bytes → Prop) (depth : Nat) (last : Bool) (p : Ptr) (v : JVal) : Prop :=
  depth + openDepth v ≤ 128 ∧ ∃ b, Wire D S OrderedKeys last p v b

mutual
/-- `OrderedFault D S B depth last p v m`: the ordered conversion of `v`, inside `depth` open containers, to the type `p` fails with the message `m`. -/
inductive OrderedFault (D : AbiDef) (S : Builtin → Scalar → Bytes → Prop) (B : Builtin → JVal → String → Prop) : Nat → Bool → Ptr → JVal → String → Prop
  | scalar {depth : Nat} {last : Bool} {p : Ptr} {k : Builtin} {v : JVal} {m : String} : Meaning D p (.builtin k) → B k v m → OrderedFault D S B depth last p v m
  | some {depth : Nat} {last : Bool} {p q : Ptr} {v : JVal} {m : String} : Meaning D p (.optional q) → v ≠ .null → OrderedFault D S B depth last q v m →
      OrderedFault D S B depth last p v m
  | extension {depth : Nat} {last : Bool} {p q : Ptr} {v : JVal} {m : String} : Meaning D p (.extension q) → OrderedFault D S B depth last q v m →
      OrderedFault D S B depth last p v m
  | notObject {depth : Nat} {last : Bool} {p : Ptr} {fs : List Field} {v : JVal} : Meaning D p (.struct fs) → (∀ ms, v ≠ .obj ms) →
      OrderedFault D S B depth last p v "Expected {"
  | members {depth : Nat} {last : Bool} {p : Ptr} {fs : List Field} {ms : List (Bytes × JVal)} {m : String} : Meaning D p (.struct fs) →
      MembersFault D S B depth last fs ms m → OrderedFault D S B depth last p (.obj ms) m
  | notArray {depth : Nat} {last : Bool} {p q : Ptr} {v : JVal} : Meaning D p (.array q) → (∀ l, v ≠ .arr l) → OrderedFault D S B depth last p v "Expected ["
  | deepArray {depth : Nat} {last : Bool} {p q : Ptr} {l : List JVal} : Meaning D p (.array q) → 128 ≤ depth →
      OrderedFault D S B depth last p (.arr l) "Recursion limit reached"
  | elems {depth : Nat} {last : Bool} {p q : Ptr} {l : List JVal} {m : String} : Meaning D p (.array q) → depth < 128 → OrderedElemsFault D S B (depth + 1) q l m →
      OrderedFault D S B depth last p (.arr l) m
  | notVariant {depth : Nat} {last : Bool} {p : Ptr} {alts : List Field} {v : JVal} : Meaning D p (.variant alts) → (∀ l, v ≠ .arr l) →
      OrderedFault D S B depth last p v "Expected ["
  | deepVariant {depth : Nat} {last : Bool} {p : Ptr} {alts : List Field} {l : List JVal} : Meaning D p (.variant alts) → 128 ≤ depth →
      OrderedFault D S B depth last p (.arr l) "Recursion limit reached"
  | noType {depth : Nat} {last : Bool} {p : Ptr} {alts : List Field} : Meaning D p (.variant alts) → depth < 128 →
      OrderedFault D S B depth last p (.arr []) "Expected variant: [\"type\", value]"
  | typeNotString {depth : Nat} {last : Bool} {p : Ptr} {alts : List Field} {x : JVal} {l : List JVal} : Meaning D p (.variant alts) → depth < 128 → (∀ s, x ≠ .str s) →
      OrderedFault D S B depth last p (.arr (x :: l)) "Expected string"
  | noAlternative {depth : Nat} {last : Bool} {p : Ptr} {alts : List Field} {name : Bytes} {l : List JVal} : Meaning D p (.variant alts) → depth < 128 →
      (∀ g ∈ alts, g.name ≠ name) → OrderedFault D S B depth last p (.arr (.str name :: l)) "Invalid type for variant"
  | noValue {depth : Nat} {last : Bool} {p : Ptr} {alts : List Field} {f : Field} : Meaning D p (.variant alts) → depth < 128 → f ∈ alts →
      OrderedFault D S B depth last p (.arr [.str f.name]) "Expected variant: [\"type\", value]"
  | alternative {depth : Nat} {last : Bool} {p : Ptr} {before after : List Field} {f : Field} {x : JVal} {l : List JVal} {m : String} :
      Meaning D p (.variant (before ++ f :: after)) → depth < 128 → (∀ g ∈ before, g.name ≠ f.name) → OrderedFault D S B (depth + 1) last f.type x m →
      OrderedFault D S B depth last p (.arr (.str f.name :: x :: l)) m
  | tooLong {depth : Nat} {last : Bool} {p : Ptr} {before after : List Field} {f : Field} {x y : JVal} {l : List JVal} :
      Meaning D p (.variant (before ++ f :: after)) → depth < 128 → (∀ g ∈ before, g.name ≠ f.name) → FitsIn D S (depth + 1) last f.type x →
      OrderedFault D S B depth last p (.arr (.str f.name :: x :: y :: l)) "Expected variant: [\"type\", value]"

/-- The first fault in the members of an object, in the order of the document. -/
inductive MembersFault (D : AbiDef) (S : Builtin → Scalar → Bytes → Prop) (B : Builtin → JVal → String → Prop) : Nat → Bool → List Field → List (Bytes × JVal) → String → Prop
  | here {depth : Nat} {last : Bool} {f : Field} {fs : List Field} {x : JVal} {ms : List (Bytes × JVal)} {m : String} : depth < 128 →
      OrderedFault D S B (depth + 1) (last && fs.isEmpty) f.type x m → MembersFault D S B depth last (f :: fs) ((f.name, x) :: ms) m
  | later {depth : Nat} {last : Bool} {f : Field} {fs : List Field} {x : JVal} {ms : List (Bytes × JVal)} {m : String} : depth < 128 →
      FitsIn D S (depth + 1) (last && fs.isEmpty) f.type x → MembersFault D S B depth last fs ms m → MembersFault D S B depth last (f :: fs) ((f.name, x) :: ms) m
  | deep {depth : Nat} {last : Bool} {f : Field} {fs : List Field} {x : JVal} {ms : List (Bytes × JVal)} : 128 ≤ depth →
      MembersFault D S B depth last (f :: fs) ((f.name, x) :: ms) "Recursion limit reached"
  | other {depth : Nat} {last : Bool} {f : Field} {fs : List Field} {k : Bytes} {x : JVal} {ms : List (Bytes × JVal)} : k ≠ f.name →
      MembersFault D S B depth last (f :: fs) ((k, x) :: ms) "Expected field"
  | extra {depth : Nat} {last : Bool} {k : Bytes} {x : JVal} {ms : List (Bytes × JVal)} : MembersFault D S B depth last [] ((k, x) :: ms) "Unexpected field"
  | missing {depth : Nat} {last : Bool} {f : Field} {fs : List Field} : (last = true → ¬ ExtType D f.type) → MembersFault D S B depth last (f :: fs) [] "Expected field"

/-- The first fault in the elements of an array. -/
inductive OrderedElemsFault (D : AbiDef) (S : Builtin → Scalar → Bytes → Prop) (B : Builtin → JVal → String → Prop) : Nat → Ptr → List JVal → String → Prop
  | here {depth : Nat} {q : Ptr} {v : JVal} {l : List JVal} {m : String} : OrderedFault D S B depth false q v m → OrderedElemsFault D S B depth q (v :: l) m
  | later {depth : Nat} {q : Ptr} {v : JVal} {l : List JVal} {m : String} : FitsIn D S depth false q v → OrderedElemsFault D S B depth q l m →
      OrderedElemsFault D S B depth q (v :: l) m
end

end Abieos.Spec
