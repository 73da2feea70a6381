import Verif.Model.Json
/-
Measures and normal forms of documents.
-/
namespace Abieos.Spec

/-- Nesting levels of a document, counting scalars: a scalar has one level, a container one more than its deepest
element. -/
def levels : JVal → Nat
  | .arr l => go l + 1
  | .obj l => goM l + 1
  | _ => 1
where
  go : List JVal → Nat
    | [] => 0
    | v :: l => max (levels v) (go l)
  goM : List (Bytes × JVal) → Nat
    | [] => 0
    | (_, v) :: l => max (levels v) (goM l)

/-- The value of a key: of its last occurrence. -/
def lastValue (k : Bytes) : List (Bytes × JVal) → Option JVal
  | [] => none
  | (k', v) :: l => match lastValue k l with
    | some x => some x
    | none => if k' = k then some v else none

/-- No key occurs twice in an object. -/
def UniqueKeys : JVal → Prop
  | .arr l => go l
  | .obj l => (l.map (·.1)).Nodup ∧ goM l
  | _ => True
where
  go : List JVal → Prop
    | [] => True
    | v :: l => UniqueKeys v ∧ go l
  goM : List (Bytes × JVal) → Prop
    | [] => True
    | (_, v) :: l => UniqueKeys v ∧ goM l

end Abieos.Spec
