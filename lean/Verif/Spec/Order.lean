/-
Orders and lexicographic order.
-/
namespace Abieos.Spec

/-- `lt` and `eq` are a total order: exactly one of `a < b`, `a == b`, `b < a` holds, `<` and `==` are transitive. -/
structure TotalOrder {α : Type} (lt eq : α → α → Prop) : Prop where
  some : ∀ a b, lt a b ∨ eq a b ∨ lt b a
  ltNotEq : ∀ a b, lt a b → ¬ eq a b ∧ ¬ eq b a
  asymm : ∀ a b, lt a b → ¬ lt b a
  ltTrans : ∀ a b c, lt a b → lt b c → lt a c
  eqTrans : ∀ a b c, eq a b → eq b c → eq a c

/-- How two structs compare in one field. -/
structure FieldOrder where
  lt : Prop
  eq : Prop

/-- There is a first field that is not equal, and it is less. -/
def FirstLess (fields : List FieldOrder) : Prop :=
  ∃ before f after, fields = before ++ f :: after ∧ (∀ g ∈ before, g.eq) ∧ f.lt

end Abieos.Spec
