/-
Comparison of reflected structs: EOSIO_COMPARE (include/eosio/operators.hpp).
-/
namespace Abieos

/-- A data member of a struct `α`, as `for_each_field<T>` (include/eosio/for_each_field.hpp) passes it on: how to get it, its
`operator==` and the `eosio_compare` that overload resolution finds for its type. -/
structure Member (α : Type) where
  β : Type
  get : α → β
  eq : β → β → Bool
  compare : β → β → Int

/-- `internal_use_do_not_use::eosio_compare` (include/eosio/operators.hpp:33-41), for member types that do not use EOSIO_COMPARE. -/
def leafCompare {β : Type} (lt : β → β → Bool) (lhs rhs : β) : Int := if lt lhs rhs then -1 else if lt rhs lhs then 1 else 0

/-- `operator==` (include/eosio/operators.hpp:18-23) -/
def structEq {α : Type} (members : List (Member α)) (lhs rhs : α) : Bool :=
  members.foldl (fun result m => result && m.eq (m.get lhs) (m.get rhs)) true

/-- `operator!=` (include/eosio/operators.hpp:24-27) -/
def structNe {α : Type} (members : List (Member α)) (lhs rhs : α) : Bool := !structEq members lhs rhs

/-- `eosio_compare` (include/eosio/operators.hpp:44-54) -/
def structCompare {α : Type} (members : List (Member α)) (lhs rhs : α) : Int :=
  members.foldl (fun result m => if result = 0 then m.compare (m.get lhs) (m.get rhs) else result) 0

/-- `operator<`, `operator>`, `operator<=`, `operator>=` (include/eosio/operators.hpp:56-71) -/
def structLt {α : Type} (members : List (Member α)) (lhs rhs : α) : Bool := decide (structCompare members lhs rhs < 0)
def structGt {α : Type} (members : List (Member α)) (lhs rhs : α) : Bool := decide (structCompare members lhs rhs > 0)
def structLe {α : Type} (members : List (Member α)) (lhs rhs : α) : Bool := decide (structCompare members lhs rhs ≤ 0)
def structGe {α : Type} (members : List (Member α)) (lhs rhs : α) : Bool := decide (structCompare members lhs rhs ≥ 0)

/-- A member of a type with its own operators. -/
def Member.leaf {α β : Type} (get : α → β) (lt eq : β → β → Bool) : Member α := ⟨β, get, eq, leafCompare lt⟩

/-- A member of a type that uses EOSIO_COMPARE itself. -/
def Member.nested {α β : Type} (get : α → β) (members : List (Member β)) : Member α := ⟨β, get, structEq members, structCompare members⟩

end Abieos
