import Verif.Model.Loader
import Verif.Model.StaticJson
/-
`abi::add_type<T>()` (include/eosio/abi.hpp:216-290): the description of a C++ type is added to the type table. As in the loader, the
functions take the map and return it as it is afterwards, also if they throw; a pointer to a node is its key, which is also the `name`
of the node.
-/
namespace Abieos

/-- `s.fields.push_back(...)`, where `s` is the data of the node `k` (include/eosio/abi.hpp:229-232). -/
def Table.pushField (k : Bytes) (f : Field) (T : Table) : Table :=
  match T.get k with
  | some (.struct fs) => T.set k (.struct (fs ++ [f]))
  | _ => T

/-- The loop over the fields of the struct `k` (include/eosio/abi.hpp:230-233). -/
def addFields (add : CTy → Table → Res Ptr × Table) (k : Bytes) : List (Bytes × CTy) → Table → Res Unit × Table
  | [], T => (.ok (), T)
  | (n, t) :: fs, T =>
    match add t T with
    | (.error e, T') => (.error e, T')
    | (.ok p, T') => addFields add k fs (T'.pushField k ⟨n, p⟩)

/-- The fold over the alternatives of a variant (include/eosio/abi.hpp:257-261). -/
def addAlts (add : CTy → Table → Res Ptr × Table) : List CTy → Table → Res (List Field) × Table
  | [], T => (.ok [], T)
  | t :: ts, T =>
    match add t T with
    | (.error e, T') => (.error e, T')
    | (.ok p, T') =>
      match addAlts add ts T' with
      | (.error e, T'') => (.error e, T'')
      | (.ok l, T'') => (.ok (⟨p, p⟩ :: l), T'')

/-- `abi::add_type<T>()` (include/eosio/abi.hpp:221-288). The builtin types that are reflected too (`name`, `asset`, ...) have their own
node in every table that `convert` fills, which the reflected version then returns; they are treated here like those that are not reflected
(include/eosio/abi.hpp:237-243). The first argument bounds the nesting of the calls (of templates, hence finite); running out of it is not an
outcome of the code. -/
def addType (P : Prog) : Nat → CTy → Table → Res Ptr × Table
  | 0, _, T => (.error .ub, T)
  | _ + 1, .leaf k, T =>
    match T.get k.typeName with
    | none => (.error .unknown_type, T)
    | some _ => (.ok k.typeName, T)
  | n + 1, .struct m, T =>
    match T.get m with
    | some _ => (.ok m, T)
    | none =>
      match addFields (addType P n) m (P.fields m) (T.insertNew m (.struct [])) with
      | (.error e, T') => (.error e, T')
      | (.ok _, T') => (.ok m, T')
  | n + 1, .vec t, T =>
    match addType P n t T with
    | (.error e, T') => (.error e, T')
    | (.ok p, T') =>
      if T'.isWrapperAt p then (.error .invalid_nesting, T') else (.ok (CTy.vec t).name, T'.emplace (CTy.vec t).name (.array p))
  | n + 1, .opt t, T =>
    match addType P n t T with
    | (.error e, T') => (.error e, T')
    | (.ok p, T') =>
      if T'.isWrapperAt p then (.error .invalid_nesting, T') else (.ok (CTy.opt t).name, T'.emplace (CTy.opt t).name (.optional p))
  | n + 1, .variant ts, T =>
    match addAlts (addType P n) ts T with
    | (.error e, T') => (.error e, T')
    | (.ok l, T') => (.ok (CTy.variant ts).name, T'.emplace (CTy.variant ts).name (.variant l))
  | n + 1, .ext t, T =>
    match addType P n t T with
    | (.error e, T') => (.error e, T')
    | (.ok p, T') =>
      if T'.isExtAt p then (.error .invalid_nesting, T') else (.ok (p ++ str "$"), T'.emplace (p ++ str "$") (.extension p))

/-- `a.add_type<T>()` returns `r` and leaves the map `T'`. -/
def AddType (P : Prog) (t : CTy) (T : Table) (r : Res Ptr) (T' : Table) : Prop := ∃ n, ∀ m, n ≤ m → addType P m t T = (r, T')

end Abieos
