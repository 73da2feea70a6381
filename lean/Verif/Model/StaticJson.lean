import Verif.Model.AbiDefJson
import Verif.Model.Builtins
import Verif.Model.StaticBin
import Verif.Model.JsonReader
/-
The JSON templates for C++ types: `to_json`, `convert_to_json`, `format_json` and `from_json` (include/eosio/to_json.hpp,
include/eosio/from_json.hpp), over the type constructors that have a name (include/eosio/types.hpp).
-/
namespace Abieos

/-- The C++ types with a type name: those of `for_each_abi_type`, reflected structs, and `std::vector`, `std::optional`, `std::variant` and
`might_not_exist` of such (include/eosio/types.hpp:12-95, include/eosio/abi.hpp:43-46). `std::vector<bool>`, for which the templates do not
compile, is not left out. -/
inductive CTy
  | leaf (k : Builtin)
  /-- a reflected struct, by its name -/
  | struct (n : Bytes)
  | vec (t : CTy)
  | opt (t : CTy)
  | variant (ts : List CTy)
  | ext (t : CTy)
  deriving Repr, Inhabited

/-- The reflected structs of a program: name, and names and types of the fields in order (include/eosio/reflection.hpp:45-70). -/
abbrev Prog := List (Bytes × List (Bytes × CTy))

/-- `for_each_field<T>` of a struct. -/
def Prog.fields (P : Prog) (n : Bytes) : List (Bytes × CTy) := (P.lookup n).getD []

mutual
/-- `get_type_name` (include/eosio/types.hpp:12-95). `might_not_exist` has none; what is here is the name `add_type` gives it
(include/eosio/abi.hpp:283). -/
def CTy.name : CTy → Bytes
  | .leaf k => k.typeName
  | .struct n => n
  | .vec t => t.name ++ str "[]"
  | .opt t => t.name ++ str "?"
  | .variant ts => str "variant" ++ CTy.altNames ts
  | .ext t => t.name ++ str "$"

/-- The fold of `variant_type_appender` (include/eosio/types.hpp:70-86). -/
def CTy.altNames : List CTy → Bytes
  | [] => []
  | t :: ts => 95 :: (t.name ++ CTy.altNames ts)
end

/-- Values of these types. A value of a builtin type is represented by its `to_bin` bytes. -/
inductive SVal
  | leaf (b : Bytes)
  | vec (l : List SVal)
  | absent
  | present (v : SVal)
  /-- a variant holding alternative `i` -/
  | alt (i : Nat) (v : SVal)
  | struct (l : List SVal)
  /-- what the initialization of an object leaves, before anything is read into it (include/eosio/from_json.hpp:690) -/
  | unset
  deriving Repr, Inhabited

/-! ## Writing -/

/-- An output stream and the four functions on it that depend on whether it is a `pretty_stream` (include/eosio/stream.hpp:140-185). -/
structure JStream (σ : Type) where
  write : Writer σ
  inc : σ → Res σ
  dec : σ → Res σ
  colon : σ → Res σ
  newline : σ → Res σ

/-- The generic versions (include/eosio/stream.hpp:140-156). -/
def plainStream {σ : Type} (w : Writer σ) : JStream σ where
  write := w
  inc := .ok
  dec := .ok
  colon := w (str ":")
  newline := .ok

/-- `pretty_stream<Base>`: the stream and `current_indent`; `indent_size` is 4 (include/eosio/stream.hpp:158-185). -/
def prettyStream {σ : Type} (w : Writer σ) : JStream (σ × Bytes) where
  write := fun b s => do
    let o ← w b s.1
    .ok (o, s.2)
  inc := fun s => .ok (s.1, s.2 ++ List.replicate 4 32)
  dec := fun s => do
    check (4 ≤ s.2.length) .overrun
    .ok (s.1, s.2.take (s.2.length - 4))
  colon := fun s => do
    let o ← w (str ": ") s.1
    .ok (o, s.2)
  newline := fun s => do
    let o ← w (str "\n") s.1
    let o ← w s.2 o
    .ok (o, s.2)

/-- Before an element or member (include/eosio/to_json.hpp:154-159, 209-215). -/
def JStream.lead {σ : Type} (S : JStream σ) (first : Bool) (s : σ) : Res σ :=
  if first then S.inc s >>= S.newline else S.write (str ",") s >>= S.newline

/-- After the elements or members (include/eosio/to_json.hpp:162-165, 231-234). -/
def JStream.close {σ : Type} (S : JStream σ) (first : Bool) (s : σ) : Res σ :=
  if first then .ok s else S.dec s >>= S.newline

mutual
/-- `to_json` (include/eosio/to_json.hpp:149-236). The text of a builtin value, given its bytes, is that of `from_bin` and `to_json`
(`builtinFromBin`), here one `write`. There is no `to_json` for `might_not_exist`, and values not of the type do not exist: those cases are
`ub`. The recursion follows the value. -/
def toJsonG {σ : Type} (P : Prog) (S : JStream σ) : CTy → SVal → σ → Res σ
  | .leaf k, .leaf b, s => do
    match ← builtinFromBin k b with
    | (t, []) => S.write t s
    | _ => .error .ub
  | .vec t, .vec l, s => do
    let s ← S.write (str "[") s
    let s ← toJsonElems P S t true l s
    let s ← S.close l.isEmpty s
    S.write (str "]") s
  | .opt _, .absent, s => S.write (str "null") s
  | .opt t, .present v, s => toJsonG P S t v s
  | .variant ts, .alt i v, s =>
    match ts[i]? with
    | none => .error .ub
    | some t => do
      let s ← S.write (str "[") s
      let s ← S.inc s
      let s ← S.newline s
      let s ← S.write (jsonString t.name) s
      let s ← S.write (str ",") s
      let s ← S.newline s
      let s ← toJsonG P S t v s
      let s ← S.dec s
      let s ← S.newline s
      S.write (str "]") s
  | .struct n, .struct l, s => do
    let s ← S.write (str "{") s
    let s ← toJsonFields P S (P.fields n) true l s
    let s ← S.close l.isEmpty s
    S.write (str "}") s
  | _, _, _ => .error .ub

/-- The loop over the elements (include/eosio/to_json.hpp:152-161). -/
def toJsonElems {σ : Type} (P : Prog) (S : JStream σ) (t : CTy) : Bool → List SVal → σ → Res σ
  | _, [], s => .ok s
  | first, v :: l, s => do
    let s ← S.lead first s
    let s ← toJsonG P S t v s
    toJsonElems P S t false l s

/-- The loop over the fields (include/eosio/to_json.hpp:207-230). -/
def toJsonFields {σ : Type} (P : Prog) (S : JStream σ) : List (Bytes × CTy) → Bool → List SVal → σ → Res σ
  | [], _, [], s => .ok s
  | (n, t) :: fs, first, v :: l, s => do
    let s ← S.lead first s
    let s ← S.write (jsonString n) s
    let s ← S.colon s
    let s ← toJsonG P S t v s
    toJsonFields P S fs false l s
  | _, _, _, _ => .error .ub
end

/-- `convert_to_json` (include/eosio/to_json.hpp:257-266). -/
def convertToJson (P : Prog) (t : CTy) (v : SVal) : Res Bytes := do
  let n ← toJsonG P (plainStream sizeWrite) t v 0
  let b ← toJsonG P (plainStream fixedWrite) t v ⟨[], n⟩
  check (b.room = 0) .underrun
  .ok b.written

/-- `format_json` (include/eosio/to_json.hpp:268-277). -/
def formatJson (P : Prog) (t : CTy) (v : SVal) : Res Bytes := do
  let n ← toJsonG P (prettyStream sizeWrite) t v (0, [])
  let b ← toJsonG P (prettyStream fixedWrite) t v (⟨[], n.1⟩, [])
  check (b.1.room = 0) .underrun
  .ok b.1.written

/-! ## Reading -/

/-- Reading a builtin value (include/eosio/from_json.hpp:372-541 and the `from_json` of each type), as the bytes of its `to_bin`. -/
def leafFromJson (F : Floats) (k : Builtin) : TokReader SVal := fun _ ts =>
  match ts with
  | .bool x :: ts => do
    let b ← builtinToBin F k (.bool x)
    .ok (.leaf b, ts)
  | .str s :: ts => do
    let b ← builtinToBin F k (.str s)
    .ok (.leaf b, ts)
  | [] => .error noToken
  | _ => .error (leafMismatch k)

/-- The elements of a vector. -/
def SVal.elems : SVal → List SVal
  | .vec l => l
  | _ => []

/-- The fields of a struct with `n` of them. -/
def SVal.fields (n : Nat) : SVal → List SVal
  | .struct l => l
  | _ => List.replicate n .unset

/-- The member function of `from_json(T& obj)`: the first field with the name of the key is read into (include/eosio/from_json.hpp:640-653). -/
def structKeyS (r : CTy → TokReader SVal) (n : Nat) : List (Bytes × CTy) → Nat → Bytes → Option (TokReader SVal)
  | [], _, _ => none
  | (m, t) :: fs, i, k =>
    if k = m then some (member (fun o => (o.fields n).getD i .unset) (fun o x => .struct ((o.fields n).set i x)) (r t))
    else structKeyS r n fs (i + 1) k

/-- `std::find(type_names, ...)` (include/eosio/from_json.hpp:578). -/
def findName (s : Bytes) : List CTy → Nat → Option (Nat × CTy)
  | [], _ => none
  | t :: ts, i => if t.name = s then some (i, t) else findName s ts (i + 1)

/-- `from_json` (include/eosio/from_json.hpp:539-589, 640-653, include/eosio/abi.hpp:59-62). The first argument bounds the nesting of the
calls; running out of it is not an outcome of the code. -/
def fromJsonC (P : Prog) (F : Floats) : Nat → CTy → TokReader SVal
  | 0, _ => fun _ _ => .error .ub
  | _ + 1, .leaf k => leafFromJson F k
  | n + 1, .vec t => fun o ts => do
    let (l, ts) ← vecFromJson .unset (fromJsonC P F n t) o.elems ts
    .ok (.vec l, ts)
  | n + 1, .opt t => fun _ ts =>
    match ts with
    | .null :: ts => .ok (.absent, ts)
    | ts => do
      let (v, ts) ← fromJsonC P F n t .unset ts
      .ok (.present v, ts)
  | n + 1, .variant us => fun _ ts =>
    match ts with
    | .startArr :: ts => do
      let (s, ts) ← getString ts
      match findName s us 0 with
      | none => .error .invalid_type_for_variant
      | some (i, t) =>
        let (v, ts) ← fromJsonC P F n t .unset ts
        match ts with
        | .endArr :: ts => .ok (.alt i v, ts)
        | [] => .error noToken
        | _ => .error .expected_end_array
    | [] => .error noToken
    | _ => .error .expected_start_array
  | n + 1, .struct m => fun o ts =>
    objFromJson (structKeyS (fromJsonC P F n) (P.fields m).length (P.fields m) 0) (.struct (o.fields (P.fields m).length)) ts
  | n + 1, .ext t => fromJsonC P F n t

/-- `json_token_stream stream{text}; from_json(x, stream)` of a new object `x` gives `v`, and the text is finished
(include/eosio/from_json.hpp:180-200, 686-692, `get_end` 212-217). -/
def FromJson (P : Prog) (F : Floats) (t : CTy) (text : Bytes) (v : SVal) : Prop :=
  ∃ d, Reader.read text = some d ∧ ∃ n, fromJsonC P F n t .unset d.toks = .ok (v, [])

end Abieos
