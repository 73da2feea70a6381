import Verif.Spec.Messages
import Verif.Spec.CApi
/-
The error texts of failed calls of the C interface.
-/
namespace Abieos.Spec

/-- However the call ends in the context `c`, it fails, and the error to be fetched is then `w`. -/
def Says (env : Env) (c : Ctx) (q : Call) (w : Bytes) : Prop :=
  ∀ o, Step env (some c) q o → ∃ c' r, o = .done (some c') r ∧ Failure r ∧ Step env (some c') .getError (.done (some c') (.str (some w)))

/-- The call converts a value of the contract `k`'s type `type`; a text of hex digits is one. -/
def ConvertsType (q : Call) (k : Nat) (type : Bytes) : Prop :=
  match q with
  | .jsonToBin k' t _ | .jsonToBinReorderable k' t _ | .binToJson k' t _ => k' = k ∧ cstr t = type
  | .hexToJson k' t s => k' = k ∧ cstr t = type ∧ ∃ b, unhexLoop (cstr s) = some b
  | _ => False

/-- The text does not end with `?`, `[]` or `$`. -/
def NoSuffix (k : Bytes) : Prop := ∀ b, k ≠ b ++ str "?" ∧ k ≠ b ++ str "[]" ∧ k ≠ b ++ str "$"

/-- The text `k` denotes no type of `D`; `m` says why, `n` is at least the number of its suffixes. -/
inductive NoType (D : AbiDef) : Nat → Bytes → String → Prop
  | unknown {k : Bytes} : Undeclared D k → NoSuffix k → NoType D 0 k "Unknown type"
  | inOptional {n : Nat} {b : Bytes} {m : String} : Undeclared D (b ++ str "?") → NoType D n b m → NoType D (n + 1) (b ++ str "?") m
  | inArray {n : Nat} {b : Bytes} {m : String} : Undeclared D (b ++ str "[]") → NoType D n b m → NoType D (n + 1) (b ++ str "[]") m
  | inExtension {n : Nat} {b : Bytes} {m : String} : Undeclared D (b ++ str "$") → NoType D n b m → NoType D (n + 1) (b ++ str "$") m
  | optional {b : Bytes} {p : Ptr} : Undeclared D (b ++ str "?") → Denotes D b p → Undeclared D p → NoType D 3 (b ++ str "?") "Invalid nesting"
  | array {b : Bytes} {p : Ptr} : Undeclared D (b ++ str "[]") → Denotes D b p → Undeclared D p → NoType D 3 (b ++ str "[]") "Invalid nesting"
  | extension {b : Bytes} {p : Ptr} : Undeclared D (b ++ str "$") → Denotes D b p → IsExtText D p → NoType D 3 (b ++ str "$") "Invalid nesting"

/-- The names `D` declares, in the order in which they are looked at: of typedefs, structs, variants. -/
def declaredNames (D : AbiDef) : List Bytes := D.types.map (·.newName) ++ D.structs.map (·.name) ++ D.variants.map (·.name)

/-- The name is builtin. -/
def BuiltinName (k : Bytes) : Prop := k = str "extended_asset" ∨ ∃ b : Builtin, k = b.typeName

/-- The first name that cannot be declared, `k`: the ones before are not empty, not builtin and different from each other. -/
def FirstBadName (D : AbiDef) (before : List Bytes) (k : Bytes) : Prop :=
  (∃ after, declaredNames D = before ++ k :: after) ∧ before.Nodup ∧ (∀ j ∈ before, j ≠ [] ∧ ¬ BuiltinName j) ∧ (k = [] ∨ k ∈ before ∨ BuiltinName k)

/-- The call asks to load a definition that is read as `D`, whose version is as the loader wants it, for the contract `k`. -/
def AsksToLoad (env : Env) (q : Call) (k : Nat) (D : AbiDef) : Prop :=
  (∃ minor, D.version = str "eosio::abi/1." ++ minor) ∧ match q with
    | .setAbi k' text => k' = k ∧ ∃ v, env.read (cstr text) = some v ∧ AbiDoc v D
    | .setAbiBin k' data => k' = k ∧ ∃ b, data = some b ∧ HoldsDef b D
    | .setAbiHex k' hex => k' = k ∧ ∃ b, unhexLoop (cstr hex) = some b ∧ HoldsDef b D
    | _ => False

/-- The JSON text is a document, and the conversion `conv` with the definition `D` at the given type ends with the error `e`. -/
def Refuses (env : Env) (conv : Table → Leaves → Ptr → JVal → Res Bytes → Prop) (D : AbiDef) (type json : Bytes) (e : Err) : Prop :=
  ∃ T p v, LoadTypes D (.ok T) ∧ (lookupType type T).1 = .ok p ∧ env.read json = some v ∧
    conv (lookupType type T).2 env.leaves p v (.error e)

/-- The decoding of the bytes with the definition `D` at the given type ends so. -/
def DecodesTo (env : Env) (D : AbiDef) (type bin : Bytes) (r : Res (Bytes × Bytes)) : Prop :=
  ∃ T p, LoadTypes D (.ok T) ∧ (lookupType type T).1 = .ok p ∧ BinToJson (lookupType type T).2 env.leaves p bin r

end Abieos.Spec
