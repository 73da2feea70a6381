import Verif.Model.CApi
import Verif.Spec.AbiMeaning
import Verif.Spec.AbiJson
/-
What calls of the C interface are for, independently of how they work.
-/
namespace Abieos.Spec

/-- The definition is one that can be used: its version begins with `eosio::abi/1.` and its types can be loaded. -/
def Usable (D : AbiDef) : Prop := (∃ minor, D.version = str "eosio::abi/1." ++ minor) ∧ ∃ T, LoadTypes D (.ok T)

/-- The bytes begin with the definition, in its binary form. -/
def HoldsDef (data : Bytes) (D : AbiDef) : Prop := ∃ rest, abiDefFromBin data = .ok (D, rest)

/-- The call asks to load the definition `D`, which is usable, for the contract `k`. -/
def Loads (env : Env) (q : Call) (k : Nat) (D : AbiDef) : Prop :=
  Usable D ∧ match q with
    | .setAbi k' text => k' = k ∧ ∃ v, env.read (cstr text) = some v ∧ AbiDoc v D
    | .setAbiBin k' data => k' = k ∧ ∃ b, data = some b ∧ HoldsDef b D
    | .setAbiHex k' hex => k' = k ∧ ∃ b, unhexLoop (cstr hex) = some b ∧ HoldsDef b D
    | _ => False

/-- The call loads a definition for a contract. -/
def IsLoad : Call → Bool
  | .setAbi .. | .setAbiBin .. | .setAbiHex .. => true
  | _ => false

/-- The call converts JSON to binary. -/
def IsJsonToBin : Call → Bool
  | .jsonToBin .. | .jsonToBinReorderable .. => true
  | _ => false

/-- The call may fail: it returns `false` or a null pointer then. -/
def CanFail : Call → Bool
  | .getError | .getBinSize | .getBinData | .stringToName _ => false
  | _ => true

/-- The value that tells failure. -/
def Failure : Ret → Prop
  | .bool b => b = false
  | .str s => s = none
  | _ => False

/-- In this history the first successful call that loads a definition for the contract `k` was `q`, with the definition `D`. -/
def FirstLoad (env : Env) (h : List (Call × Ret)) (k : Nat) (q : Call) (D : AbiDef) : Prop :=
  Loads env q k D ∧ ∃ before after, h = before ++ (q, .bool true) :: after ∧ ∀ e ∈ before, e.2 = .bool true → ∀ D', ¬ Loads env e.1 k D'

/-- The JSON text is converted to the bytes `b` by the conversion `conv` with the definition `D` at the given type. -/
def Converts (env : Env) (conv : Table → Leaves → Ptr → JVal → Res Bytes → Prop) (D : AbiDef) (type json b : Bytes) : Prop :=
  ∃ T p v, LoadTypes D (.ok T) ∧ (lookupType type T).1 = .ok p ∧ env.read json = some v ∧
    conv (lookupType type T).2 env.leaves p v (.ok b)

/-- All of the bytes are decoded to the text `t` with the definition `D` at the given type. -/
def DecodesAll (env : Env) (D : AbiDef) (type bin t : Bytes) : Prop :=
  ∃ T p, LoadTypes D (.ok T) ∧ (lookupType type T).1 = .ok p ∧ BinToJson (lookupType type T).2 env.leaves p bin (.ok (t, []))

end Abieos.Spec

namespace Abieos.Spec

/-- The last action with the name `n` has the type text `t`. -/
def ActionType (D : AbiDef) (n : Nat) (t : Bytes) : Prop :=
  ∃ before a after, D.actions = before ++ a :: after ∧ a.name = n ∧ a.type = t ∧ ∀ b ∈ after, b.name ≠ n

/-- The last table with the name `n` has the type text `t`. -/
def TableType (D : AbiDef) (n : Nat) (t : Bytes) : Prop :=
  ∃ before a after, D.tables = before ++ a :: after ∧ a.name = n ∧ a.type = t ∧ ∀ b ∈ after, b.name ≠ n

/-- The call asks something about the contract `k`. -/
def About (q : Call) (k : Nat) : Prop :=
  match q with
  | .typeForAction k' _ | .typeForTable k' _ | .jsonToBin k' .. | .jsonToBinReorderable k' .. | .binToJson k' .. | .hexToJson k' .. => k' = k
  | _ => False

/-- In the context `c` the call can succeed, with the returned value `r`; if it converts JSON, the bytes to be fetched are then `b`. -/
def Answers (env : Env) (c : Ctx) (q : Call) (r : Ret) (b : Bytes) : Prop :=
  ∃ c', Step env (some c) q (.done (some c') r) ∧ ¬ Failure r ∧ (IsJsonToBin q = true → Step env (some c') .getBinData (.done (some c') (.data (some b))))

end Abieos.Spec
