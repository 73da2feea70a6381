import Verif.Spec.CallMessages
/-!
Binary data of which only the beginning is there.
-/
namespace Abieos.Spec

/-- No field of the definition is a binary extension: no field type ends with `$`. -/
def NoExtensions (D : AbiDef) : Prop := ∀ s ∈ D.structs, ∀ f ∈ s.fields, ¬ ∃ b, f.type = b ++ str "$"

/-- The two calls that convert the bytes, or their hex digits, fail and leave the error text `w`. -/
def DecodeSays (env : Env) (c : Ctx) (k : Nat) (type : Option Bytes) (bin w : Bytes) : Prop :=
  Says env c (.binToJson k type (some bin)) w ∧ ∀ hex, unhexLoop (cstr hex) = some bin → Says env c (.hexToJson k type hex) w

/-- The two calls that load the binary form of a definition, or its hex digits, fail and leave the error text `w`. -/
def LoadSays (env : Env) (c : Ctx) (k : Nat) (data w : Bytes) : Prop :=
  Says env c (.setAbiBin k (some data)) w ∧ ∀ hex, unhexLoop (cstr hex) = some data → Says env c (.setAbiHex k hex) w

end Abieos.Spec
