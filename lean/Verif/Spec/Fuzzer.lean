import Verif.Model.Fuzzer
import Verif.Spec.LittleEndian
/-
What an input of the fuzzer means.
-/
namespace Abieos.Spec

/-- Bytes that end with a zero. -/
def ZeroEnded (b : Bytes) : Prop := ∃ a, b = a ++ [0]

/-- The input is made of the header, with six bytes of padding that do not matter, and of three pieces that end with a zero, of which the first two have the sizes in the
header. -/
def FuzzInput (input : Bytes) (h : FuzzHeader) (abi type data : Bytes) : Prop :=
  ∃ pad contract abiSize typeSize : Bytes, pad.length = 6 ∧ contract.length = 8 ∧ abiSize.length = 4 ∧ typeSize.length = 4 ∧
    input = h.abiIsBin :: h.operation :: (pad ++ (contract ++ (abiSize ++ (typeSize ++ (abi ++ (type ++ data)))))) ∧
    leVal contract = h.contract ∧ leVal abiSize = h.abiSize ∧ leVal typeSize = h.typeSize ∧
    abi.length = h.abiSize ∧ type.length = h.typeSize ∧ ZeroEnded abi ∧ ZeroEnded type ∧ ZeroEnded data

end Abieos.Spec
