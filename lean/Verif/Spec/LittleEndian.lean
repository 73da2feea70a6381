namespace Abieos.Spec

/-- The number whose bytes, least significant first, are the list. -/
def leVal : List UInt8 → Nat
  | [] => 0
  | b :: s => b.toNat + 256 * leVal s

end Abieos.Spec
