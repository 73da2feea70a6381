import Verif.Spec.BinLayout
/-
The binary format of keys and signatures.
-/
namespace Abieos.Spec

/-- K1: 0 and 33 bytes; R1: 1 and 33 bytes; WebAuthn: 2, 33 bytes, one byte of user presence, and the text of the relying party. -/
inductive PublicKeyBytes : List UInt8 → Prop
  | k1 {key : List UInt8} : key.length = 33 → PublicKeyBytes (0 :: key)
  | r1 {key : List UInt8} : key.length = 33 → PublicKeyBytes (1 :: key)
  | wa {key size rpid : List UInt8} {presence : UInt8} : key.length = 33 → Size rpid.length size → PublicKeyBytes (2 :: (key ++ presence :: (size ++ rpid)))

/-- K1: 0 and 32 bytes; R1: 1 and 32 bytes. -/
inductive PrivateKeyBytes : List UInt8 → Prop
  | k1 {key : List UInt8} : key.length = 32 → PrivateKeyBytes (0 :: key)
  | r1 {key : List UInt8} : key.length = 32 → PrivateKeyBytes (1 :: key)

/-- K1: 0 and 65 bytes; R1: 1 and 65 bytes; WebAuthn: 2, 65 bytes, the authenticator's data and the text of the client. -/
inductive SignatureBytes : List UInt8 → Prop
  | k1 {sig : List UInt8} : sig.length = 65 → SignatureBytes (0 :: sig)
  | r1 {sig : List UInt8} : sig.length = 65 → SignatureBytes (1 :: sig)
  | wa {sig size data size' json : List UInt8} : sig.length = 65 → Size data.length size → Size json.length size' →
      SignatureBytes (2 :: (sig ++ (size ++ data ++ (size' ++ json))))

end Abieos.Spec
