import Verif.Model.Base58
import Verif.Model.StaticBin
/-
Textual public keys, private keys and signatures (src/crypto.cpp:98-203).

The digest (`abieos_ripemd160`, src/crypto.cpp:86-95) is a parameter `H` here: the digest of the bytes fed to it, in whatever
chunks. `Verif.Model.Ripemd160` models it.
-/
namespace Abieos

/-- `std::array<char, n>`: elements are read and written one by one (include/eosio/from_bin.hpp:216-221). -/
def charArray (n : Nat) : BTy := .arr n (.raw 1)

/-- `public_key` (include/eosio/crypto.hpp:27, 39-58, 71): `webauthn_public_key` has the fields `key`, `user_presence` (a one-byte enum, any byte
is accepted) and `rpid`. -/
def publicKeyTy : BTy := .variant [charArray 33, charArray 33, .struct [charArray 33, .raw 1, .str]]

/-- `private_key` (include/eosio/crypto.hpp:73-74). -/
def privateKeyTy : BTy := .variant [charArray 32, charArray 32]

/-- `signature` (include/eosio/crypto.hpp:83-108): `webauthn_signature` has the fields `compact_signature`, `auth_data`, `client_json`. -/
def signatureTy : BTy := .variant [charArray 65, charArray 65, .struct [charArray 65, .rawVec 1, .str]]

/-- `string_to_key` (src/crypto.cpp:97-110). `type` is the byte of the `key_type`. -/
def stringToKey (H : Bytes → Bytes) (t : BTy) (s : Bytes) (type : UInt8) (suffix : Bytes) : Res BVal := do
  let dec ← fromBase58 s
  let whole := type :: dec
  check (decide (whole.length > 5)) .expected_key
  let payload := (whole.drop 1).take (whole.length - 5)
  check (decide ((H (payload ++ suffix)).take 4 = whole.drop (whole.length - 4))) .expected_key
  convertFromBin t (whole.take (whole.length - 4))

/-- `key_to_string` (src/crypto.cpp:112-118). -/
def keyToString (H : Bytes → Bytes) (t : BTy) (key : BVal) (suffix pre : Bytes) : Res Bytes := do
  let whole ← convertToBin t key []
  let digest := H (whole.drop 1 ++ suffix)
  let whole := whole ++ digest.take 4
  .ok (pre ++ toBase58 (whole.drop 1))

/-- `std::variant::index()`. -/
def variantIndex : BVal → Option Nat
  | .alt i _ => some i
  | _ => none

/-- `public_key_to_string` (src/crypto.cpp:121-132). -/
def publicKeyToString (H : Bytes → Bytes) (key : BVal) : Res Bytes :=
  if variantIndex key = some 0 then keyToString H publicKeyTy key (str "K1") (str "PUB_K1_")
  else if variantIndex key = some 1 then keyToString H publicKeyTy key (str "R1") (str "PUB_R1_")
  else if variantIndex key = some 2 then keyToString H publicKeyTy key (str "WA") (str "PUB_WA_")
  else .error .expected_public_key

/-- `public_key_from_string` (src/crypto.cpp:134-148). -/
def publicKeyFromString (H : Bytes → Bytes) (s : Bytes) : Res BVal :=
  if s.take 3 = str "EOS" then stringToKey H publicKeyTy (s.drop 3) 0 []
  else if s.take 7 = str "PUB_K1_" then stringToKey H publicKeyTy (s.drop 7) 0 (str "K1")
  else if s.take 7 = str "PUB_R1_" then stringToKey H publicKeyTy (s.drop 7) 1 (str "R1")
  else if s.take 7 = str "PUB_WA_" then stringToKey H publicKeyTy (s.drop 7) 2 (str "WA")
  else .error .expected_public_key

/-- `private_key_to_string` (src/crypto.cpp:150-159). -/
def privateKeyToString (H : Bytes → Bytes) (key : BVal) : Res Bytes :=
  if variantIndex key = some 0 then keyToString H privateKeyTy key (str "K1") (str "PVT_K1_")
  else if variantIndex key = some 1 then keyToString H privateKeyTy key (str "R1") (str "PVT_R1_")
  else .error .expected_private_key

/-- The legacy form (src/crypto.cpp:170-176): the first decoded byte is replaced by the key type, the last four are dropped. -/
def wifFromString (s : Bytes) : Res BVal := do
  let whole ← fromBase58 s
  check (decide (whole.length ≥ 5)) .expected_private_key
  let whole := whole.set 0 0
  convertFromBin privateKeyTy (whole.take (whole.length - 4))

/-- `private_key_from_string` (src/crypto.cpp:161-177). -/
def privateKeyFromString (H : Bytes → Bytes) (s : Bytes) : Res BVal :=
  if s.take 7 = str "PVT_K1_" then stringToKey H privateKeyTy (s.drop 7) 0 (str "K1")
  else if s.take 7 = str "PVT_R1_" then stringToKey H privateKeyTy (s.drop 7) 1 (str "R1")
  else if s.take 4 = str "PVT_" then .error .expected_private_key
  else wifFromString s

/-- `signature_to_string` (src/crypto.cpp:179-190). -/
def signatureToString (H : Bytes → Bytes) (key : BVal) : Res Bytes :=
  if variantIndex key = some 0 then keyToString H signatureTy key (str "K1") (str "SIG_K1_")
  else if variantIndex key = some 1 then keyToString H signatureTy key (str "R1") (str "SIG_R1_")
  else if variantIndex key = some 2 then keyToString H signatureTy key (str "WA") (str "SIG_WA_")
  else .error .expected_signature

/-- `signature_from_string` (src/crypto.cpp:192-203). -/
def signatureFromString (H : Bytes → Bytes) (s : Bytes) : Res BVal :=
  if s.take 7 = str "SIG_K1_" then stringToKey H signatureTy (s.drop 7) 0 (str "K1")
  else if s.take 7 = str "SIG_R1_" then stringToKey H signatureTy (s.drop 7) 1 (str "R1")
  else if s.take 7 = str "SIG_WA_" then stringToKey H signatureTy (s.drop 7) 2 (str "WA")
  else .error .expected_signature

end Abieos
