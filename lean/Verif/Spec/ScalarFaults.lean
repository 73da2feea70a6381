import Verif.Spec.Faults
import Verif.Spec.BuiltinFormat
import Verif.Spec.Shown
/-
What is wrong with a document that is no value of a builtin type: the text of the message, type by type.
-/
namespace Abieos.Spec

/-- All texts of the document are shorter than 2^31 bytes. -/
def ShortTexts : JVal → Prop
  | .str s => s.length < 2147483648
  | .arr l => go l
  | .obj l => goM l
  | _ => True
where
  go : List JVal → Prop
    | [] => True
    | v :: l => ShortTexts v ∧ go l
  goM : List (Bytes × JVal) → Prop
    | [] => True
    | (_, v) :: l => ShortTexts v ∧ goM l

/-- The integer fits in `n` bytes. -/
def InBytes (signed : Bool) (n : Nat) (v : Int) : Prop :=
  if signed then -(2 ^ (8 * n - 1)) ≤ v ∧ v < 2 ^ (8 * n - 1) else 0 ≤ v ∧ v < 2 ^ (8 * n)

/-- A beginning of the text is an integer that is too large. -/
def BeginsTooLarge (signed : Bool) (n : Nat) (s : List UInt8) : Prop :=
  ∃ start rest v, s = start ++ rest ∧ IsIntText signed start v ∧ ¬ InBytes signed n v

/-- What is wrong with the text of an integer of `n` bytes: too large, or no integer at all. -/
def IntFault (signed : Bool) (n : Nat) (s : List UInt8) (m : String) : Prop :=
  (BeginsTooLarge signed n s ∧ m = "number is out of range") ∨
  (¬ BeginsTooLarge signed n s ∧ (∀ v, ¬ IsIntText signed s v) ∧ m = "Expected integer")

/-- What is wrong with the text of `n` bytes: not hexadecimal, or not so many. -/
def HexFault (n : Nat) (s : List UInt8) (m : String) : Prop :=
  ((∀ b, ¬ HexText s b) ∧ m = "Expected string containing hex") ∨ ((∃ b, HexText s b ∧ b.length ≠ n) ∧ m = "Hex string has incorrect length")

/-- A part of a key or signature: so many bytes, or a size (given in at most so many bytes, of so many bits) and that many bytes. -/
inductive KeyPart
  | fixed (n : Nat)
  | sized (bits most : Nat)

/-- The bytes end in the middle of the parts, or a size in them is too long. Bytes after the parts do not matter. -/
inductive PartsFault : List KeyPart → List UInt8 → String → Prop
  | short {n : Nat} {ps : List KeyPart} {b : List UInt8} : b.length < n → PartsFault (.fixed n :: ps) b "Stream overrun"
  | fixed {n : Nat} {ps : List KeyPart} {a b : List UInt8} {m : String} : a.length = n → PartsFault ps b m → PartsFault (.fixed n :: ps) (a ++ b) m
  | noSize {bits most : Nat} {ps : List KeyPart} {b : List UInt8} : (∀ c ∈ b, 128 ≤ c.toNat) → b.length < most →
      PartsFault (.sized bits most :: ps) b "Stream overrun"
  | longSize {bits most : Nat} {ps : List KeyPart} {a b : List UInt8} : (∀ c ∈ a, 128 ≤ c.toNat) → a.length = most →
      PartsFault (.sized bits most :: ps) (a ++ b) "Invalid varuint encoding"
  | shortSized {bits most n : Nat} {ps : List KeyPart} {h b : List UInt8} : VarRead bits most n h → b.length < n →
      PartsFault (.sized bits most :: ps) (h ++ b) "Stream overrun"
  | sized {bits most : Nat} {ps : List KeyPart} {h a b : List UInt8} {m : String} : VarRead bits most a.length h → PartsFault ps b m →
      PartsFault (.sized bits most :: ps) (h ++ (a ++ b)) m

/-- What is wrong with a text after the prefix of its form: not base 58, too short, a wrong check sum, or too few bytes in it. -/
def CheckedFault (parts : List KeyPart) (suffix b58 : List UInt8) (m : String) : Prop :=
  ((∀ payload, payload ≠ [] → fromBase58 b58 ≠ .ok (payload ++ (keyDigest (payload ++ suffix)).take 4)) ∧ m = "Expected key") ∨
  ∃ payload, payload ≠ [] ∧ fromBase58 b58 = .ok (payload ++ (keyDigest (payload ++ suffix)).take 4) ∧ PartsFault parts payload m

/-- The forms of the texts of keys: prefix, parts, and the text that is digested after the payload. -/
def publicParts : List (List UInt8 × List KeyPart × List UInt8) :=
  [(str "EOS", [.fixed 33], []), (str "PUB_K1_", [.fixed 33], str "K1"), (str "PUB_R1_", [.fixed 33], str "R1"),
   (str "PUB_WA_", [.fixed 33, .fixed 1, .sized 32 5], str "WA")]

/-- The same for private keys with a check sum. -/
def privateParts : List (List UInt8 × List KeyPart × List UInt8) := [(str "PVT_K1_", [.fixed 32], str "K1"), (str "PVT_R1_", [.fixed 32], str "R1")]

/-- The same for signatures. -/
def signatureParts : List (List UInt8 × List KeyPart × List UInt8) :=
  [(str "SIG_K1_", [.fixed 65], str "K1"), (str "SIG_R1_", [.fixed 65], str "R1"), (str "SIG_WA_", [.fixed 65, .sized 64 10, .sized 32 5], str "WA")]

/-- What is wrong with the text of a key: a prefix of no form, or something after the prefix. -/
def KeyFault (forms : List (List UInt8 × List KeyPart × List UInt8)) (unknown : String) (s : List UInt8) (m : String) : Prop :=
  ((∀ f ∈ forms, ∀ r, s ≠ f.1 ++ r) ∧ m = unknown) ∨ ∃ f ∈ forms, ∃ r, s = f.1 ++ r ∧ CheckedFault f.2.1 f.2.2 r m

/-- What is wrong with the text of a private key in the old format: not base 58, less than five bytes, or less than the version, the key and the check sum. -/
def OldKeyFault (s : List UInt8) (m : String) : Prop :=
  ((∀ b, fromBase58 s ≠ .ok b) ∧ m = "Expected key") ∨ (∃ b, fromBase58 s = .ok b ∧ b.length < 5 ∧ m = "Expected private key") ∨
  ∃ b, fromBase58 s = .ok b ∧ 5 ≤ b.length ∧ b.length < 37 ∧ m = "Stream overrun"

/-- What is wrong with a text that is no value of the builtin type. -/
noncomputable def TextFault (F : Floats) : Builtin → List UInt8 → String → Prop
  | .bool, _, m => m = "Expected true or false"
  | .int8, s, m => IntFault true 1 s m
  | .uint8, s, m => IntFault false 1 s m
  | .int16, s, m => IntFault true 2 s m
  | .uint16, s, m => IntFault false 2 s m
  | .int32, s, m => IntFault true 4 s m
  | .uint32, s, m => IntFault false 4 s m
  | .int64, s, m => IntFault true 8 s m
  | .uint64, s, m => IntFault false 8 s m
  | .int128, s, m => IntFault true 16 s m
  | .uint128, s, m => IntFault false 16 s m
  | .varuint32, s, m => IntFault false 4 s m
  | .varint32, s, m => IntFault true 4 s m
  | .float32, s, m => (s = [] ∨ F.strtof s = none) ∧ m = "Expected number or boolean"
  | .float64, s, m => (s = [] ∨ F.strtod s = none) ∧ m = "Expected number or boolean"
  | .float128, s, m => HexFault 16 s m
  | .checksum160, s, m => HexFault 20 s m
  | .checksum256, s, m => HexFault 32 s m
  | .checksum512, s, m => HexFault 64 s m
  | .time_point, s, m => (∀ b, ¬ TimeStored .time_point s b) ∧ m = "Expected time point"
  | .time_point_sec, s, m => (∀ b, ¬ TimeStored .time_point_sec s b) ∧ m = "Expected time point"
  | .block_timestamp, s, m => (∀ b, ¬ TimeStored .block_timestamp s b) ∧ m = "Expected time point"
  | .name, _, _ => False
  | .string, _, _ => False
  | .bytes, s, m => (∀ b, ¬ HexText s b) ∧ m = "Expected string containing hex"
  | .public_key, s, m => KeyFault publicParts "Expected public key" s m
  | .private_key, s, m => ((∃ r, s = str "PVT_" ++ r) ∧ KeyFault privateParts "Expected private key" s m) ∨ ((¬ ∃ r, s = str "PVT_" ++ r) ∧ OldKeyFault s m)
  | .signature, s, m => KeyFault signatureParts "Expected signature" s m
  | .symbol, s, m => (∀ b, ¬ StoredAs F .symbol s b) ∧ m = "Expected symbol"
  | .symbol_code, s, m => (∀ b, ¬ StoredAs F .symbol_code s b) ∧ m = "Expected symbol code"
  | .asset, s, m => (∀ b, ¬ StoredAs F .asset s b) ∧ m = "Expected symbol code"

/-- What is wrong with a document that is no value of the builtin type (its texts being shorter than 2^31 bytes). -/
noncomputable def ScalarFault (F : Floats) (k : Builtin) : JVal → String → Prop
  | .bool _, m => k ≠ .bool ∧ m = "Expected string"
  | .str s, m => TextFault F k s m
  | _, m => m = if k = .bool then "Expected true or false" else "Expected string"

end Abieos.Spec
