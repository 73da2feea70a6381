import Verif.Spec.Murmur
import Verif.Spec.SymbolText
import Verif.Spec.TimeText
import Verif.Props.Name
import Verif.Props.Keys
import Verif.Model.Builtins
/-
What the scalars of the builtin ABI types are in binary. One line per type; the pieces are the specifications of integers,
names, symbols, keys and so on.
-/
namespace Abieos.Spec

/-- The integer `v` in `n` bytes: two's complement, least significant byte first. -/
def TwosComplement (n : Nat) (v : Int) (b : List UInt8) : Prop := b.length = n ∧ (leVal b : Int) = v % 256 ^ n

/-- The text of an integer in range of an `n`-byte type, and its bytes. -/
def IntStored (signed : Bool) (n : Nat) (s b : List UInt8) : Prop :=
  ∃ v : Int, IsIntText signed s v ∧
    (if signed then -(2 ^ (8 * n - 1)) ≤ v ∧ v < 2 ^ (8 * n - 1) else 0 ≤ v ∧ v < 2 ^ (8 * n)) ∧ TwosComplement n v b

/-- The value of a hexadecimal digit. -/
inductive HexVal : UInt8 → Nat → Prop
  | digit {c : UInt8} : 48 ≤ c.toNat → c.toNat ≤ 57 → HexVal c (c.toNat - 48)
  | lower {c : UInt8} : 97 ≤ c.toNat → c.toNat ≤ 102 → HexVal c (c.toNat - 97 + 10)
  | upper {c : UInt8} : 65 ≤ c.toNat → c.toNat ≤ 70 → HexVal c (c.toNat - 65 + 10)

/-- Two hexadecimal digits per byte, of either case. -/
inductive HexText : List UInt8 → List UInt8 → Prop
  | nil : HexText [] []
  | cons {c d x : UInt8} {h l : Nat} {s b : List UInt8} : HexVal c h → HexVal d l → x.toNat = 16 * h + l → HexText s b → HexText (c :: d :: s) (x :: b)

/-- The five bits of a character of a name: `.` is 0, `1` to `5` are 1 to 5, `a` to `z` are 6 to 31. -/
def nameSymbol (c : UInt8) : Nat := if c.toNat = 46 then 0 else if c.toNat ≤ 53 then c.toNat - 48 else c.toNat - 97 + 6

/-- The value of a name from character `i` on: five bits for each of the first twelve characters, from the top, and four bits for
the thirteenth. -/
def nameBits : Nat → List UInt8 → Nat
  | _, [] => 0
  | i, c :: s => nameSymbol c * (if i < 12 then 2 ^ (59 - 5 * i) else 1) + nameBits (i + 1) s

open Classical in
/-- The value of a text as a name: what it spells, or its hash. -/
noncomputable def nameValue (s : List UInt8) : Nat := if ValidNameText s then nameBits 0 s else murmurHash codeLoad 0xbadd00d00 s

/-- An asset: an optional sign, digits, an optional point and fraction, blanks, and the symbol code. Its binary form: the amount, with the
point removed, in eight bytes; one byte for the number of digits of the fraction; and the code. (Too large amounts and too many digits wrap.) -/
def AssetStored (s b : List UInt8) : Prop :=
  ∃ (b1 w f b2 l : List UInt8) (neg pt : Bool) (x y : List UInt8), Blank b1 ∧ (∀ c ∈ w, IsDigit c) ∧ (∀ c ∈ f, IsDigit c) ∧ (pt = false → f = []) ∧ Blank b2 ∧
    CodeText l ∧ s = b1 ++ ((if neg then [45] else []) ++ (w ++ ((if pt then 46 :: f else []) ++ (b2 ++ l)))) ∧
    TwosComplement 8 (if neg then -(decVal (w ++ f) : Int) else decVal (w ++ f)) x ∧
    TwosComplement 8 ((f.length % 256 + 256 * leVal l : Nat) : Int) y ∧ b = x ++ y

/-- `StoredAs F k s b`: the text `s`, as a value of the builtin type `k`, is accepted, and is `b` in binary. Times have a specification of their own. -/
noncomputable def StoredAs (F : Floats) : Builtin → List UInt8 → List UInt8 → Prop
  | .bool, _, _ => False
  | .int8, s, b => IntStored true 1 s b
  | .uint8, s, b => IntStored false 1 s b
  | .int16, s, b => IntStored true 2 s b
  | .uint16, s, b => IntStored false 2 s b
  | .int32, s, b => IntStored true 4 s b
  | .uint32, s, b => IntStored false 4 s b
  | .int64, s, b => IntStored true 8 s b
  | .uint64, s, b => IntStored false 8 s b
  | .int128, s, b => IntStored true 16 s b
  | .uint128, s, b => IntStored false 16 s b
  | .varuint32, s, b => ∃ n : Nat, IsIntText false s n ∧ n < 2 ^ 32 ∧ Leb n b
  | .varint32, s, b => ∃ v : Int, IsIntText true s v ∧ -(2 ^ 31) ≤ v ∧ v < 2 ^ 31 ∧ Leb (if 0 ≤ v then 2 * v else -2 * v - 1).toNat b
  | .float32, s, b => ∃ bits, s ≠ [] ∧ F.strtof s = some bits ∧ TwosComplement 4 bits b
  | .float64, s, b => ∃ bits, s ≠ [] ∧ F.strtod s = some bits ∧ TwosComplement 8 bits b
  | .float128, s, b => HexText s b ∧ b.length = 16
  | .checksum160, s, b => HexText s b ∧ b.length = 20
  | .checksum256, s, b => HexText s b ∧ b.length = 32
  | .checksum512, s, b => HexText s b ∧ b.length = 64
  | .time_point, _, _ => False
  | .time_point_sec, _, _ => False
  | .block_timestamp, _, _ => False
  | .name, s, b => TwosComplement 8 (nameValue s) b
  | .bytes, s, b => ∃ h a, HexText s a ∧ Size a.length h ∧ b = h ++ a
  | .string, s, b => ∃ h, Size s.length h ∧ b = h ++ s
  | .public_key, s, b => ∃ v, KeyText keyDigest publicKeyTy publicForms s v ∧ Layout publicKeyTy v b
  | .private_key, s, b =>
    ((∃ r, s = str "PVT_" ++ r) ∧ ∃ v, KeyText keyDigest privateKeyTy privateForms s v ∧ Layout privateKeyTy v b) ∨
    ((¬ ∃ r, s = str "PVT_" ++ r) ∧ ∃ a key extra, fromBase58 s = .ok (a :: (key ++ extra)) ∧ key.length = 32 ∧ 4 ≤ extra.length ∧ b = 0 :: key)
  | .signature, s, b => ∃ v, KeyText keyDigest signatureTy signatureForms s v ∧ Layout signatureTy v b
  | .symbol, s, b => ∃ w bl l, s = w ++ 44 :: (bl ++ l) ∧ w ≠ [] ∧ (∀ c ∈ w, IsDigit c) ∧ Blank bl ∧ CodeText l ∧
      TwosComplement 8 ((decVal w % 256 + 256 * leVal l : Nat) : Int) b
  | .symbol_code, s, b => ∃ bl l, s = bl ++ l ∧ Blank bl ∧ CodeText l ∧ TwosComplement 8 (leVal l : Int) b
  | .asset, s, b => AssetStored s b

/-- The types that hold a time. -/
def IsTime : Builtin → Prop
  | .time_point | .time_point_sec | .block_timestamp => True
  | _ => False

/-- A text that is a time, and its bytes: a `time_point_sec` is the number of seconds since the start of 1970 in four bytes; a `time_point` is the
number of microseconds in eight bytes; a `block_timestamp` is the number of half seconds since the start of 2000 in four bytes. In the latter two
the number of whole seconds is first reduced modulo 2^32. Half seconds before 2000 are rounded up, those after it are rounded down. -/
def TimeStored : Builtin → List UInt8 → List UInt8 → Prop
  | .time_point_sec, s, b => ∃ t g, TimeText none s t g ∧ TwosComplement 4 t b
  | .time_point, s, b => ∃ t g, TimeText (some 6) s t g ∧ TwosComplement 8 (t % 2 ^ 32 * 1000000 + (decVal g * 10 ^ (6 - g.length) : Nat)) b
  | .block_timestamp, s, b => ∃ t g, TimeText (some 6) s t g ∧
      TwosComplement 4 ((t % 2 ^ 32 * 1000 + (decVal g * 10 ^ (6 - g.length) / 1000 : Nat) - 946684800000).tdiv 500) b
  | _, _, _ => False

/-- `StoredScalar F k s b`: the scalar `s` of a JSON document, as a value of the builtin type `k`, is accepted, and is `b` in binary. -/
def StoredScalar (F : Floats) (k : Builtin) : Scalar → List UInt8 → Prop
  | .bool x, b => k = .bool ∧ b = [if x then 1 else 0]
  | .str s, b => StoredAs F k s b ∨ TimeStored k s b

end Abieos.Spec
