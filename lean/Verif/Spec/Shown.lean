import Verif.Spec.Decoding
import Verif.Spec.BuiltinFormat
import Verif.Spec.AbiMeaning
/-
What `bin_to_json` shows: binary forms and JSON texts, read off the ABI definition. No type table, no reader, no conversion loops.
-/
namespace Abieos.Spec

/-! ### Numbers -/

/-- Unsigned LEB128 as it is accepted: seven bits per byte, least significant first, the top bit set on all bytes but the last. Groups of zeros at the end are allowed. -/
inductive LebAny : Nat → List UInt8 → Prop
  | last {c : UInt8} : c.toNat < 128 → LebAny c.toNat [c]
  | more {c : UInt8} {n : Nat} {b : List UInt8} : 128 ≤ c.toNat → LebAny n b → LebAny (c.toNat - 128 + 128 * n) (c :: b)

/-- A number of `w` bits is read from at most `most` bytes; bits that do not fit are dropped. -/
def VarRead (w most v : Nat) (b : List UInt8) : Prop := ∃ n, LebAny n b ∧ b.length ≤ most ∧ v = n % 2 ^ w

/-- A size or index prefix as it is accepted. -/
def SizeRead (v : Nat) (b : List UInt8) : Prop := VarRead 32 5 v b

/-- The decimal text of a number, without leading zeros. -/
def ShortDecimal (n : Nat) (s : List UInt8) : Prop := IsDecimal s n ∧ (s.head? = some 48 → s = [48])

/-- The decimal text of an integer, without leading zeros. -/
def IntegerText (v : Int) (s : List UInt8) : Prop := ∃ w, ShortDecimal v.natAbs w ∧ s = if v < 0 then 45 :: w else w

/-- Between quotes. -/
def quoted (s : List UInt8) : List UInt8 := 34 :: (s ++ [34])

/-- The text of an integer of an `n`-byte type; between quotes if the type is wider than four bytes. -/
def IntShown (n : Nat) (v : Int) (t : List UInt8) : Prop := ∃ s, IntegerText v s ∧ t = if n ≤ 4 then s else quoted s

/-- An integer in `n` bytes, and its text. -/
def IntRead (signed : Bool) (n : Nat) (b t : List UInt8) : Prop :=
  ∃ v : Int, (if signed then -(2 ^ (8 * n - 1)) ≤ v ∧ v < 2 ^ (8 * n - 1) else 0 ≤ v ∧ v < 2 ^ (8 * n)) ∧ TwosComplement n v b ∧ IntShown n v t

/-! ### Strings -/

/-- The bytes are the UTF-8 encoding of one character. -/
def IsChar (x : List UInt8) (n : Nat) : Prop := IsScalarValue n ∧ x = Reader.utf8Encode n

/-- Upper-case hexadecimal digits, two for each byte. -/
def UpperHex (s b : List UInt8) : Prop := HexText s b ∧ ∀ c ∈ s, c.toNat < 97

/-- A text between the quotes of a JSON string: quote, backslash and control characters are escaped, other characters are themselves,
and a byte that does not belong to a character is replaced by `?`. -/
inductive Escaped : List UInt8 → List UInt8 → Prop
  | nil : Escaped [] []
  | char {x r t : List UInt8} {n : Nat} : IsChar x n → 32 ≤ n → n ≠ 34 → n ≠ 92 → n ≠ 127 → Escaped r t → Escaped (x ++ r) (x ++ t)
  | quote {r t : List UInt8} : Escaped r t → Escaped (34 :: r) (92 :: 34 :: t)
  | backslash {r t : List UInt8} : Escaped r t → Escaped (92 :: r) (92 :: 92 :: t)
  | control {c : UInt8} {h r t : List UInt8} : c.toNat < 32 ∨ c.toNat = 127 → UpperHex h [c] → Escaped r t →
      Escaped (c :: r) (92 :: 117 :: 48 :: 48 :: (h ++ t))
  | bad {c : UInt8} {r t : List UInt8} : (∀ x n y, IsChar x n → c :: r ≠ x ++ y) → Escaped r t → Escaped (c :: r) (63 :: t)

/-- `s` as a JSON string. -/
def JsonStr (s t : List UInt8) : Prop := ∃ e, Escaped s e ∧ t = quoted e

/-! ### Builtin types -/

/-- The text of a time, `us` microseconds after the start of 1970: `YYYY-MM-DDThh:mm:ss.mmm`, rounded down. Only the last four digits of the year are shown; years before
the year 0 are shown modulo 2^32. -/
def TimeShown (us : Int) (t : List UInt8) : Prop :=
  ∃ (x : Date) (n : Int) (r : Nat) (w f : List UInt8), DayNumber x n ∧ us = n * 86400000000 + r ∧ r < 86400000000 ∧
    DateTimeText ((x.y % 2 ^ 32).toNat % 10000) x.m x.d (r / 3600000000) (r / 60000000 % 60) (r / 1000000 % 60) w ∧
    Padded 3 (r / 1000 % 1000) f ∧ t = w ++ 46 :: f

/-- The text of a name: the valid name text that spells the value and does not end with a dot. -/
def NameShown (v : Nat) (s : List UInt8) : Prop := ValidNameText s ∧ nameBits 0 s = v ∧ s.getLast? ≠ some 46

/-- The characters of a symbol code: its bytes, from the lowest, without zeros at the end. -/
def CodeShown (v : Nat) (s : List UInt8) : Prop := leVal s = v ∧ s.getLast? ≠ some 0

/-- The text of an asset: sign, whole part, point and fraction if there are digits after the point, blank, symbol code. -/
def AssetShown (a : Int) (precision code : Nat) (s : List UInt8) : Prop :=
  ∃ w f l, ShortDecimal (a.natAbs / 10 ^ precision) w ∧ Padded precision (a.natAbs % 10 ^ precision) f ∧ CodeShown code l ∧
    s = (if a < 0 then [45] else []) ++ w ++ (if precision = 0 then [] else 46 :: f) ++ 32 :: l

/-- The text of a key: prefix, then in base 58 the key and four bytes of the digest of the key and the name of its kind. -/
def keyText (pre kind key : List UInt8) : List UInt8 := pre ++ toBase58 (key ++ (keyDigest (key ++ kind)).take 4)

/-- A public key as it is accepted, and its text. -/
inductive PublicKeyShown : List UInt8 → List UInt8 → Prop
  | k1 {tag key : List UInt8} : SizeRead 0 tag → key.length = 33 → PublicKeyShown (tag ++ key) (keyText (str "PUB_K1_") (str "K1") key)
  | r1 {tag key : List UInt8} : SizeRead 1 tag → key.length = 33 → PublicKeyShown (tag ++ key) (keyText (str "PUB_R1_") (str "R1") key)
  | wa {tag key size size' rpid : List UInt8} {presence : UInt8} : SizeRead 2 tag → key.length = 33 → SizeRead rpid.length size → Size rpid.length size' →
      PublicKeyShown (tag ++ (key ++ presence :: (size ++ rpid))) (keyText (str "PUB_WA_") (str "WA") (key ++ presence :: (size' ++ rpid)))

/-- A private key as it is accepted, and its text. -/
inductive PrivateKeyShown : List UInt8 → List UInt8 → Prop
  | k1 {tag key : List UInt8} : SizeRead 0 tag → key.length = 32 → PrivateKeyShown (tag ++ key) (keyText (str "PVT_K1_") (str "K1") key)
  | r1 {tag key : List UInt8} : SizeRead 1 tag → key.length = 32 → PrivateKeyShown (tag ++ key) (keyText (str "PVT_R1_") (str "R1") key)

/-- A signature as it is accepted, and its text. -/
inductive SignatureShown : List UInt8 → List UInt8 → Prop
  | k1 {tag sig : List UInt8} : SizeRead 0 tag → sig.length = 65 → SignatureShown (tag ++ sig) (keyText (str "SIG_K1_") (str "K1") sig)
  | r1 {tag sig : List UInt8} : SizeRead 1 tag → sig.length = 65 → SignatureShown (tag ++ sig) (keyText (str "SIG_R1_") (str "R1") sig)
  | wa {tag sig n n' data m m' json : List UInt8} : SizeRead 2 tag → sig.length = 65 → VarRead 64 10 data.length n → Size data.length n' →
      SizeRead json.length m → Size json.length m' →
      SignatureShown (tag ++ (sig ++ (n ++ data ++ (m ++ json)))) (keyText (str "SIG_WA_") (str "WA") (sig ++ (n' ++ data ++ (m' ++ json))))

/-- The text is between quotes, as a JSON string. -/
def AsString (R : List UInt8 → Prop) (t : List UInt8) : Prop := ∃ s, R s ∧ JsonStr s t

/-- `ShownScalar P k b t`: the bytes `b` are a value of the builtin type `k`, and it is shown as `t`. `P` is how doubles, given by their bits, are shown. -/
def ShownScalar (P : Nat → List UInt8 → Prop) : Builtin → List UInt8 → List UInt8 → Prop
  | .bool, b, t => ∃ c, b = [c] ∧ t = if c = 0 then str "false" else str "true"
  | .int8, b, t => IntRead true 1 b t
  | .uint8, b, t => IntRead false 1 b t
  | .int16, b, t => IntRead true 2 b t
  | .uint16, b, t => IntRead false 2 b t
  | .int32, b, t => IntRead true 4 b t
  | .uint32, b, t => IntRead false 4 b t
  | .int64, b, t => IntRead true 8 b t
  | .uint64, b, t => IntRead false 8 b t
  | .int128, b, t => IntRead true 16 b t
  | .uint128, b, t => IntRead false 16 b t
  | .varuint32, b, t => ∃ v, SizeRead v b ∧ IntShown 4 v t
  | .varint32, b, t => ∃ v : Int, -(2 ^ 31) ≤ v ∧ v < 2 ^ 31 ∧ SizeRead (if 0 ≤ v then 2 * v else -2 * v - 1).toNat b ∧ IntShown 4 v t
  | .float32, b, t => b.length = 4 ∧ P (widenFloat (leVal b)) t
  | .float64, b, t => b.length = 8 ∧ P (leVal b) t
  | .float128, b, t => ∃ s, UpperHex s b ∧ b.length = 16 ∧ t = quoted s
  | .checksum160, b, t => ∃ s, UpperHex s b ∧ b.length = 20 ∧ t = quoted s
  | .checksum256, b, t => ∃ s, UpperHex s b ∧ b.length = 32 ∧ t = quoted s
  | .checksum512, b, t => ∃ s, UpperHex s b ∧ b.length = 64 ∧ t = quoted s
  | .time_point, b, t => ∃ v : Int, -(2 ^ 63) ≤ v ∧ v < 2 ^ 63 ∧ TwosComplement 8 v b ∧ AsString (TimeShown v) t
  | .time_point_sec, b, t => b.length = 4 ∧ AsString (TimeShown (leVal b * 1000000)) t
  | .block_timestamp, b, t => b.length = 4 ∧ AsString (TimeShown (946684800000000 + leVal b * 500000)) t
  | .name, b, t => b.length = 8 ∧ AsString (NameShown (leVal b)) t
  | .bytes, b, t => ∃ h a s, VarRead 64 10 a.length h ∧ b = h ++ a ∧ UpperHex s a ∧ t = quoted s
  | .string, b, t => ∃ h s, SizeRead s.length h ∧ b = h ++ s ∧ JsonStr s t
  | .public_key, b, t => AsString (PublicKeyShown b) t
  | .private_key, b, t => AsString (PrivateKeyShown b) t
  | .signature, b, t => AsString (SignatureShown b) t
  | .symbol, b, t => b.length = 8 ∧ AsString (fun s => ∃ w l, ShortDecimal (leVal b % 256) w ∧ CodeShown (leVal b / 256) l ∧ s = w ++ 44 :: l) t
  | .symbol_code, b, t => b.length = 8 ∧ AsString (CodeShown (leVal b)) t
  | .asset, b, t => ∃ (v : Int) (x y : List UInt8), -(2 ^ 63) < v ∧ v < 2 ^ 63 ∧ TwosComplement 8 v x ∧ y.length = 8 ∧ b = x ++ y ∧
      AsString (AssetShown v (leVal y % 256) (leVal y / 256)) t

/-! ### Values of all types -/

mutual
/-- `Shown D S last p b t d`: the bytes `b` are a value of the type with the text `p` of the definition `D`, shown as `t`; structs, arrays and
variants are nested `d` deep in it. `last` says that nothing follows the value, so that extensions at its end may be missing. -/
inductive Shown (D : AbiDef) (S : Builtin → Bytes → Bytes → Prop) : Bool → Ptr → (b t : Bytes) → (d : Nat) → Prop
  /-- a builtin type -/
  | scalar {last : Bool} {p : Ptr} {k : Builtin} {b t : Bytes} : Meaning D p (.builtin k) → S k b t → Shown D S last p b t 0
  /-- `T?`, no value: a zero -/
  | none {last : Bool} {p q : Ptr} : Meaning D p (.optional q) → Shown D S last p [0] (str "null") 0
  /-- `T?`, with a value: any other byte, then the value -/
  | some {last : Bool} {p q : Ptr} {c : UInt8} {b t : Bytes} {d : Nat} : Meaning D p (.optional q) → c ≠ 0 → Shown D S last q b t d → Shown D S last p (c :: b) t d
  /-- `T$`: the value -/
  | extension {last : Bool} {p q : Ptr} {b t : Bytes} {d : Nat} : Meaning D p (.extension q) → Shown D S last q b t d → Shown D S last p b t d
  /-- a struct: an object with the fields as members -/
  | struct {last : Bool} {p : Ptr} {fs : List Field} {b : Bytes} {ms : List Bytes} {d : Nat} : Meaning D p (.struct fs) → ShownFields D S last fs b ms d →
      Shown D S last p b (str "{" ++ joinComma ms ++ str "}") (d + 1)
  /-- `T[]`: the number of elements, then the elements -/
  | array {last : Bool} {p q : Ptr} {c b : Bytes} {ts : List Bytes} {d : Nat} : Meaning D p (.array q) → SizeRead ts.length c → ts.length < 2 ^ 31 → ShownElems D S q b ts d →
      Shown D S last p (c ++ b) (str "[" ++ joinComma ts ++ str "]") (d + 1)
  /-- a variant: the number of the alternative, then the value; its name and the value -/
  | variant {last : Bool} {p : Ptr} {before after : List Field} {f : Field} {c b n t : Bytes} {d : Nat} : Meaning D p (.variant (before ++ f :: after)) →
      SizeRead before.length c → Shown D S last f.type b t d → JsonStr f.name n → Shown D S last p (c ++ b) (str "[" ++ n ++ str "," ++ t ++ str "]") (d + 1)

/-- The fields of a struct, one after the other, and the texts of the members. If nothing follows and the bytes end before an extension, all fields from there on are
extensions and have no members. -/
inductive ShownFields (D : AbiDef) (S : Builtin → Bytes → Bytes → Prop) : Bool → List Field → (b : Bytes) → (ms : List Bytes) → (d : Nat) → Prop
  | nil {last : Bool} : ShownFields D S last [] [] [] 0
  | missing {f : Field} {fs : List Field} : (∀ g ∈ f :: fs, ∃ q, Meaning D g.type (.extension q)) → ShownFields D S true (f :: fs) [] [] 0
  | present {last : Bool} {f : Field} {fs : List Field} {b1 b2 n t : Bytes} {ms : List Bytes} {d1 d2 : Nat} :
      ¬ (last = true ∧ b1 ++ b2 = [] ∧ ∃ q, Meaning D f.type (.extension q)) → Shown D S (last && fs.isEmpty) f.type b1 t d1 →
      ShownFields D S last fs b2 ms d2 → JsonStr f.name n → ShownFields D S last (f :: fs) (b1 ++ b2) ((n ++ str ":" ++ t) :: ms) (max d1 d2)

/-- The elements of an array, one after the other; nothing may be missing in them. -/
inductive ShownElems (D : AbiDef) (S : Builtin → Bytes → Bytes → Prop) : Ptr → (b : Bytes) → (ts : List Bytes) → (d : Nat) → Prop
  | nil {q : Ptr} : ShownElems D S q [] [] 0
  | cons {q : Ptr} {b1 b2 t : Bytes} {ts : List Bytes} {d1 d2 : Nat} : Shown D S false q b1 t d1 → ShownElems D S q b2 ts d2 →
      ShownElems D S q (b1 ++ b2) (t :: ts) (max d1 d2)
end

end Abieos.Spec
