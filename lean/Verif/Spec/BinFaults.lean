import Verif.Spec.ScalarFaults
/-
What `bin_to_json` says about bytes it refuses: the first fault in the order of the bytes, with the text of its message. Read off the ABI definition.
`S` says which bytes are values of a builtin type, and `B` what is wrong with bytes that do not begin with one.
-/
namespace Abieos.Spec

/-- No size or index of at most `most` bytes can be read: the bytes end in it, or it is longer. -/
inductive SizeFault (most : Nat) : List UInt8 → String → Prop
  | short {b : List UInt8} : (∀ c ∈ b, 128 ≤ c.toNat) → b.length < most → SizeFault most b "Stream overrun"
  | long {a b : List UInt8} : (∀ c ∈ a, 128 ≤ c.toNat) → a.length = most → SizeFault most (a ++ b) "Invalid varuint encoding"

/-- What is wrong with the bytes of a key or signature: no index of a kind, an index of no kind, or too few bytes after it. -/
inductive TaggedFault (kinds : List (List KeyPart)) : List UInt8 → String → Prop
  | noIndex {b : List UInt8} {m : String} : SizeFault 5 b m → TaggedFault kinds b m
  | noKind {i : Nat} {c b : List UInt8} : SizeRead i c → kinds.length ≤ i → TaggedFault kinds (c ++ b) "Bad variant index"
  | parts {i : Nat} {c b : List UInt8} {ps : List KeyPart} {m : String} : SizeRead i c → kinds[i]? = some ps → PartsFault ps b m → TaggedFault kinds (c ++ b) m

/-- What is wrong with bytes that do not begin with a value of the builtin type (being fewer than 2^32). -/
def BytesFault : Builtin → List UInt8 → String → Prop
  | .bool => PartsFault [.fixed 1]
  | .int8 => PartsFault [.fixed 1]
  | .uint8 => PartsFault [.fixed 1]
  | .int16 => PartsFault [.fixed 2]
  | .uint16 => PartsFault [.fixed 2]
  | .int32 => PartsFault [.fixed 4]
  | .uint32 => PartsFault [.fixed 4]
  | .int64 => PartsFault [.fixed 8]
  | .uint64 => PartsFault [.fixed 8]
  | .int128 => PartsFault [.fixed 16]
  | .uint128 => PartsFault [.fixed 16]
  | .varuint32 => SizeFault 5
  | .varint32 => SizeFault 5
  | .float32 => PartsFault [.fixed 4]
  | .float64 => PartsFault [.fixed 8]
  | .float128 => PartsFault [.fixed 16]
  | .time_point => PartsFault [.fixed 8]
  | .time_point_sec => PartsFault [.fixed 4]
  | .block_timestamp => PartsFault [.fixed 4]
  | .name => PartsFault [.fixed 8]
  | .bytes => PartsFault [.sized 64 10]
  | .string => PartsFault [.sized 32 5]
  | .checksum160 => PartsFault [.fixed 20]
  | .checksum256 => PartsFault [.fixed 32]
  | .checksum512 => PartsFault [.fixed 64]
  | .public_key => TaggedFault [[.fixed 33], [.fixed 33], [.fixed 33, .fixed 1, .sized 32 5]]
  | .private_key => TaggedFault [[.fixed 32], [.fixed 32]]
  | .signature => TaggedFault [[.fixed 65], [.fixed 65], [.fixed 65, .sized 64 10, .sized 32 5]]
  | .symbol => PartsFault [.fixed 8]
  | .symbol_code => PartsFault [.fixed 8]
  | .asset => PartsFault [.fixed 8, .fixed 8]

/-- The bytes are a value of the type that does not nest too deeply inside `depth` structs, arrays and variants, and other bytes may follow. -/
def FitsBytes (D : AbiDef) (S : Builtin → Bytes → Bytes → Prop) (depth : Nat) (p : Ptr) (b : Bytes) : Prop :=
  ∃ t d, (depth + d ≤ 128 ∨ d = 0) ∧ Shown D S false p b t d

mutual
/-- `BinFault D S B depth last p b m`: reading a value of the type `p` from `b`, inside `depth` structs, arrays and variants, fails with the message `m`. `last` says that
nothing is to follow the value, so that extensions at its end may be missing. -/
inductive BinFault (D : AbiDef) (S : Builtin → Bytes → Bytes → Prop) (B : Builtin → Bytes → String → Prop) : Nat → Bool → Ptr → Bytes → String → Prop
  | scalar {depth : Nat} {last : Bool} {p : Ptr} {k : Builtin} {b : Bytes} {m : String} : Meaning D p (.builtin k) → B k b m → BinFault D S B depth last p b m
  | noFlag {depth : Nat} {last : Bool} {p q : Ptr} : Meaning D p (.optional q) → BinFault D S B depth last p [] "Stream overrun"
  | some {depth : Nat} {last : Bool} {p q : Ptr} {c : UInt8} {b : Bytes} {m : String} : Meaning D p (.optional q) → c ≠ 0 → BinFault D S B depth last q b m →
      BinFault D S B depth last p (c :: b) m
  | extension {depth : Nat} {last : Bool} {p q : Ptr} {b : Bytes} {m : String} : Meaning D p (.extension q) → BinFault D S B depth last q b m →
      BinFault D S B depth last p b m
  | deepStruct {depth : Nat} {last : Bool} {p : Ptr} {fs : List Field} {b : Bytes} : Meaning D p (.struct fs) → 128 ≤ depth →
      BinFault D S B depth last p b "Recursion limit reached"
  | fields {depth : Nat} {last : Bool} {p : Ptr} {fs : List Field} {b : Bytes} {m : String} : Meaning D p (.struct fs) → depth < 128 →
      BinFieldsFault D S B (depth + 1) last fs b m → BinFault D S B depth last p b m
  | noSize {depth : Nat} {last : Bool} {p q : Ptr} {b : Bytes} {m : String} : Meaning D p (.array q) → SizeFault 5 b m → BinFault D S B depth last p b m
  | deepArray {depth : Nat} {last : Bool} {p q : Ptr} {n : Nat} {c b : Bytes} : Meaning D p (.array q) → SizeRead n c → 128 ≤ depth →
      BinFault D S B depth last p (c ++ b) "Recursion limit reached"
  /-- elements are counted in an `int` -/
  | elems {depth : Nat} {last : Bool} {p q : Ptr} {n : Nat} {c b : Bytes} {m : String} : Meaning D p (.array q) → SizeRead n c → depth < 128 →
      BinElemsFault D S B (depth + 1) q (min n (2 ^ 31)) b m → BinFault D S B depth last p (c ++ b) m
  | deepVariant {depth : Nat} {last : Bool} {p : Ptr} {alts : List Field} {b : Bytes} : Meaning D p (.variant alts) → 128 ≤ depth →
      BinFault D S B depth last p b "Recursion limit reached"
  | noIndex {depth : Nat} {last : Bool} {p : Ptr} {alts : List Field} {b : Bytes} {m : String} : Meaning D p (.variant alts) → depth < 128 → SizeFault 5 b m →
      BinFault D S B depth last p b m
  | noAlternative {depth : Nat} {last : Bool} {p : Ptr} {alts : List Field} {i : Nat} {c b : Bytes} : Meaning D p (.variant alts) → depth < 128 → SizeRead i c →
      alts.length ≤ i → BinFault D S B depth last p (c ++ b) "Bad variant index"
  | alternative {depth : Nat} {last : Bool} {p : Ptr} {before after : List Field} {f : Field} {c b : Bytes} {m : String} :
      Meaning D p (.variant (before ++ f :: after)) → depth < 128 → SizeRead before.length c → BinFault D S B (depth + 1) last f.type b m →
      BinFault D S B depth last p (c ++ b) m

/-- The first fault in the fields of a struct. An extension is missing, and this is no fault, if nothing follows and there are no bytes. -/
inductive BinFieldsFault (D : AbiDef) (S : Builtin → Bytes → Bytes → Prop) (B : Builtin → Bytes → String → Prop) : Nat → Bool → List Field → Bytes → String → Prop
  | here {depth : Nat} {last : Bool} {f : Field} {fs : List Field} {b : Bytes} {m : String} : ¬ (last = true ∧ b = [] ∧ ExtType D f.type) →
      BinFault D S B depth (last && fs.isEmpty) f.type b m → BinFieldsFault D S B depth last (f :: fs) b m
  | later {depth : Nat} {last : Bool} {f : Field} {fs : List Field} {a b : Bytes} {m : String} : ¬ (last = true ∧ a ++ b = [] ∧ ExtType D f.type) →
      FitsBytes D S depth f.type a → BinFieldsFault D S B depth last fs b m → BinFieldsFault D S B depth last (f :: fs) (a ++ b) m

/-- The first fault in so many elements of an array. -/
inductive BinElemsFault (D : AbiDef) (S : Builtin → Bytes → Bytes → Prop) (B : Builtin → Bytes → String → Prop) : Nat → Ptr → Nat → Bytes → String → Prop
  | here {depth : Nat} {q : Ptr} {n : Nat} {b : Bytes} {m : String} : BinFault D S B depth false q b m → BinElemsFault D S B depth q (n + 1) b m
  | later {depth : Nat} {q : Ptr} {n : Nat} {a b : Bytes} {m : String} : FitsBytes D S depth q a → BinElemsFault D S B depth q n b m →
      BinElemsFault D S B depth q (n + 1) (a ++ b) m
end

/-- What is wrong with bytes that are no value of the type: a fault in them, or bytes after a value. -/
def DecodeFault (D : AbiDef) (S : Builtin → Bytes → Bytes → Prop) (B : Builtin → Bytes → String → Prop) (p : Ptr) (bin : Bytes) (m : String) : Prop :=
  BinFault D S B 0 true p bin m ∨ ((∃ b r, r ≠ [] ∧ bin = b ++ r ∧ FitsBytes D S 0 p b) ∧ m = "Extra data")

end Abieos.Spec
