import Verif.Spec.AbiJson
import Verif.Spec.BinFaults
/-
What is wrong with a JSON document, or with bytes, that hold no ABI definition.
-/
namespace Abieos.Spec

/-! ## Documents -/

/-- The shape of a document: a text, an unsigned 64-bit number, something that cannot be written in JSON, a list, or an object with members of given shapes (others
may be there and do not matter). -/
inductive Shape
  | text
  | number
  | never
  | list (s : Shape)
  | object (members : List (Bytes × Shape))

/-- The document has the shape. -/
inductive HasShape : Shape → JVal → Prop
  | text {s : Bytes} : HasShape .text (.str s)
  | number {s : Bytes} {n : Nat} : IsDecimal s n → n < 2 ^ 64 → HasShape .number (.str s)
  | list {s : Shape} {l : List JVal} : (∀ v ∈ l, HasShape s v) → HasShape (.list s) (.arr l)
  | object {ms : List (Bytes × Shape)} {l : List (Bytes × JVal)} : (∀ k v, (k, v) ∈ l → ∀ s, (k, s) ∈ ms → HasShape s v) → HasShape (.object ms) (.obj l)

/-- The first fault of a document that does not have the shape, in the order of the document. -/
inductive ShapeFault : Shape → JVal → String → Prop
  | text {v : JVal} : (∀ s, v ≠ .str s) → ShapeFault .text v "Expected string"
  | noNumber {v : JVal} : (∀ s, v ≠ .str s) → ShapeFault .number v "Expected string"
  | number {s : Bytes} {m : String} : IntFault false 8 s m → ShapeFault .number (.str s) m
  | never {v : JVal} : ShapeFault .never v "from_json does not support std::pair"
  | noList {s : Shape} {v : JVal} : (∀ l, v ≠ .arr l) → ShapeFault (.list s) v "Expected ["
  | list {s : Shape} {before after : List JVal} {v : JVal} {m : String} : (∀ w ∈ before, HasShape s w) → ShapeFault s v m →
      ShapeFault (.list s) (.arr (before ++ v :: after)) m
  | noObject {ms : List (Bytes × Shape)} {v : JVal} : (∀ l, v ≠ .obj l) → ShapeFault (.object ms) v "Expected {"
  | object {ms : List (Bytes × Shape)} {before after : List (Bytes × JVal)} {k : Bytes} {v : JVal} {s : Shape} {m : String} :
      (∀ j w, (j, w) ∈ before → ∀ s, (j, s) ∈ ms → HasShape s w) → (k, s) ∈ ms → ShapeFault s v m →
      ShapeFault (.object ms) (.obj (before ++ (k, v) :: after)) m

/-- a member -/
def mem (k : String) (s : Shape) : Bytes × Shape := (str k, s)

def typeShape : Shape := .object [mem "new_type_name" .text, mem "type" .text]
def fieldShape : Shape := .object [mem "name" .text, mem "type" .text]
def structShape : Shape := .object [mem "name" .text, mem "base" .text, mem "fields" (.list fieldShape)]
def actionShape : Shape := .object [mem "name" .text, mem "type" .text, mem "ricardian_contract" .text]
def tableShape : Shape :=
  .object [mem "name" .text, mem "index_type" .text, mem "key_names" (.list .text), mem "key_types" (.list .text), mem "type" .text]
def clauseShape : Shape := .object [mem "id" .text, mem "body" .text]
def errorShape : Shape := .object [mem "error_code" .number, mem "error_msg" .text]
def variantShape : Shape := .object [mem "name" .text, mem "types" (.list .text)]

/-- The shape of ABI definitions. -/
def abiShape : Shape :=
  .object [mem "version" .text, mem "types" (.list typeShape), mem "structs" (.list structShape), mem "actions" (.list actionShape),
    mem "tables" (.list tableShape), mem "ricardian_clauses" (.list clauseShape), mem "error_messages" (.list errorShape),
    mem "abi_extensions" (.list .never), mem "variants" (.list variantShape)]

/-! ## Bytes -/

/-- The layout of bytes: so many bytes, a text with its size, bytes with their size, a list with its size, one after the other, or something that may be missing at
the end. -/
inductive Lay
  | fixed (n : Nat)
  | text
  | bytes
  | list (a : Lay)
  | pair (a b : Lay)
  | maybe (a : Lay)

/-- The bytes are laid out so. -/
inductive HasLay : Lay → Bytes → Prop
  | fixed {n : Nat} {b : Bytes} : b.length = n → HasLay (.fixed n) b
  | text {h b : Bytes} : SizeRead b.length h → HasLay .text (h ++ b)
  | bytes {h b : Bytes} : VarRead 64 10 b.length h → HasLay .bytes (h ++ b)
  | list {a : Lay} {h : Bytes} {l : List Bytes} : SizeRead l.length h → (∀ b ∈ l, HasLay a b) → HasLay (.list a) (h ++ l.flatten)
  | pair {a a' : Lay} {b b' : Bytes} : HasLay a b → HasLay a' b' → HasLay (.pair a a') (b ++ b')

/-- The first fault of bytes that do not begin with such a layout. -/
inductive LayFault : Lay → Bytes → String → Prop
  | fixed {n : Nat} {b : Bytes} : b.length < n → LayFault (.fixed n) b "Stream overrun"
  | text {b : Bytes} {m : String} : PartsFault [.sized 32 5] b m → LayFault .text b m
  | bytes {b : Bytes} {m : String} : PartsFault [.sized 64 10] b m → LayFault .bytes b m
  | noSize {a : Lay} {b : Bytes} {m : String} : SizeFault 5 b m → LayFault (.list a) b m
  | elem {a : Lay} {n : Nat} {h b : Bytes} {l : List Bytes} {m : String} : SizeRead n h → l.length < n → (∀ b ∈ l, HasLay a b) → LayFault a b m →
      LayFault (.list a) (h ++ (l.flatten ++ b)) m
  | first {a a' : Lay} {b : Bytes} {m : String} : LayFault a b m → LayFault (.pair a a') b m
  | second {a a' : Lay} {b b' : Bytes} {m : String} : HasLay a b → LayFault a' b' m → LayFault (.pair a a') (b ++ b') m
  | maybe {a : Lay} {b : Bytes} {m : String} : b ≠ [] → LayFault a b m → LayFault (.maybe a) b m

@[inherit_doc] infixr:60 " ⊹ " => Lay.pair

/-- The sections after the version. -/
def abiRest : Lay :=
  .list (.text ⊹ .text) ⊹                              -- types
  .list (.text ⊹ .text ⊹ .list (.text ⊹ .text)) ⊹      -- structs
  .list (.fixed 8 ⊹ .text ⊹ .text) ⊹                   -- actions
  .list (.fixed 8 ⊹ .text ⊹ .list .text ⊹ .list .text ⊹ .text) ⊹  -- tables
  .list (.text ⊹ .text) ⊹                              -- ricardian clauses
  .list (.fixed 8 ⊹ .text) ⊹                           -- error messages
  .list (.fixed 2 ⊹ .bytes) ⊹                          -- extensions
  .maybe (.list (.text ⊹ .list .text))                 -- variants

/-- What is wrong with bytes that hold no ABI definition, or one of a wrong version: the version counts first. -/
inductive AbiBytesFault : Bytes → String → Prop
  | empty : AbiBytesFault [] "no data"
  | noVersion {b : Bytes} {m : String} : b ≠ [] → LayFault .text b m → AbiBytesFault b m
  | version {h v rest : Bytes} : SizeRead v.length h → (∀ minor, v ≠ str "eosio::abi/1." ++ minor) → AbiBytesFault (h ++ (v ++ rest)) "unsupported abi version"
  | rest {h minor rest : Bytes} {m : String} : SizeRead (str "eosio::abi/1." ++ minor).length h → LayFault abiRest rest m →
      AbiBytesFault (h ++ (str "eosio::abi/1." ++ minor ++ rest)) m

end Abieos.Spec
