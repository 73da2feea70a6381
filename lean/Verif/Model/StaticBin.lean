import Verif.Model.Varint
/-
Native binary serialization of C++ types: `to_bin` / `from_bin` (include/eosio/to_bin.hpp, include/eosio/from_bin.hpp) over a
universe of types.
-/
namespace Abieos

/-- Values of the supported C++ types. -/
inductive BVal
  /-- the object representation of an arithmetic or enum type, the contents of a string, a vector of such, a byte range -/
  | raw (b : Bytes)
  /-- the bits of a `varuint32` / `varint32` -/
  | num (n : Nat)
  /-- the elements of a container, the fields of a struct, pair or tuple -/
  | list (l : List BVal)
  | none
  | some (v : BVal)
  /-- a variant holding alternative `i` -/
  | alt (i : Nat) (v : BVal)
  deriving Repr, Inhabited

/-- The supported types. -/
inductive BTy
  /-- `has_bitwise_serialization<T>()` (include/eosio/stream.hpp:53-62) with `sizeof(T) = n`: integers, floats, scoped enums -/
  | raw (n : Nat)
  | bool
  | varuint32
  | varint32
  /-- `std::string` -/
  | str
  /-- `std::vector<T>` where `T` is bitwise and `sizeof(T) = n` -/
  | rawVec (n : Nat)
  /-- `std::vector<T>` for other `T`; `std::list<T>` and `std::deque<T>` for all `T` -/
  | vec (t : BTy)
  /-- `std::set<T>`; `lt` is the order of the set -/
  | set (lt : BVal → BVal → Bool) (t : BTy)
  /-- `std::map<K, V>`; `lt` is the order of the keys -/
  | map (lt : BVal → BVal → Bool) (k v : BTy)
  /-- `input_stream`, and `opaque<T>` (include/eosio/opaque.hpp:45-78, 105-115) before it is unpacked -/
  | stream
  /-- `T[N]` -/
  | carr (n : Nat) (t : BTy)
  /-- `std::array<T, N>` -/
  | arr (n : Nat) (t : BTy)
  /-- `std::optional<T>` -/
  | opt (t : BTy)
  /-- `std::variant<Ts...>` -/
  | variant (ts : List BTy)
  /-- `std::pair`, `std::tuple`, structs with reflected fields -/
  | struct (ts : List BTy)
  /-- `might_not_exist<T>` (include/eosio/abi.hpp:43-60); `d` is the default value `T{}` -/
  | maybe (d : BVal) (t : BTy)

/-! ## Output streams (include/eosio/stream.hpp:73-138) -/

/-- `write(src, sz)` of an output stream with state `σ`. `write(char)` is `write` of one byte. -/
abbrev Writer (σ : Type) := Bytes → σ → Res σ

/-- `vector_stream::write` (include/eosio/stream.hpp:77-83). -/
def vectorWrite : Writer Bytes := fun b s => .ok (s ++ b)

/-- `size_stream::write` (include/eosio/stream.hpp:121-128). Sizes are taken not to wrap at 2^64. -/
def sizeWrite : Writer Nat := fun b n => .ok (n + b.length)

/-- `fixed_buf_stream` (include/eosio/stream.hpp:90-116): what was written and how much room is left. -/
structure FixedBuf where
  written : Bytes
  room : Nat
  deriving DecidableEq, Repr

/-- `fixed_buf_stream::write` (include/eosio/stream.hpp:96-105). -/
def fixedWrite : Writer FixedBuf := fun b s =>
  if b.length ≤ s.room then .ok ⟨s.written ++ b, s.room - b.length⟩ else .error .overrun

/-- `varuint32_to_bin` (include/eosio/to_bin.hpp:36-46) to any stream: one `write(char)` per byte. -/
def writeEach {σ : Type} (w : Writer σ) : Bytes → σ → Res σ
  | [], s => .ok s
  | b :: l, s => do writeEach w l (← w [b] s)

def varuint32Write {σ : Type} (w : Writer σ) (n : Nat) (s : σ) : Res σ := do writeEach w (← varuint32ToBin n) s

/-- `for (auto& x : obj) to_bin(x, stream);` (include/eosio/to_bin.hpp:64-66, 75-78, 88-91, 153-156). -/
def writeAll {σ : Type} (f : BVal → σ → Res σ) : List BVal → σ → Res σ
  | [], s => .ok s
  | v :: l, s => do writeAll f l (← f v s)

mutual
/-- `to_bin` (include/eosio/to_bin.hpp:51-168), `to_bin(varuint32)` and `to_bin(varint32)` (include/eosio/varint.hpp), to any stream.
A value that is not of the type gives `ub`. -/
def toBinG {σ : Type} (w : Writer σ) : BTy → BVal → σ → Res σ
  | .raw _, .raw b, s => w b s
  | .bool, .raw b, s => w b s
  | .varuint32, .num n, s => varuint32Write w n s
  | .varint32, .num n, s => varuint32Write w (zigzag (BitVec.ofNat 32 n)).toNat s
  | .str, .raw b, s => do w b (← varuint32Write w b.length s)
  | .rawVec n, .raw b, s => do w b (← varuint32Write w (b.length / n) s)
  | .vec t, .list l, s => do writeAll (toBinG w t) l (← varuint32Write w l.length s)
  | .set _ t, .list l, s => do writeAll (toBinG w t) l (← varuint32Write w l.length s)
  | .map _ k v, .list l, s => do
      writeAll (fun p s => match p with | .list [a, b] => do toBinG w v b (← toBinG w k a s) | _ => .error .ub) l
        (← varuint32Write w l.length s)
  | .stream, .raw b, s => do w b (← varuint32Write w b.length s)
  | .carr n t, .list l, s => do writeAll (toBinG w t) l (← varuint32Write w n s)
  | .arr _ t, .list l, s => writeAll (toBinG w t) l s
  | .opt _, .none, s => w [0] s
  | .opt t, .some v, s => do toBinG w t v (← w [1] s)
  | .variant ts, .alt i v, s => do toBinAlt w ts i v (← varuint32Write w i s)
  | .struct ts, .list l, s => toBinFields w ts l s
  | .maybe _ t, v, s => toBinG w t v s
  | _, _, _ => .error .ub
/-- `std::visit` (include/eosio/to_bin.hpp:136). -/
def toBinAlt {σ : Type} (w : Writer σ) : List BTy → Nat → BVal → σ → Res σ
  | [], _, _, _ => .error .ub
  | t :: _, 0, v, s => toBinG w t v s
  | _ :: ts, i + 1, v, s => toBinAlt w ts i v s
/-- `to_bin_tuple`, `for_each_field` (include/eosio/to_bin.hpp:120-124, 139-150, 163-167). -/
def toBinFields {σ : Type} (w : Writer σ) : List BTy → List BVal → σ → Res σ
  | [], [], s => .ok s
  | t :: ts, v :: vs, s => do toBinFields w ts vs (← toBinG w t v s)
  | _, _, _ => .error .ub
end

/-- `convert_to_bin` (include/eosio/to_bin.hpp:170-186): appends to `bin`. -/
def convertToBin (t : BTy) (v : BVal) (bin : Bytes) : Res Bytes := do
  let size ← toBinG sizeWrite t v 0
  let fbs ← toBinG fixedWrite t v ⟨[], size⟩
  check (fbs.room == 0) .underrun
  .ok (bin ++ fbs.written)

/-! ## Reading -/

/-- `for (...) from_bin(v[i], stream);` -/
def readN (f : Reader BVal) : Nat → Reader (List BVal)
  | 0, s => .ok ([], s)
  | n + 1, s => do
    let (v, s) ← f s
    let (l, s) ← readN f n s
    .ok (v :: l, s)

/-- `emplace` of an element in a `std::set` or of a pair in a `std::map`, whose elements are kept in increasing order: an element
equivalent to one already present is dropped. -/
def emplaceSorted (lt : BVal → BVal → Bool) (x : BVal) : List BVal → List BVal
  | [] => [x]
  | y :: l => if lt y x then y :: emplaceSorted lt x l else if lt x y then x :: y :: l else y :: l

/-- the loop of `from_bin_assoc` and `from_bin(std::map)` (include/eosio/from_bin.hpp:57-66, 123-132), from a container that holds
`acc` -/
def readAssoc (lt : BVal → BVal → Bool) (f : Reader BVal) : Nat → List BVal → Reader (List BVal)
  | 0, acc, s => .ok (acc, s)
  | n + 1, acc, s => do
    let (v, s) ← f s
    readAssoc lt f n (emplaceSorted lt v acc) s

/-- the order of the pairs of a map -/
def ltKey (lt : BVal → BVal → Bool) : BVal → BVal → Bool
  | .list (a :: _), .list (b :: _) => lt a b
  | _, _ => false

/-- `std::vector<T>::max_size()` for `sizeof(T) = n` on a 64-bit platform. -/
def vectorMax (n : Nat) : Nat := (2 ^ 63 - 1) / n

mutual
/-- `from_bin` (include/eosio/from_bin.hpp:57-250). Memory is taken to suffice for a container that is resized before its elements are
read (`std::string`, `std::vector`). Reading a byte into a `bool` is taken to give true for every non-zero byte. A container is taken to
be empty before it is read into, as in `convert_from_bin` (include/eosio/from_bin.hpp:259-270). 64-bit platform. -/
def fromBin : BTy → Reader BVal
  | .raw n => fun s => do
    let (b, s) ← readBytes n s
    .ok (.raw b, s)
  | .bool => fun s => do
    let (b, s) ← readU8 s
    .ok (.raw [if b = 0 then 0 else 1], s)
  | .varuint32 => fun s => do
    let (n, s) ← varuint32FromBin s
    .ok (.num n, s)
  | .varint32 => fun s => do
    let (n, s) ← varint32FromBin s
    .ok (.num n.toNat, s)
  | .str => fun s => do
    let (n, s) ← varuint32FromBin s
    let (b, s) ← readBytes n s
    .ok (.raw b, s)
  | .rawVec n => fun s => do
    let (k, s) ← varuint64FromBin s
    check (decide (k * n % 2 ^ 64 ≤ s.length)) .overrun
    check (decide (k ≤ vectorMax n)) .alloc
    let (b, s) ← readBytes (k * n % 2 ^ 64) s
    .ok (.raw b, s)
  | .vec t => fun s => do
    let (n, s) ← varuint32FromBin s
    let (l, s) ← readN (fromBin t) n s
    .ok (.list l, s)
  | .set lt t => fun s => do
    let (n, s) ← varuint32FromBin s
    let (l, s) ← readAssoc lt (fromBin t) n [] s
    .ok (.list l, s)
  | .map lt k v => fun s => do
    let (n, s) ← varuint32FromBin s
    let (l, s) ← readAssoc (ltKey lt) (fun s => do
      let (a, s) ← fromBin k s
      let (b, s) ← fromBin v s
      .ok (.list [a, b], s)) n [] s
    .ok (.list l, s)
  | .stream => fun s => do
    let (n, s) ← varuint64FromBin s
    check (decide (n ≤ s.length)) .overrun
    let (b, s) ← readBytes n s
    .ok (.raw b, s)
  | .carr n t => fun s => do
    let (k, s) ← varuint32FromBin s
    check (k == n) .array_size_mismatch
    let (l, s) ← readN (fromBin t) k s
    .ok (.list l, s)
  | .arr n t => fun s => do
    let (l, s) ← readN (fromBin t) n s
    .ok (.list l, s)
  | .opt t => fun s => do
    let (present, s) ← readU8 s
    if present = 0 then .ok (.none, s)
    else do
      let (v, s) ← fromBin t s
      .ok (.some v, s)
  | .variant ts => fun s => do
    let (u, s) ← varuint32FromBin s
    let (v, s) ← variantFromBin ts u s
    .ok (.alt u v, s)
  | .struct ts => fun s => do
    let (l, s) ← fromBinFields ts s
    .ok (.list l, s)
  | .maybe d t => fun s => if s = [] then .ok (d, s) else fromBin t s
/-- `variant_from_bin` (include/eosio/from_bin.hpp:195-207). -/
def variantFromBin : List BTy → Nat → Reader BVal
  | [], _ => fun _ => .error .bad_variant_index
  | t :: _, 0 => fromBin t
  | _ :: ts, i + 1 => variantFromBin ts i
/-- `from_bin_tuple`, `for_each_field` (include/eosio/from_bin.hpp:161-165, 223-234, 240-243). -/
def fromBinFields : List BTy → Reader (List BVal)
  | [] => fun s => .ok ([], s)
  | t :: ts => fun s => do
    let (v, s) ← fromBin t s
    let (l, s) ← fromBinFields ts s
    .ok (v :: l, s)
end

/-- `convert_from_bin` (include/eosio/from_bin.hpp:259-270): bytes after the value are ignored. -/
def convertFromBin (t : BTy) (bin : Bytes) : Res BVal := do
  let (v, _) ← fromBin t bin
  .ok v

end Abieos
