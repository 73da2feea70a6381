import Verif.Model.StaticBin
/-!
`opaque<T>` (include/eosio/opaque.hpp): a value kept in its binary form and read later, perhaps element by element. The C++ object holds an
`input_stream`, a pair of pointers into someone else's storage; the model holds the bytes between them, so the lifetime of that storage is
not modelled. After an exception the position inside the stream is unspecified; the model has no state then.
-/
namespace Abieos

/-- `opaque_base<T>` (include/eosio/opaque.hpp:45-76): the bytes from `bin.pos` to `bin.end`. -/
structure Opaque where
  bin : Bytes
  deriving DecidableEq, Repr

/-- `opaque_base(const std::vector<char>&)` (include/eosio/opaque.hpp:51) -/
def opaqueOfVector (data : Bytes) : Opaque := ⟨data⟩

/-- `opaque_base::from` (include/eosio/opaque.hpp:64-67), `from_bin(opaque<T>&, stream)` (include/eosio/opaque.hpp:109-112): `from_bin` of an
`input_stream` (include/eosio/from_bin.hpp:144-159). -/
def opaqueFromBin : Reader Opaque := fun s => do
  let (v, s) ← fromBin .stream s
  match v with
  | .raw b => .ok (⟨b⟩, s)
  | _ => .error .ub

/-- `opaque_base(input_stream)` (include/eosio/opaque.hpp:52): the stream is a copy, the caller's does not move. -/
def opaqueOfStream (s : Bytes) : Res Opaque := do
  let (o, _) ← opaqueFromBin s
  .ok o

/-- `opaque_base::to_bin` (include/eosio/opaque.hpp:69-72), `to_bin(const opaque<T>&, stream)` (include/eosio/opaque.hpp:114-117): `to_bin` of
an `input_stream` (include/eosio/to_bin.hpp:117-121). -/
def Opaque.toBin {σ : Type} (w : Writer σ) (o : Opaque) (s : σ) : Res σ := toBinG w .stream (.raw o.bin) s

/-- `opaque_base::empty` (include/eosio/opaque.hpp:62) -/
def Opaque.empty (o : Opaque) : Bool := o.bin.length == 0

/-- `opaque_base::unpack` (include/eosio/opaque.hpp:54-60). The object has moved past what was read. -/
def Opaque.unpack (t : BTy) (o : Opaque) : Res (BVal × Opaque) := do
  let (v, r) ← fromBin t o.bin
  .ok (v, ⟨r⟩)

/-- `opaque<std::vector<T>>::unpack_size` (include/eosio/opaque.hpp:89-93) -/
def Opaque.unpackSize (o : Opaque) : Res (Nat × Opaque) := do
  let (n, r) ← varuint32FromBin o.bin
  .ok (n, ⟨r⟩)

/-- `opaque<std::vector<T>>::unpack_next` (include/eosio/opaque.hpp:95-101), `T` being `t` -/
def Opaque.unpackNext (t : BTy) (o : Opaque) : Res (BVal × Opaque) := do
  let (v, r) ← fromBin t o.bin
  .ok (v, ⟨r⟩)

/-- The loop of the example in include/eosio/opaque.hpp:35-39 without the `break`: `unpack_next` called `n` times. -/
def Opaque.unpackMany (t : BTy) : Nat → Opaque → Res (List BVal × Opaque)
  | 0, o => .ok ([], o)
  | n + 1, o => do
    let (v, o) ← o.unpackNext t
    let (l, o) ← unpackMany t n o
    .ok (v :: l, o)

end Abieos
