import Verif.Model.FixedBytes
/-
Database keys: `to_key` and `convert_to_key` (include/eosio/to_key.hpp) over a universe of types.
-/
namespace Abieos

/-- Values of the types that have keys. -/
inductive KVal
  /-- an unsigned integer, a `varuint32` -/
  | nat (n : Nat)
  /-- a signed integer -/
  | int (i : Int)
  | flag (b : Bool)
  /-- the bits of a floating-point number -/
  | bits (n : Nat)
  /-- the characters of a string -/
  | bytes (b : Bytes)
  /-- the words of a `fixed_bytes` -/
  | words (l : List Nat)
  /-- the elements of a container, the fields of a struct, pair or tuple -/
  | list (l : List KVal)
  | none
  | some (v : KVal)
  /-- a variant holding alternative `i` -/
  | alt (i : Nat) (v : KVal)
  deriving Repr, Inhabited

/-- The types that have keys. A scoped enum is its underlying type (include/eosio/to_key.hpp:270-272). There is no key of a
`varint32`: `to_key_varint32` (185-213) does not compile. -/
inductive KTy
  /-- an unsigned integer of `n` bytes -/
  | uint (n : Nat)
  /-- a signed integer of `n` bytes -/
  | sint (n : Nat)
  | bool
  | float
  | double
  | varuint32
  /-- `std::string`, `std::string_view` -/
  | str
  /-- `fixed_bytes<size, Word>`, `sizeof(Word) = word` -/
  | fixed (size word : Nat)
  /-- `std::vector<T>`, `std::list<T>`, `std::deque<T>`, `std::set<T>`; `std::map<K, V>` has pairs as elements -/
  | seq (t : KTy)
  /-- `std::array<T, N>` -/
  | arr (n : Nat) (t : KTy)
  /-- `std::optional<T>` -/
  | opt (t : KTy)
  /-- `std::variant<Ts...>` -/
  | variant (ts : List KTy)
  /-- `std::pair`, `std::tuple`, structs with reflected fields -/
  | struct (ts : List KTy)

/-- The object representation, reversed, of an integer of `n` bytes after `v -= min` (include/eosio/to_key.hpp:265-269); `x` and `min`
are taken modulo 256^n first by the casts. -/
def intKey (n : Nat) (x min : Int) : Bytes := (leBytes n ((x % 256 ^ n - min % 256 ^ n) % 256 ^ n).toNat).reverse

/-- `float_to_key` (include/eosio/to_key.hpp:242-254); `digits` is `std::numeric_limits<UInt>::digits`, `value` the bits. -/
def floatToKey (digits value : Nat) : Nat :=
  let signbit := 1 <<< (digits - 1)
  let result := if value = signbit then 0 else value
  let mask := if result &&& signbit ≠ 0 then 2 ^ digits - 1 else 0
  result ^^^ (mask ||| signbit)

/-- `num_bytes` (include/eosio/to_key.hpp:150-161) -/
def varuintKeyBytes (obj : Nat) : Nat :=
  if obj < 0x80 then 1 else if obj < 0x4000 then 2 else if obj < 0x200000 then 3 else if obj < 0x10000000 then 4 else 5

/-- `for (int i = num_bytes - 2; i >= 0; --i)` (include/eosio/to_key.hpp:165), `i + 1` iterations left -/
def varuintKeyTail {σ : Type} (w : Writer σ) (obj : Nat) : Nat → σ → Res σ
  | 0, s => .ok s
  | i + 1, s => do varuintKeyTail w obj i (← w [UInt8.ofNat ((obj >>> (i * 8)) &&& 0xff)] s)

/-- `to_key_varuint32` (include/eosio/to_key.hpp:147-166). `~` is on 32 bits, the cast to `char` keeps the low byte. -/
def varuintKey {σ : Type} (w : Writer σ) (obj : Nat) (s : σ) : Res σ := do
  let n := varuintKeyBytes obj
  let s ← w [UInt8.ofNat ((2 ^ 32 - 1 - (0xff >>> (n - 1))) ||| (if n = 5 then 0 else obj >>> ((n - 1) * 8)))] s
  varuintKeyTail w obj (n - 1) s

/-- `to_key(std::string_view)` (include/eosio/to_key.hpp:220-230): the loop. -/
def stringKey {σ : Type} (w : Writer σ) : Bytes → σ → Res σ
  | [], s => w [0, 0] s
  | c :: b, s => do
    let s ← w [c] s
    let s ← if c = 0 then w [1] s else .ok s
    stringKey w b s

/-- What writes the key of an object, to any stream. -/
abbrev KeyWriter := (σ : Type) → Writer σ → σ → Res σ

/-- `has_bitwise_serialization<T>() && sizeof(T) == 1` (include/eosio/stream.hpp:53-62, to_key.hpp:75). -/
def KTy.isByte : KTy → Bool
  | .uint 1 => true
  | .sint 1 => true
  | .bool => true
  | _ => false

/-- `to_key_optional` (include/eosio/to_key.hpp:73-94); `obj` is `none` for a null pointer, otherwise the writer of the key of the
object. The overload for `const bool*` (63-71) has a template parameter that cannot be deduced, so it is never called. -/
def toKeyOptional (isByte : Bool) (obj : Option KeyWriter) : KeyWriter := fun σ w s =>
  match isByte, obj with
  | true, none => w [0, 0] s
  | true, some key => do
    let tmp ← key FixedBuf fixedWrite ⟨[], 1⟩
    match tmp.written with
    | [] => .error .ub
    | c :: _ => do
      let s ← w [c] s
      if c = 0 then w [1] s else .ok s
  | false, some key => do key σ w (← w [1] s)
  | false, none => w [0] s

/-- `for (const T& elem : obj)` (include/eosio/to_key.hpp:60, 104, 110) -/
def keyEach {σ : Type} (f : KVal → σ → Res σ) : List KVal → σ → Res σ
  | [], s => .ok s
  | v :: l, s => do keyEach f l (← f v s)

mutual
/-- `to_key` (include/eosio/to_key.hpp:45-278), `to_key(varuint32)` (varint.hpp:232-235), `to_key(fixed_bytes)`
(fixed_bytes.hpp:225-228), to any stream. A value that is not of the type gives `ub`. -/
def toKey : KTy → KVal → KeyWriter
  | .uint n, .nat x, _, w, s => w (intKey n x 0) s
  | .sint n, .int x, _, w, s => w (intKey n x (-(2 ^ (8 * n - 1)))) s
  | .bool, .flag b, _, w, s => w [if b then 1 else 0] s
  | .float, .bits x, _, w, s => w (intKey 4 (floatToKey 32 x) 0) s
  | .double, .bits x, _, w, s => w (intKey 8 (floatToKey 64 x) 0) s
  | .varuint32, .nat x, _, w, s => varuintKey w x s
  | .str, .bytes b, _, w, s => stringKey w b s
  | .fixed size word, .words l, _, w, s => fixedToBin w size word l s
  | .seq t, .list l, σ, w, s => do
    let s ← keyEach (fun v s => toKeyOptional t.isByte (some (toKey t v)) σ w s) l s
    toKeyOptional t.isByte none σ w s
  | .arr _ t, .list l, σ, w, s => keyEach (fun v s => toKey t v σ w s) l s
  | .opt t, .none, σ, w, s => toKeyOptional t.isByte none σ w s
  | .opt t, .some v, σ, w, s => toKeyOptional t.isByte (some (toKey t v)) σ w s
  | .variant ts, .alt i v, σ, w, s => do toKeyAlt ts i v σ w (← varuintKey w i s)
  | .struct ts, .list l, σ, w, s => toKeyFields ts l σ w s
  | _, _, _, _, _ => .error .ub
/-- `std::visit` (include/eosio/to_key.hpp:218) -/
def toKeyAlt : List KTy → Nat → KVal → KeyWriter
  | [], _, _, _, _, _ => .error .ub
  | t :: _, 0, v, σ, w, s => toKey t v σ w s
  | _ :: ts, i + 1, v, σ, w, s => toKeyAlt ts i v σ w s
/-- `to_key_tuple`, `to_key(std::pair)`, `for_each_field` (include/eosio/to_key.hpp:45-56, 96-100, 273-276) -/
def toKeyFields : List KTy → List KVal → KeyWriter
  | [], [], _, _, s => .ok s
  | t :: ts, v :: vs, σ, w, s => do toKeyFields ts vs σ w (← toKey t v σ w s)
  | _, _, _, _, _ => .error .ub
end

/-- `convert_to_key` (include/eosio/to_key.hpp:280-296): appends to `bin`. -/
def convertToKey (t : KTy) (v : KVal) (bin : Bytes) : Res Bytes := do
  let size ← toKey t v Nat sizeWrite 0
  let fbs ← toKey t v FixedBuf fixedWrite ⟨[], size⟩
  check (fbs.room == 0) .underrun
  .ok (bin ++ fbs.written)

end Abieos
