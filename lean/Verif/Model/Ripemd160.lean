import Verif.Model.Basic
/-
RIPEMD-160 (include/eosio/abieos_ripemd160.hpp).
-/
namespace Abieos.Ripemd

/-- `ROL` (include/eosio/abieos_ripemd160.hpp:71). -/
def rol (s n : UInt32) : UInt32 := (n <<< s) ||| (n >>> (32 - s))

/-- `initial_h` (75). -/
def initialH : List UInt32 := [0x67452301, 0xEFCDAB89, 0x98BADCFE, 0x10325476, 0xC3D2E1F0]

/-- `RL` (90-96). -/
def RL : List (List Nat) := [
  [0, 1, 2, 3, 4, 5, 6, 7, 8, 9, 10, 11, 12, 13, 14, 15],
  [7, 4, 13, 1, 10, 6, 15, 3, 12, 0, 9, 5, 2, 14, 11, 8],
  [3, 10, 14, 4, 9, 15, 8, 1, 2, 7, 0, 6, 13, 11, 5, 12],
  [1, 9, 11, 10, 0, 8, 12, 4, 13, 3, 7, 15, 14, 5, 6, 2],
  [4, 0, 5, 9, 7, 12, 2, 10, 14, 1, 3, 8, 11, 6, 15, 13]]

/-- `RR` (99-105). -/
def RR : List (List Nat) := [
  [5, 14, 7, 0, 9, 2, 11, 4, 13, 6, 15, 8, 1, 10, 3, 12],
  [6, 11, 3, 7, 0, 13, 5, 10, 14, 15, 8, 12, 4, 9, 1, 2],
  [15, 5, 1, 3, 7, 14, 6, 9, 11, 8, 12, 2, 10, 0, 4, 13],
  [8, 6, 4, 1, 3, 11, 15, 0, 5, 12, 2, 13, 9, 7, 10, 14],
  [12, 15, 10, 4, 1, 5, 8, 7, 6, 2, 13, 14, 0, 3, 9, 11]]

/-- `SL` (114-120). -/
def SL : List (List UInt32) := [
  [11, 14, 15, 12, 5, 8, 7, 9, 11, 13, 14, 15, 6, 7, 9, 8],
  [7, 6, 8, 13, 11, 9, 7, 15, 7, 12, 15, 9, 11, 7, 13, 12],
  [11, 13, 6, 7, 14, 9, 13, 15, 14, 8, 13, 6, 5, 12, 7, 5],
  [11, 12, 14, 15, 14, 15, 9, 8, 9, 14, 5, 6, 8, 6, 5, 12],
  [9, 15, 5, 11, 6, 8, 13, 12, 5, 12, 13, 14, 11, 8, 5, 6]]

/-- `SR` (123-129). -/
def SR : List (List UInt32) := [
  [8, 9, 9, 11, 13, 15, 15, 5, 7, 7, 8, 11, 14, 14, 12, 6],
  [9, 13, 15, 7, 12, 8, 9, 11, 7, 7, 12, 7, 6, 15, 13, 11],
  [9, 7, 15, 11, 8, 6, 6, 14, 12, 13, 5, 14, 13, 13, 7, 5],
  [15, 5, 8, 11, 14, 14, 6, 14, 6, 9, 12, 9, 12, 5, 15, 8],
  [8, 5, 12, 9, 12, 5, 14, 6, 8, 13, 6, 5, 15, 13, 11, 11]]

/-- `F1` .. `F5` (133-137). -/
def F1 (x y z : UInt32) : UInt32 := x ^^^ y ^^^ z
def F2 (x y z : UInt32) : UInt32 := (x &&& y) ||| (~~~x &&& z)
def F3 (x y z : UInt32) : UInt32 := (x ||| ~~~y) ^^^ z
def F4 (x y z : UInt32) : UInt32 := (x &&& z) ||| (y &&& ~~~z)
def F5 (x y z : UInt32) : UInt32 := x ^^^ (y ||| ~~~z)

/-- `KL`, `KR` (140-155). -/
def KL : List UInt32 := [0x00000000, 0x5A827999, 0x6ED9EBA1, 0x8F1BBCDC, 0xA953FD4E]
def KR : List UInt32 := [0x50A28BE6, 0x5C4DD124, 0x6D703EF3, 0x7A6D76E9, 0x00000000]

/-- The five variables of a line. -/
structure Line where
  A : UInt32
  B : UInt32
  C : UInt32
  D : UInt32
  E : UInt32
  deriving DecidableEq, Repr

/-- The body of the loops of `ripemd160_compress` (e.g. 225-232). `s` is the shift, `x` the message word. -/
def step (F : UInt32 → UInt32 → UInt32 → UInt32) (k : UInt32) (l : Line) (s x : UInt32) : Line :=
  let T := rol s (l.A + F l.B l.C l.D + x + k) + l.E
  { A := l.E, E := l.D, D := rol 10 l.C, C := l.B, B := T }

/-- One loop over `w = 0..15`: `shifts` and `order` are the rows of the tables. -/
def line (F : UInt32 → UInt32 → UInt32 → UInt32) (k : UInt32) (words : List UInt32) : List UInt32 → List Nat → Line → Line
  | s :: shifts, r :: order, l => line F k words shifts order (step F k l s (words.getD r 0))
  | _, _, l => l

/-- The rounds (223-325): left line and right line of round `i` with their functions. -/
def rounds (words : List UInt32) (l r : Line) : Line × Line :=
  let run (i : Nat) (FL FR : UInt32 → UInt32 → UInt32 → UInt32) (p : Line × Line) : Line × Line :=
    (line FL (KL.getD i 0) words (SL.getD i []) (RL.getD i []) p.1, line FR (KR.getD i 0) words (SR.getD i []) (RR.getD i []) p.2)
  run 4 F5 F1 (run 3 F4 F2 (run 2 F3 F3 (run 1 F2 F4 (run 0 F1 F5 (l, r)))))

/-- `buf.w`: the buffer as sixteen little-endian words (the union of lines 63-66 on a little-endian machine). -/
def words : Bytes → List UInt32
  | a :: b :: c :: d :: s =>
    (a.toUInt32 ||| (b.toUInt32 <<< 8) ||| (c.toUInt32 <<< 16) ||| (d.toUInt32 <<< 24)) :: words s
  | _ => []

/-- `ripemd160_compress` (199-341) on the chaining variables: the buffer is `block`. -/
def compress (h : List UInt32) (block : Bytes) : List UInt32 :=
  match h with
  | [h0, h1, h2, h3, h4] =>
    let (l, r) := rounds (words block) ⟨h0, h1, h2, h3, h4⟩ ⟨h0, h1, h2, h3, h4⟩
    [h1 + l.C + r.D, h2 + l.D + r.E, h3 + l.E + r.A, h4 + l.A + r.B, h0 + l.B + r.C]
  | _ => h

/-- `ripemd160_state` (58-69). `magic` is left out: it is only invalid after an update with a null pointer or a negative length (a chunk
of 2^31 bytes or more). -/
structure State where
  h : List UInt32
  length : Nat
  buf : Bytes
  bufpos : Nat
  deriving DecidableEq, Repr

/-- `ripemd160_init` (157-164). -/
def init : State := { h := initialH, length := 0, buf := List.replicate 64 0, bufpos := 0 }

/-- `memcpy(&buf[pos], src, n)`. -/
def memcpyAt (buf : Bytes) (pos : Nat) (src : Bytes) : Bytes := buf.take pos ++ src ++ buf.drop (pos + src.length)

/-- `ripemd160_compress(self)` (199-341), which clears the buffer at the end. -/
def compressState (s : State) : State := { s with h := compress s.h s.buf, buf := List.replicate 64 0, bufpos := 0 }

/-- `ripemd160_update` (344-383). A full buffer on entry violates the assertion of line 360. -/
def update (s : State) (p : Bytes) : State :=
  if hp : p = [] then s
  else if hb : 64 ≤ s.bufpos then s
  else
    let needed := 64 - s.bufpos
    if needed ≤ p.length then
      update (compressState { s with buf := memcpyAt s.buf s.bufpos (p.take needed), bufpos := s.bufpos + needed,
                                     length := (s.length + needed * 8) % 2 ^ 64 }) (p.drop needed)
    else { s with buf := memcpyAt s.buf s.bufpos p, bufpos := s.bufpos + p.length, length := (s.length + p.length * 8) % 2 ^ 64 }
termination_by p.length
decreasing_by
  have := List.length_pos_iff.2 hp
  simp only [List.length_drop]
  omega

/-- `ripemd160_digest` (389-429). -/
def digest (s : State) : Bytes :=
  let tmp := { s with buf := memcpyAt s.buf s.bufpos [0x80], bufpos := s.bufpos + 1 }
  let tmp := if tmp.bufpos > 56 then compressState tmp else tmp
  let tmp := { tmp with buf := memcpyAt (memcpyAt tmp.buf 56 (leBytes 4 (tmp.length % 2 ^ 32))) 60 (leBytes 4 (tmp.length / 2 ^ 32)) }
  (compress tmp.h tmp.buf).flatMap fun w => leBytes 4 w.toNat

/-- `digest_suffix_ripemd160` (src/crypto.cpp:86-95): the digest of several chunks. -/
def digestOf (chunks : List Bytes) : Bytes := digest (chunks.foldl update init)

end Abieos.Ripemd

namespace Abieos

/-- `digest_suffix_ripemd160` as one function of the concatenation of its arguments (src/crypto.cpp:86-95); `c44_suffix` shows that
feeding payload and suffix separately is the same. -/
def keyDigest (m : Bytes) : Bytes := Ripemd.digestOf [m]

end Abieos
