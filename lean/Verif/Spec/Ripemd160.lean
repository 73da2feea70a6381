import Verif.Model.Basic
/-!
What RIPEMD-160 of a message is, after "RIPEMD-160: A Strengthened Version of RIPEMD" (Dobbertin, Bosselaers, Preneel), the paper quoted in the header
of include/eosio/abieos_ripemd160.hpp. Written from the paper's pseudo-code, with none of the definitions of the model.
-/
namespace Abieos.Spec

/-- Cyclic left shift of a 32-bit word. -/
def rmdRotl (s : Nat) (x : UInt32) : UInt32 := UInt32.ofNat (x.toNat * 2 ^ s % 2 ^ 32 + x.toNat / 2 ^ (32 - s))

/-- The nonlinear functions at bit level: `f(j, x, y, z)`, `j` counted in rounds of 16 steps. -/
def rmdF (round : Nat) (x y z : UInt32) : UInt32 :=
  match round with
  | 0 => x ^^^ y ^^^ z
  | 1 => (x &&& y) ||| (~~~x &&& z)
  | 2 => (x ||| ~~~y) ^^^ z
  | 3 => (x &&& z) ||| (y &&& ~~~z)
  | _ => x ^^^ (y ||| ~~~z)

/-- The added constants of the left line: the integer parts of 2^30 times the square roots of 0, 2, 3, 5, 7 (see `c44_constants`). -/
def rmdKLeft (round : Nat) : UInt32 := [0x00000000, 0x5A827999, 0x6ED9EBA1, 0x8F1BBCDC, 0xA953FD4E].getD round 0

/-- The added constants of the right line: the integer parts of 2^30 times the cube roots of 2, 3, 5, 7, 0. -/
def rmdKRight (round : Nat) : UInt32 := [0x50A28BE6, 0x5C4DD124, 0x6D703EF3, 0x7A6D76E9, 0x00000000].getD round 0

/-- The permutation rho of the message words. -/
def rho (i : Nat) : Nat := [7, 4, 13, 1, 10, 6, 15, 3, 12, 0, 9, 5, 2, 14, 11, 8].getD i 0

/-- The permutation pi. -/
def rmdPi (i : Nat) : Nat := (9 * i + 5) % 16

/-- `f` applied `n` times. -/
def rmdTimes (f : Nat → Nat) : Nat → Nat → Nat
  | 0, i => i
  | n + 1, i => rmdTimes f n (f i)

/-- The message word used in step `j` of the left line: id, rho, rho^2, rho^3, rho^4. -/
def rmdWordLeft (j : Nat) : Nat := rmdTimes rho (j / 16) (j % 16)

/-- The message word used in step `j` of the right line: pi, rho pi, rho^2 pi, rho^3 pi, rho^4 pi. -/
def rmdWordRight (j : Nat) : Nat := rmdTimes rho (j / 16) (rmdPi (j % 16))

/-- The table of shifts: by round and message word, the same for both lines. -/
def rmdShift (round word : Nat) : Nat :=
  ([[11, 14, 15, 12,  5,  8,  7,  9, 11, 13, 14, 15,  6,  7,  9,  8],
    [12, 13, 11, 15,  6,  9,  9,  7, 12, 15, 11, 13,  7,  8,  7,  7],
    [13, 15, 14, 11,  7,  7,  6,  8, 13, 14, 13, 12,  5,  5,  6,  9],
    [14, 11, 12, 14,  8,  6,  5,  5, 15, 12, 15, 14,  9,  9,  8,  6],
    [15, 12, 13, 13,  9,  5,  8,  6, 14, 11, 12, 11,  8,  6,  5,  5]].getD round []).getD word 0

/-- The five variables of a line. -/
structure RmdVars where
  a : UInt32
  b : UInt32
  c : UInt32
  d : UInt32
  e : UInt32

/-- `T := rol_s(A + f(B, C, D) + X + K) + E;  A := E; E := D; D := rol_10(C); C := B; B := T;` -/
def rmdStep (f : UInt32 → UInt32 → UInt32 → UInt32) (k x : UInt32) (s : Nat) (v : RmdVars) : RmdVars :=
  { a := v.e, b := rmdRotl s (v.a + f v.b v.c v.d + x + k) + v.e, c := v.b, d := rmdRotl 10 v.c, e := v.d }

/-- 80 steps on the left. -/
def rmdLeft (X : List UInt32) (v : RmdVars) : RmdVars :=
  (List.range 80).foldl (fun v j => rmdStep (rmdF (j / 16)) (rmdKLeft (j / 16)) (X.getD (rmdWordLeft j) 0) (rmdShift (j / 16) (rmdWordLeft j)) v) v

/-- 80 steps on the right, with the functions in the opposite order. -/
def rmdRight (X : List UInt32) (v : RmdVars) : RmdVars :=
  (List.range 80).foldl
    (fun v j => rmdStep (rmdF (4 - j / 16)) (rmdKRight (j / 16)) (X.getD (rmdWordRight j) 0) (rmdShift (j / 16) (rmdWordRight j)) v) v

/-- The bytes as words, least significant byte first. -/
def rmdWords : List UInt8 → List UInt32
  | a :: b :: c :: d :: s => UInt32.ofNat (a.toNat + 256 * b.toNat + 256 ^ 2 * c.toNat + 256 ^ 3 * d.toNat) :: rmdWords s
  | _ => []

/-- One block: `T := h1 + C + D'; h1 := h2 + D + E'; h2 := h3 + E + A'; h3 := h4 + A + B'; h4 := h0 + B + C'; h0 := T`. -/
def rmdCompress (h : RmdVars) (block : List UInt8) : RmdVars :=
  let l := rmdLeft (rmdWords block) h
  let r := rmdRight (rmdWords block) h
  { a := h.b + l.c + r.d, b := h.c + l.d + r.e, c := h.d + l.e + r.a, d := h.e + l.a + r.b, e := h.a + l.b + r.c }

/-- The initial value. -/
def rmdInitial : RmdVars := ⟨0x67452301, 0xEFCDAB89, 0x98BADCFE, 0x10325476, 0xC3D2E1F0⟩

/-- The message, a byte 0x80, as few zero bytes as make the total a multiple of 64, and the number of bits of the message in eight bytes
(modulo 2^64), least significant first. -/
def rmdPad (m : List UInt8) : List UInt8 :=
  m ++ 0x80 :: (List.replicate ((119 - m.length % 64) % 64) 0 ++ leBytes 8 (m.length * 8 % 2 ^ 64))

/-- Compression of the whole blocks of 64 bytes of `m`. -/
def rmdBlocks (h : RmdVars) (m : List UInt8) : RmdVars :=
  if m.length < 64 then h else rmdBlocks (rmdCompress h (m.take 64)) (m.drop 64)
termination_by m.length
decreasing_by simp only [List.length_drop]; omega

/-- The five words, least significant byte first. -/
def rmdOutput (v : RmdVars) : List UInt8 := [v.a, v.b, v.c, v.d, v.e].flatMap fun w => leBytes 4 w.toNat

/-- RIPEMD-160. -/
def rmd160 (m : List UInt8) : List UInt8 := rmdOutput (rmdBlocks rmdInitial (rmdPad m))

end Abieos.Spec
