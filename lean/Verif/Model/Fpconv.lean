import Verif.Model.Basic
import Verif.Model.Hex
/-
Printing floating point numbers: include/eosio/fpconv.c and powers.h (Grisu2), and `fp_to_json`.
All `uint64_t` arithmetic is modulo 2^64. A loop that would not stop, an array index out of bounds or a write past the end of a
buffer is `Err.ub`; the theorems show where that cannot happen.
-/
namespace Abieos

/-- `uint64_t` (the wrap-around of unsigned arithmetic). -/
def u64 (n : Nat) : Nat := n % 2 ^ 64

/-- `Fp` (include/eosio/powers.h:16-19). -/
structure Fp where
  frac : Nat
  exp : Int
  deriving DecidableEq, Repr, Inhabited

/-- `hiddenbit` (include/eosio/fpconv.c:13). -/
def hiddenbit : Nat := 2 ^ 52

/-- `powers_ten` (include/eosio/powers.h:21-51). -/
def powersTen : List Fp := [
   ⟨18054884314459144840, -1220⟩, ⟨13451937075301367670, -1193⟩, ⟨10022474136428063862, -1166⟩, ⟨14934650266808366570, -1140⟩,
   ⟨11127181549972568877, -1113⟩, ⟨16580792590934885855, -1087⟩, ⟨12353653155963782858, -1060⟩, ⟨18408377700990114895, -1034⟩,
   ⟨13715310171984221708, -1007⟩, ⟨10218702384817765436, -980⟩, ⟨15227053142812498563, -954⟩, ⟨11345038669416679861, -927⟩,
   ⟨16905424996341287883, -901⟩, ⟨12595523146049147757, -874⟩, ⟨9384396036005875287, -847⟩, ⟨13983839803942852151, -821⟩,
   ⟨10418772551374772303, -794⟩, ⟨15525180923007089351, -768⟩, ⟨11567161174868858868, -741⟩, ⟨17236413322193710309, -715⟩,
   ⟨12842128665889583758, -688⟩, ⟨9568131466127621947, -661⟩, ⟨14257626930069360058, -635⟩, ⟨10622759856335341974, -608⟩,
   ⟨15829145694278690180, -582⟩, ⟨11793632577567316726, -555⟩, ⟨17573882009934360870, -529⟩, ⟨13093562431584567480, -502⟩,
   ⟨9755464219737475723, -475⟩, ⟨14536774485912137811, -449⟩, ⟨10830740992659433045, -422⟩, ⟨16139061738043178685, -396⟩,
   ⟨12024538023802026127, -369⟩, ⟨17917957937422433684, -343⟩, ⟨13349918974505688015, -316⟩, ⟨9946464728195732843, -289⟩,
   ⟨14821387422376473014, -263⟩, ⟨11042794154864902060, -236⟩, ⟨16455045573212060422, -210⟩, ⟨12259964326927110867, -183⟩,
   ⟨18268770466636286478, -157⟩, ⟨13611294676837538539, -130⟩, ⟨10141204801825835212, -103⟩, ⟨15111572745182864684, -77⟩,
   ⟨11258999068426240000, -50⟩, ⟨16777216000000000000, -24⟩, ⟨12500000000000000000, 3⟩, ⟨9313225746154785156, 30⟩,
   ⟨13877787807814456755, 56⟩, ⟨10339757656912845936, 83⟩, ⟨15407439555097886824, 109⟩, ⟨11479437019748901445, 136⟩,
   ⟨17105694144590052135, 162⟩, ⟨12744735289059618216, 189⟩, ⟨9495567745759798747, 216⟩, ⟨14149498560666738074, 242⟩,
   ⟨10542197943230523224, 269⟩, ⟨15709099088952724970, 295⟩, ⟨11704190886730495818, 322⟩, ⟨17440603504673385349, 348⟩,
   ⟨12994262207056124023, 375⟩, ⟨9681479787123295682, 402⟩, ⟨14426529090290212157, 428⟩, ⟨10748601772107342003, 455⟩,
   ⟨16016664761464807395, 481⟩, ⟨11933345169920330789, 508⟩, ⟨17782069995880619868, 534⟩, ⟨13248674568444952270, 561⟩,
   ⟨9871031767461413346, 588⟩, ⟨14708983551653345445, 614⟩, ⟨10959046745042015199, 641⟩, ⟨16330252207878254650, 667⟩,
   ⟨12166986024289022870, 694⟩, ⟨18130221999122236476, 720⟩, ⟨13508068024458167312, 747⟩, ⟨10064294952495520794, 774⟩,
   ⟨14996968138956309548, 800⟩, ⟨11173611982879273257, 827⟩, ⟨16649979327439178909, 853⟩, ⟨12405201291620119593, 880⟩,
   ⟨9242595204427927429, 907⟩, ⟨13772540099066387757, 933⟩, ⟨10261342003245940623, 960⟩, ⟨15290591125556738113, 986⟩,
   ⟨11392378155556871081, 1013⟩, ⟨16975966327722178521, 1039⟩, ⟨12648080533535911531, 1066⟩]

/-- `tens` (include/eosio/fpconv.c:20-28). -/
def tens : List Nat := [
  10000000000000000000, 1000000000000000000, 100000000000000000, 10000000000000000, 1000000000000000, 100000000000000,
  10000000000000, 1000000000000, 100000000000, 10000000000, 1000000000, 100000000, 10000000, 1000000, 100000, 10000, 1000, 100,
  10, 1]

/-- `build_fp` (include/eosio/fpconv.c:40-57), from the bits of the double. -/
def buildFp (bits : Nat) : Fp :=
  let frac : Nat := bits % 2 ^ 52
  let exp : Nat := bits / 2 ^ 52 % 2 ^ 11
  if exp ≠ 0 then ⟨frac + hiddenbit, (exp : Int) - 1075⟩ else ⟨frac, -1074⟩

/-- `while ((frac & bit) == 0) { frac <<= 1; exp--; }` (include/eosio/fpconv.c:61-64, 76-79), at most `fuel` times. -/
def shiftUp (bit : Nat) : Nat → Fp → Res Fp
  | 0, _ => .error .ub
  | fuel + 1, fp => if fp.frac &&& bit = 0 then shiftUp bit fuel ⟨u64 (fp.frac <<< 1), fp.exp - 1⟩ else .ok fp

/-- `normalize` (include/eosio/fpconv.c:59-69). -/
def normalizeFp (fp : Fp) : Res Fp := do
  let fp ← shiftUp hiddenbit 64 fp
  .ok ⟨u64 (fp.frac <<< 11), fp.exp - 11⟩

/-- `upper` of `get_normalized_boundaries` (include/eosio/fpconv.c:73-84). -/
def upperBoundary (fp : Fp) : Res Fp := do
  let u ← shiftUp (hiddenbit <<< 1) 64 ⟨u64 (u64 (fp.frac <<< 1) + 1), fp.exp - 1⟩
  .ok ⟨u64 (u.frac <<< 10), u.exp - 10⟩

/-- `l_shift` (include/eosio/fpconv.c:87). -/
def lShift (fp : Fp) : Nat := if fp.frac = hiddenbit then 2 else 1

/-- `lower` of `get_normalized_boundaries` (include/eosio/fpconv.c:87-94). -/
def lowerBoundary (fp upper : Fp) : Fp :=
  ⟨u64 (u64 (u64 (fp.frac <<< lShift fp) + 2 ^ 64 - 1) <<< (fp.exp - lShift fp - upper.exp).toNat), upper.exp⟩

/-- `multiply` (include/eosio/fpconv.c:97-116). -/
def multiplyFp (a b : Fp) : Fp :=
  let ahBl := u64 ((a.frac >>> 32) * (b.frac % 2 ^ 32))
  let alBh := u64 ((a.frac % 2 ^ 32) * (b.frac >>> 32))
  let alBl := u64 ((a.frac % 2 ^ 32) * (b.frac % 2 ^ 32))
  let ahBh := u64 ((a.frac >>> 32) * (b.frac >>> 32))
  let tmp := u64 (ahBl % 2 ^ 32 + alBh % 2 ^ 32 + (alBl >>> 32) + 2 ^ 31)
  ⟨u64 (ahBh + (ahBl >>> 32) + (alBh >>> 32) + (tmp >>> 32)), a.exp + b.exp + 64⟩

/-- The loop of `find_cachedpow10` (include/eosio/powers.h:59-76): the power and its decimal exponent. -/
def cachedLoop (exp : Int) : Nat → Int → Res (Fp × Int)
  | 0, _ => .error .ub
  | fuel + 1, idx =>
    if 0 ≤ idx ∧ idx < 87 then
      let p := powersTen.getD idx.toNat default
      if exp + p.exp + 64 < -60 then cachedLoop exp fuel (idx + 1)
      else if exp + p.exp + 64 > -32 then cachedLoop exp fuel (idx - 1)
      else .ok (p, -348 + idx * 8)
    else .error .ub

/-- `find_cachedpow10` (include/eosio/powers.h:53-77). The product of an `int` and the `double` 0.30102999566398114 is truncated
to an `int`; the model multiplies exactly and truncates. -/
def findCachedPow10 (exp : Int) : Res (Fp × Int) :=
  let approx := (-(exp + 87) * 30102999566398114).tdiv (10 ^ 17)
  cachedLoop exp 87 ((approx + 348).tdiv 8)

/-- `round_digit` (include/eosio/fpconv.c:118-126). `digits` are the characters written so far, the last one first. -/
def roundDigit (delta kappa frac : Nat) : Nat → (digits : List Nat) → (rem : Nat) → Res (List Nat)
  | 0, _, _ => .error .ub
  | fuel + 1, digits, rem =>
    if rem < frac ∧ u64 (delta + 2 ^ 64 - rem) ≥ kappa ∧ (u64 (rem + kappa) < frac ∨ u64 (frac + 2 ^ 64 - rem) > u64 (u64 (rem + kappa) + 2 ^ 64 - frac)) then
      match digits with
      | [] => .error .ub
      | d :: ds => roundDigit delta kappa frac fuel ((d + 255) % 256 :: ds) (u64 (rem + kappa))
    else .ok digits

/-- `if (digit || idx) digits[idx++] = digit + '0'` (include/eosio/fpconv.c:147-149, 175-177); the array has 18 elements
(fpconv.c:318). -/
def pushDigit (digits : List Nat) (digit : Nat) : Res (List Nat) :=
  if digit ≠ 0 ∨ digits ≠ [] then
    if digits.length < 18 then .ok ((digit + 48) % 256 :: digits) else .error .ub
  else .ok digits

/-- The second loop of `generate_digits` (include/eosio/fpconv.c:167-189); `unit` is the index of the element of `tens` that the
pointer refers to. `sh` is `-one.exp`. -/
def genFraction (sh wfrac : Nat) : (unit : Nat) → (part2 delta : Nat) → (kappa : Int) → List Nat → Res (List Nat × Int)
  | 0, _, _, _, _ => .error .ub
  | unit + 1, part2, delta, kappa, digits => do
    let part2 := u64 (part2 * 10)
    let delta := u64 (delta * 10)
    let kappa := kappa - 1
    let digits ← pushDigit digits ((part2 >>> sh) % 2 ^ 32)
    let part2 := part2 % 2 ^ sh
    if part2 < delta then do
      let digits ← roundDigit delta (2 ^ sh) (u64 (wfrac * tens.getD unit 0)) 64 digits part2
      .ok (digits, kappa)
    else genFraction sh wfrac unit part2 delta kappa digits

/-- The first loop of `generate_digits` (include/eosio/fpconv.c:142-163), over the rest of `tens`; then the second loop, which starts
with the pointer at `tens + 18`. -/
def genInteger (sh wfrac delta part2 : Nat) : (divs : List Nat) → (part1 : Nat) → (kappa : Int) → List Nat → Res (List Nat × Int)
  | [], _, kappa, digits => genFraction sh wfrac 19 part2 delta kappa digits
  | div :: divs, part1, kappa, digits => do
    let digit := (part1 / div) % 2 ^ 32
    let digits ← pushDigit digits digit
    let part1 := u64 (part1 + 2 ^ 64 - digit * div)
    let kappa := kappa - 1
    let tmp := u64 (u64 (part1 <<< sh) + part2)
    if tmp ≤ delta then do
      let digits ← roundDigit delta (u64 (div <<< sh)) wfrac 64 digits tmp
      .ok (digits, kappa)
    else genInteger sh wfrac delta part2 divs part1 kappa digits

/-- `generate_digits` (include/eosio/fpconv.c:128-190): the digits in order, and what is added to `K`. -/
def generateDigits (fp upper lower : Fp) : Res (List Nat × Int) := do
  let sh := (-upper.exp).toNat
  let wfrac := u64 (upper.frac + 2 ^ 64 - fp.frac)
  let delta := u64 (upper.frac + 2 ^ 64 - lower.frac)
  let r ← genInteger sh wfrac delta (upper.frac % 2 ^ sh) (tens.drop 10) (upper.frac >>> sh) 10 []
  .ok (r.1.reverse, r.2)

/-- `grisu2` (include/eosio/fpconv.c:192-214): the digits and the decimal exponent `K`. -/
def grisu2 (bits : Nat) : Res (List Nat × Int) := do
  let w := buildFp bits
  let upper ← upperBoundary w
  let lower := lowerBoundary w upper
  let w ← normalizeFp w
  let (cp, k) ← findCachedPow10 upper.exp
  let w := multiplyFp w cp
  let upper := multiplyFp upper cp
  let lower := multiplyFp lower cp
  let (digits, dk) ← generateDigits w ⟨u64 (upper.frac + 2 ^ 64 - 1), upper.exp⟩ ⟨u64 (lower.frac + 1), lower.exp⟩
  .ok (digits, -k + dk)

/-- Decimal exponent of `emit_digits` (include/eosio/fpconv.c:267-283). -/
def emitExp (exp : Nat) : Bytes :=
  let cent := if exp > 99 then exp / 100 else 0
  let e := exp - cent * 100
  let dec := if e > 9 then e / 10 else 0
  (if exp > 99 then [UInt8.ofNat (cent + 48)] else []) ++
    (if e > 9 then [UInt8.ofNat (dec + 48)] else if cent ≠ 0 then [48] else []) ++ [UInt8.ofNat ((e - dec * 10) % 10 + 48)]

/-- `emit_digits` (include/eosio/fpconv.c:216-286). -/
def emitDigits (digits : Bytes) (K : Int) (neg : Bool) : Bytes :=
  let nd := digits.length
  let exp := (K + nd - 1).natAbs
  if 0 ≤ K ∧ exp < nd + 7 then digits ++ List.replicate K.toNat 48
  else if K < 0 ∧ (K > -7 ∨ exp < 4) then
    if nd ≤ K.natAbs then [48, 46] ++ List.replicate (K.natAbs - nd) 48 ++ digits
    else digits.take (nd - K.natAbs) ++ [46] ++ digits.drop (nd - K.natAbs)
  else
    let nd' := min nd (if neg then 17 else 18)
    digits.take 1 ++ (if nd' > 1 then 46 :: (digits.drop 1).take (nd' - 1) else []) ++ [101] ++
      (if K + nd' - 1 < 0 then [45] else [43]) ++ emitExp exp

/-- `fpconv_dtoa` (include/eosio/fpconv.c:316-336) on a finite double. -/
def fpconvDtoa (bits : Nat) : Res Bytes :=
  let neg := decide (bits / 2 ^ 63 % 2 = 1)
  let sign : Bytes := if neg then [45] else []
  if bits % 2 ^ 63 = 0 then .ok (sign ++ [48])
  else do
    let (digits, K) ← grisu2 bits
    .ok (sign ++ emitDigits (digits.map UInt8.ofNat) K neg)

/-- `fp_to_json` (include/eosio/to_json.hpp:111-127). The buffer has 24 bytes (to_json.hpp:121). -/
def fpToJson (bits : Nat) : Res Bytes :=
  if bits / 2 ^ 52 % 2 ^ 11 = 2047 then
    if bits % 2 ^ 52 = 0 then .ok (if bits / 2 ^ 63 % 2 = 1 then str "\"-Infinity\"" else str "\"Infinity\"") else .ok (str "\"NaN\"")
  else do
    let t ← fpconvDtoa bits
    if t.length ≤ 24 then .ok t else .error .ub

/-- Conversion of a `float` to `double` (implicit at include/eosio/to_json.hpp:140), on the bits: every `float` is a `double`. -/
def widenFloat (bits : Nat) : Nat :=
  let sign := bits / 2 ^ 31 % 2
  let exp := bits / 2 ^ 23 % 2 ^ 8
  let frac := bits % 2 ^ 23
  sign * 2 ^ 63 +
    if exp = 255 then 2047 * 2 ^ 52 + frac * 2 ^ 29
    else if exp ≠ 0 then (exp + 896) * 2 ^ 52 + frac * 2 ^ 29
    else if frac = 0 then 0
    else (frac.log2 + 874) * 2 ^ 52 + (frac - 2 ^ frac.log2) * 2 ^ (52 - frac.log2)

end Abieos
