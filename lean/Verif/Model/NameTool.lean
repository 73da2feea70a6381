import Verif.Model.Name
import Verif.Model.CApi
/-! The command line tool `name`, also installed as `name2num` and `num2name` (tools/name.cpp, tools/CMakeLists.txt). -/
namespace Abieos.NameTool

/-- `isspace` in the C locale -/
def isSpace (c : UInt8) : Bool := c == 32 || (9 ≤ c && c ≤ 13)

/-- The value of a character as a digit, for bases up to 36; 36 if it is none. -/
@[irreducible] def strDigit (c : UInt8) : Nat :=
  if 48 ≤ c ∧ c ≤ 57 then c.toNat - 48 else if 97 ≤ c ∧ c ≤ 122 then c.toNat - 87 else if 65 ≤ c ∧ c ≤ 90 then c.toNat - 55 else 36

/-- The longest beginning that is a numeral: its value, continuing from `m`, and the rest. -/
def takeNumber (base : Nat) : Nat → Bytes → Nat × Bytes
  | m, [] => (m, [])
  | m, c :: s => if strDigit c < base then takeNumber base (m * base + strDigit c) s else (m, c :: s)

/-- The number at the beginning of the text after the sign; the base is found as `strtoull` does for base 0. -/
def unsignedNumber (s : Bytes) : Option (Nat × Bytes) :=
  match s with
  | 48 :: s' =>
    match s' with
    | x :: d :: t => if (x = 120 ∨ x = 88) ∧ strDigit d < 16 then some (takeNumber 16 0 (d :: t)) else some (takeNumber 8 0 s)
    | _ => some (takeNumber 8 0 s)
  | c :: _ => if strDigit c < 10 then some (takeNumber 10 0 s) else none
  | [] => none

/-- the sign at the beginning of a number, for `strtoull` -/
def signOf : Bytes → Bool × Bytes
  | 45 :: t => (true, t)
  | 43 :: t => (false, t)
  | t => (false, t)

/-- `std::stoull(s, &pos, 0)`: the value and the text from `pos` on; nothing if it throws (`std::invalid_argument`, `std::out_of_range`).
A number after a minus sign is negated modulo 2^64, as `strtoull` does. Taken from the C and C++ standards; C locale. -/
def stoull (s : Bytes) : Option (Nat × Bytes) :=
  let s := s.dropWhile isSpace
  match unsignedNumber (signOf s).2 with
  | none => none
  | some (m, rest) => if m < 2 ^ 64 then some (if (signOf s).1 then (2 ^ 64 - m) % 2 ^ 64 else m, rest) else none

/-- a digit, in lower case -/
def lowDigit (d : Nat) : UInt8 := if d < 10 then UInt8.ofNat (48 + d) else UInt8.ofNat (87 + d)

/-- the numeral of `n` -/
def baseText (base : Nat) (n : Nat) : Bytes :=
  if _h : 2 ≤ base ∧ base ≤ n then baseText base (n / base) ++ [lowDigit (n % base)] else [lowDigit (n % base)]
termination_by n
decreasing_by exact Nat.div_lt_self (by omega) (by omega)

/-- `std::cout << value` of a `uint64_t` with `std::showbase` and, if `hex`, `std::hex`. A zero has no `0x`. -/
def numberText (hex : Bool) (v : Nat) : Bytes :=
  if hex then if v = 0 then [48] else 48 :: 120 :: baseText 16 v else baseText 10 v

/-- What a run prints and returns. -/
structure Ran where
  code : Nat
  out : Bytes
  err : Bytes
  deriving DecidableEq, Repr

/-- `handle_one` (tools/name.cpp:7-27); the code is 1 if it returns false. What `std::stoull`'s exceptions say is up to the library:
`stoull` here, as in libstdc++. -/
def handleOne (s : Bytes) (reverse hex : Bool) : Ran :=
  if reverse then
    match stringToNameStrict s with
    | .ok v => ⟨0, numberText hex v ++ [10], []⟩
    | .error e => ⟨1, [], str e.what ++ [10]⟩
  else
    match stoull s with
    | some (v, rest) => if rest = [] then ⟨0, nameToString v ++ [10], []⟩ else ⟨1, [], str "Invalid name value: " ++ s ++ [10]⟩
    | none => ⟨1, [], str "stoull" ++ [10]⟩

/-- the loops of `main` (tools/name.cpp:77, 79) -/
def handleAll (reverse hex : Bool) : List Bytes → Ran
  | [] => ⟨0, [], []⟩
  | s :: l =>
    let a := handleOne s reverse hex
    let b := handleAll reverse hex l
    ⟨a.code ||| b.code, a.out ++ b.out, a.err ++ b.err⟩

/-- `usage` (tools/name.cpp:29-36) -/
def usage (reverse : Bool) : Ran :=
  ⟨2, [], str (if reverse then "Usage: name2num [-x|--hex] [-d|--dec] [-r|--reverse] [names...]\n" else "Usage: num2name [-r|--reverse] [values...]\n")⟩

/-- the letters of one option (tools/name.cpp:60-68): the new settings, or the end -/
def shortOptions (a : Bytes) : Bytes → Bool → Bool → Except Ran (Bool × Bool)
  | [], reverse, hex => .ok (reverse, hex)
  | c :: s, reverse, hex =>
    if c = 120 then shortOptions a s reverse true
    else if c = 100 then shortOptions a s reverse false
    else if c = 114 then shortOptions a s (!reverse) hex
    else if c = 104 then .error (usage reverse)
    else .error ⟨2, [], str "Unknown argument: " ++ a ++ [10]⟩

/-- the arguments (tools/name.cpp:47-73); an empty argument is taken to have no first character -/
def parseArgs : List Bytes → Bool → Bool → Except Ran (Bool × Bool × List Bytes)
  | [], reverse, hex => .ok (reverse, hex, [])
  | a :: l, reverse, hex =>
    if a.head? = some 45 then
      if a = str "--help" then .error (usage reverse)
      else if a = str "--reverse" then parseArgs l (!reverse) hex
      else if a = str "--hex" then parseArgs l reverse true
      else if a = str "--dec" then parseArgs l reverse false
      else match shortOptions a (a.drop 1) reverse hex with
        | .error r => .error r
        | .ok (reverse, hex) => parseArgs l reverse hex
    else
      match parseArgs l reverse hex with
      | .error r => .error r
      | .ok (reverse, hex, args) => .ok (reverse, hex, a :: args)

/-- `std::getline` until the end of the input: the text between newlines; what follows the last newline counts if it is not empty. -/
def linesOf : Bytes → List Bytes
  | [] => []
  | c :: s =>
    if c = 10 then [] :: linesOf s
    else match linesOf s with
      | [] => [[c]]
      | l :: ls => (c :: l) :: ls

/-- does the text contain the other? (`std::string_view::find`) -/
def contains (w : Bytes) : Bytes → Bool
  | [] => w.isPrefixOf []
  | c :: s => w.isPrefixOf (c :: s) || contains w s

/-- `main` (tools/name.cpp:38-82) with a program name, so `argc > 0` -/
def main (program : Bytes) (args : List Bytes) (input : Bytes) : Ran :=
  match parseArgs args (contains (str "name2num") program) true with
  | .error r => r
  | .ok (reverse, hex, []) => handleAll reverse hex (linesOf input)
  | .ok (reverse, hex, a :: l) => handleAll reverse hex (a :: l)

end Abieos.NameTool
