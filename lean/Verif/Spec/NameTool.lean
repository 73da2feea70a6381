import Verif.Spec.Shown
/-! What the command line tool `name` (`name2num`, `num2name`) is expected to do, without the program. -/
namespace Abieos.Spec

/-- `c` is a digit of the base with the value `d`: 0-9, then a-z or A-Z. -/
def DigitIs (base : Nat) (c : UInt8) (d : Nat) : Prop :=
  d < base ∧ ((d < 10 ∧ c.toNat = 48 + d) ∨ (10 ≤ d ∧ d < 36 ∧ (c.toNat = 87 + d ∨ c.toNat = 55 + d)))

/-- A numeral: one or more digits. -/
inductive Numeral (base : Nat) : List UInt8 → Nat → Prop
  | one {c d} : DigitIs base c d → Numeral base [c] d
  | more {s n c d} : Numeral base s n → DigitIs base c d → Numeral base (s ++ [c]) (n * base + d)

/-- An integer as in C source text: decimal, octal after `0`, hexadecimal after `0x` or `0X`. -/
inductive NumberText : List UInt8 → Nat → Prop
  | dec {c s n} : c ≠ 48 → Numeral 10 (c :: s) n → NumberText (c :: s) n
  | oct {s n} : Numeral 8 (48 :: s) n → NumberText (48 :: s) n
  | hex {x s n} : x = 120 ∨ x = 88 → Numeral 16 s n → NumberText (48 :: x :: s) n

/-- space, tab, newline, vertical tab, form feed, carriage return -/
def SpaceChar (c : UInt8) : Prop := c.toNat = 32 ∨ (9 ≤ c.toNat ∧ c.toNat ≤ 13)

/-- A text `num2name` takes for the value `v`: spaces, a sign, an integer below 2^64. After a minus sign it is the number that adds up to a
multiple of 2^64 with it. -/
def ValueText (s : List UInt8) (v : Nat) : Prop :=
  ∃ w sign t n, s = w ++ (sign ++ t) ∧ (∀ c ∈ w, SpaceChar c) ∧ NumberText t n ∧ n < 2 ^ 64 ∧ v < 2 ^ 64 ∧
    (((sign = [] ∨ sign = [43]) ∧ v = n) ∨ (sign = [45] ∧ (v + n) % 2 ^ 64 = 0))

/-- The text of `v` as `name2num` prints it: no superfluous zeros, hexadecimal with `0x` (but not for zero) in lower case, or decimal. -/
def NumberShown (hex : Bool) (v : Nat) (t : List UInt8) : Prop :=
  (v = 0 ∧ t = [48]) ∨
  (0 < v ∧ hex = false ∧ Numeral 10 t v ∧ t.head? ≠ some 48) ∨
  (0 < v ∧ hex = true ∧ ∃ u, t = 48 :: 120 :: u ∧ Numeral 16 u v ∧ u.head? ≠ some 48 ∧ ∀ c ∈ u, 97 ≤ c.toNat ∨ c.toNat ≤ 57)

/-- The answer to one argument or line: `num2name` shows the name of the value, `name2num` (`reverse`) the value of the name. -/
def ToolShows (reverse hex : Bool) (s t : List UInt8) : Prop :=
  if reverse then ValidNameText s ∧ NumberShown hex (nameBits 0 s) t else ∃ v, ValueText s v ∧ NameShown v t

/-- The output for a list of arguments or lines: one line for each that has an answer, in order. -/
inductive ToolPrints (reverse hex : Bool) : List (List UInt8) → List UInt8 → Prop
  | nil : ToolPrints reverse hex [] []
  | good {s t l out} : ToolShows reverse hex s t → ToolPrints reverse hex l out → ToolPrints reverse hex (s :: l) (t ++ 10 :: out)
  | bad {s l out} : (∀ t, ¬ ToolShows reverse hex s t) → ToolPrints reverse hex l out → ToolPrints reverse hex (s :: l) out

/-- The lines of an input: each ends with a newline, the last may lack it. -/
inductive InputLines : List UInt8 → List (List UInt8) → Prop
  | nil : InputLines [] []
  | last {s} : s ≠ [] → 10 ∉ s → InputLines s [s]
  | line {s rest l} : 10 ∉ s → InputLines rest l → InputLines (s ++ 10 :: rest) (s :: l)

/-- An argument that begins with `-`. -/
def IsOption (a : List UInt8) : Prop := a.head? = some 45
instance (a) : Decidable (IsOption a) := by unfold IsOption; infer_instance

/-- The bytes of an ASCII text. -/
def optionText (s : String) : List UInt8 := s.toList.map fun c => UInt8.ofNat c.toNat

/-- The letters of an option; a long option stands for one letter. -/
def optionLetters (a : List UInt8) : List UInt8 :=
  if a = optionText "--help" then [104]
  else if a = optionText "--reverse" then [114]
  else if a = optionText "--hex" then [120]
  else if a = optionText "--dec" then [100]
  else a.drop 1

/-- The option letters of a command line, in order. -/
def commandLetters (args : List (List UInt8)) : List UInt8 := (args.filter (IsOption ·)).flatMap optionLetters

/-- The arguments that are not options, in order. -/
def operands (args : List (List UInt8)) : List (List UInt8) := args.filter (¬ IsOption ·)

/-- The format asked for: by the last of the letters `x` and `d`; hexadecimal if there is none. -/
def HexAsked (letters : List UInt8) (hex : Bool) : Prop :=
  (hex = true ∧ (100 : UInt8) ∉ letters) ∨
  (∃ before after, letters = before ++ (if hex then (120 : UInt8) else 100) :: after ∧ (120 : UInt8) ∉ after ∧ (100 : UInt8) ∉ after)

end Abieos.Spec
