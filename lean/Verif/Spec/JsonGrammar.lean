import Verif.Model.Json
import Verif.Spec.JsonNumber
/-!
The grammar of JSON texts (RFC 8259) as a relation between texts and documents, independently of any reader. Texts are bytes. Numbers are kept as their
text, as the code asks its parser to (`kParseNumbersAsStringsFlag`), and objects keep the order of their members and duplicate names.
-/
namespace Abieos.Spec

/-- `ws = *( %x20 / %x09 / %x0A / %x0D )` (section 2). -/
def IsWs (t : List UInt8) : Prop := ∀ c ∈ t, c = 32 ∨ c = 9 ∨ c = 10 ∨ c = 13

/-- The value of a hexadecimal digit of either case. -/
def HexDigit (c : UInt8) (n : Nat) : Prop :=
  48 ≤ c.toNat ∧ c.toNat ≤ 57 ∧ n = c.toNat - 48 ∨ 65 ≤ c.toNat ∧ c.toNat ≤ 70 ∧ n = c.toNat - 55 ∨ 97 ≤ c.toNat ∧ c.toNat ≤ 102 ∧ n = c.toNat - 87

/-- Four hexadecimal digits. -/
def Hex4 (t : List UInt8) (n : Nat) : Prop :=
  ∃ a b c d na nb nc nd, t = [a, b, c, d] ∧ HexDigit a na ∧ HexDigit b nb ∧ HexDigit c nc ∧ HexDigit d nd ∧ n = ((na * 16 + nb) * 16 + nc) * 16 + nd

/-- UTF-8 (RFC 3629, section 3): the bytes of a code point. -/
def utf8Bytes (n : Nat) : List UInt8 :=
  if n < 0x80 then [UInt8.ofNat n]
  else if n < 0x800 then [UInt8.ofNat (192 + n / 2 ^ 6), UInt8.ofNat (128 + n % 2 ^ 6)]
  else if n < 0x10000 then [UInt8.ofNat (224 + n / 2 ^ 12), UInt8.ofNat (128 + n / 2 ^ 6 % 2 ^ 6), UInt8.ofNat (128 + n % 2 ^ 6)]
  else [UInt8.ofNat (240 + n / 2 ^ 18), UInt8.ofNat (128 + n / 2 ^ 12 % 2 ^ 6), UInt8.ofNat (128 + n / 2 ^ 6 % 2 ^ 6), UInt8.ofNat (128 + n % 2 ^ 6)]

/-- The two-character escapes: the letter and the character it stands for. -/
def simpleEscapes : List (UInt8 × UInt8) := [(34, 34), (92, 92), (47, 47), (98, 8), (102, 12), (110, 10), (114, 13), (116, 9)]

/-- One character of a string (section 7): its text and the code point. -/
inductive CharText : List UInt8 → Nat → Prop
  /-- any code point that is no surrogate, control character, quotation mark or backslash, as itself -/
  | unescaped (n : Nat) : 32 ≤ n → n ≠ 34 → n ≠ 92 → n < 0xD800 ∨ (0xDFFF < n ∧ n < 0x110000) → CharText (utf8Bytes n) n
  /-- `\"`, `\\`, `\/`, `\b`, `\f`, `\n`, `\r`, `\t` -/
  | simple (e c : UInt8) : (e, c) ∈ simpleEscapes → CharText [92, e] c.toNat
  /-- `\uXXXX` -/
  | unicode {t : List UInt8} {n : Nat} : Hex4 t n → n < 0xD800 ∨ 0xDFFF < n → CharText (92 :: 117 :: t) n
  /-- `\uD8XX\uDCXX`: a surrogate pair -/
  | pair {t t' : List UInt8} {hi lo : Nat} : Hex4 t hi → Hex4 t' lo → 0xD800 ≤ hi → hi ≤ 0xDBFF → 0xDC00 ≤ lo → lo ≤ 0xDFFF →
      CharText (92 :: 117 :: (t ++ 92 :: 117 :: t')) (0x10000 + (hi - 0xD800) * 0x400 + (lo - 0xDC00))

/-- The characters between the quotation marks: text and decoded bytes. -/
inductive CharsText : List UInt8 → List UInt8 → Prop
  | nil : CharsText [] []
  | cons {t r s : List UInt8} {n : Nat} : CharText t n → CharsText r s → CharsText (t ++ r) (utf8Bytes n ++ s)

/-- `string = quotation-mark *char quotation-mark` -/
def StringText (t s : List UInt8) : Prop := ∃ b, CharsText b s ∧ t = 34 :: (b ++ [34])

mutual

/-- `value = false / null / true / object / array / number / string` (section 3). -/
inductive JsonText : List UInt8 → JVal → Prop
  | null : JsonText [110, 117, 108, 108] .null
  | true : JsonText [116, 114, 117, 101] (.bool true)
  | false : JsonText [102, 97, 108, 115, 101] (.bool false)
  | number {t : List UInt8} : JsonNumber t → JsonText t (.str t)
  | string {t s : List UInt8} : StringText t s → JsonText t (.str s)
  | emptyArray {w : List UInt8} : IsWs w → JsonText (91 :: (w ++ [93])) (.arr [])
  | array {t : List UInt8} {l : List JVal} : ElementsText t l → JsonText (91 :: (t ++ [93])) (.arr l)
  | emptyObject {w : List UInt8} : IsWs w → JsonText (123 :: (w ++ [125])) (.obj [])
  | object {t : List UInt8} {l : List (List UInt8 × JVal)} : MembersTextG t l → JsonText (123 :: (t ++ [125])) (.obj l)

/-- `value *( value-separator value )`, with white space around every value (section 5). -/
inductive ElementsText : List UInt8 → List JVal → Prop
  | last {w t w' : List UInt8} {v : JVal} : IsWs w → JsonText t v → IsWs w' → ElementsText (w ++ (t ++ w')) [v]
  | more {w t w' r : List UInt8} {v : JVal} {l : List JVal} : IsWs w → JsonText t v → IsWs w' → ElementsText r l →
      ElementsText (w ++ (t ++ (w' ++ 44 :: r))) (v :: l)

/-- `member *( value-separator member )` with `member = string name-separator value`, with white space around every token (section 4). -/
inductive MembersTextG : List UInt8 → List (List UInt8 × JVal) → Prop
  | last {w k w1 w2 t w' s : List UInt8} {v : JVal} : IsWs w → StringText k s → IsWs w1 → IsWs w2 → JsonText t v → IsWs w' →
      MembersTextG (w ++ (k ++ (w1 ++ 58 :: (w2 ++ (t ++ w'))))) [(s, v)]
  | more {w k w1 w2 t w' r s : List UInt8} {v : JVal} {l : List (List UInt8 × JVal)} : IsWs w → StringText k s → IsWs w1 → IsWs w2 →
      JsonText t v → IsWs w' → MembersTextG r l → MembersTextG (w ++ (k ++ (w1 ++ 58 :: (w2 ++ (t ++ (w' ++ 44 :: r)))))) ((s, v) :: l)

end

/-- `JSON-text = ws value ws` (section 2). -/
def IsJson (t : List UInt8) (v : JVal) : Prop := ∃ w u w', t = w ++ (u ++ w') ∧ IsWs w ∧ JsonText u v ∧ IsWs w'

end Abieos.Spec
