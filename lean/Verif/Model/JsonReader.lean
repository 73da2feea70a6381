import Verif.Model.Json
import Verif.Model.JsonString
/-
The JSON reader. The repository uses rapidjson, which is external; this is a reference reader for RFC 8259, which is
what the code relies on rapidjson for (flags `kParseValidateEncodingFlag | kParseIterativeFlag |
kParseNumbersAsStringsFlag`, src/abieos.hpp:519-521 and include/eosio/from_json.hpp:197-198).
Known difference: rapidjson also refuses numbers whose value overflows a double.
-/
namespace Abieos
namespace Reader

/-- Skip `ws = *( space / tab / LF / CR )`. -/
def skipWs : Bytes → Bytes
  | c :: s => if c = 32 ∨ c = 9 ∨ c = 10 ∨ c = 13 then skipWs s else c :: s
  | [] => []

/-- UTF-8 encoding of a code point. -/
def utf8Encode (n : Nat) : Bytes :=
  if n < 0x80 then [UInt8.ofNat n]
  else if n < 0x800 then [UInt8.ofNat (0xC0 + n / 64), UInt8.ofNat (0x80 + n % 64)]
  else if n < 0x10000 then [UInt8.ofNat (0xE0 + n / 4096), UInt8.ofNat (0x80 + n / 64 % 64), UInt8.ofNat (0x80 + n % 64)]
  else [UInt8.ofNat (0xF0 + n / 262144), UInt8.ofNat (0x80 + n / 4096 % 64), UInt8.ofNat (0x80 + n / 64 % 64), UInt8.ofNat (0x80 + n % 64)]

/-- Four hex digits. -/
def hex4 : Bytes → Option (Nat × Bytes)
  | a :: b :: c :: d :: s => do
    let a ← unhexDigit a
    let b ← unhexDigit b
    let c ← unhexDigit c
    let d ← unhexDigit d
    return (a * 4096 + b * 256 + c * 16 + d, s)
  | _ => none

/-- One escape sequence, after the backslash. Surrogates must come in pairs. -/
def escape : Bytes → Option (Bytes × Bytes)
  | 34 :: s => some ([34], s)
  | 92 :: s => some ([92], s)
  | 47 :: s => some ([47], s)
  | 98 :: s => some ([8], s)
  | 102 :: s => some ([12], s)
  | 110 :: s => some ([10], s)
  | 114 :: s => some ([13], s)
  | 116 :: s => some ([9], s)
  | 117 :: s =>
    match hex4 s with
    | none => none
    | some (hi, s) =>
      if 0xD800 ≤ hi ∧ hi ≤ 0xDFFF then
        if hi ≤ 0xDBFF then
          match s with
          | 92 :: 117 :: s =>
            match hex4 s with
            | some (lo, s) =>
              if 0xDC00 ≤ lo ∧ lo ≤ 0xDFFF then some (utf8Encode (0x10000 + (hi - 0xD800) * 1024 + (lo - 0xDC00)), s)
              else none
            | none => none
          | _ => none
        else none
      else some (utf8Encode hi, s)
  | _ => none

/-- The characters of a string, after the opening quote. Control characters must be escaped and the text must be
UTF-8. -/
def chars : Nat → Bytes → Option (Bytes × Bytes)
  | 0, _ => none
  | _ + 1, [] => none
  | n + 1, c :: s =>
    if c = 34 then some ([], s)
    else if c = 92 then
      match escape s with
      | some (e, s) =>
        match chars n s with
        | some (r, s) => some (e ++ r, s)
        | none => none
      | none => none
    else if c < 32 then none
    else
      match utf8Seq (c :: s) with
      | some k =>
        match chars n ((c :: s).drop k) with
        | some (r, s') => some ((c :: s).take k ++ r, s')
        | none => none
      | none => none

/-- Digits. -/
def digits : Bytes → Bytes × Bytes
  | c :: s => if 48 ≤ c ∧ c ≤ 57 then (c :: (digits s).1, (digits s).2) else ([], c :: s)
  | [] => ([], [])

/-- `[ minus ]` -/
def signPart : Bytes → Bytes × Bytes
  | [] => ([], [])
  | c :: s => if c = 45 then ([45], s) else ([], c :: s)

/-- `[ . 1*DIGIT ]` -/
def fracPart : Bytes → Option (Bytes × Bytes)
  | [] => some ([], [])
  | c :: s =>
    if c = 46 then
      if (digits s).1 = [] then none else some (46 :: (digits s).1, (digits s).2)
    else some ([], c :: s)

/-- `[ minus / plus ]` -/
def expSign : Bytes → Bytes × Bytes
  | [] => ([], [])
  | c :: s => if c = 43 ∨ c = 45 then ([c], s) else ([], c :: s)

/-- `[ (e / E) [ minus / plus ] 1*DIGIT ]` -/
def expPart : Bytes → Option (Bytes × Bytes)
  | [] => some ([], [])
  | c :: s =>
    if c = 101 ∨ c = 69 then
      if (digits (expSign s).2).1 = [] then none
      else some (c :: ((expSign s).1 ++ (digits (expSign s).2).1), (digits (expSign s).2).2)
    else some ([], c :: s)

/-- `number = [ minus ] int [ frac ] [ exp ]`, where `int` has no leading zero: returns the text of the number. -/
def number (s : Bytes) : Option (Bytes × Bytes) :=
  let int := digits (signPart s).2
  if int.1 = [] ∨ (int.1.head? = some 48 ∧ int.1.length ≠ 1) then none
  else
    match fracPart int.2 with
    | none => none
    | some (frac, s2) =>
      match expPart s2 with
      | none => none
      | some (e, s3) => some ((signPart s).1 ++ int.1 ++ frac ++ e, s3)

mutual
/-- A value, leading white space allowed. -/
def value : Nat → Bytes → Option (JVal × Bytes)
  | 0, _ => none
  | n + 1, s =>
    match skipWs s with
    | [] => none
    | 110 :: 117 :: 108 :: 108 :: s => some (.null, s)
    | 116 :: 114 :: 117 :: 101 :: s => some (.bool true, s)
    | 102 :: 97 :: 108 :: 115 :: 101 :: s => some (.bool false, s)
    | 34 :: s =>
      match chars (s.length + 1) s with
      | some (t, s) => some (.str t, s)
      | none => none
    | 91 :: s =>
      match skipWs s with
      | 93 :: s => some (.arr [], s)
      | s =>
        match elems n s with
        | some (l, s) => some (.arr l, s)
        | none => none
    | 123 :: s =>
      match skipWs s with
      | 125 :: s => some (.obj [], s)
      | s =>
        match members n s with
        | some (l, s) => some (.obj l, s)
        | none => none
    | s =>
      match number s with
      | some (t, s) => some (.str t, s)
      | none => none

/-- `value *( , value ) ]` -/
def elems : Nat → Bytes → Option (List JVal × Bytes)
  | 0, _ => none
  | n + 1, s =>
    match value n s with
    | none => none
    | some (v, s) =>
      match skipWs s with
      | 44 :: s =>
        match elems n s with
        | some (l, s) => some (v :: l, s)
        | none => none
      | 93 :: s => some ([v], s)
      | _ => none

/-- `string : value *( , string : value ) }` -/
def members : Nat → Bytes → Option (List (Bytes × JVal) × Bytes)
  | 0, _ => none
  | n + 1, s =>
    match skipWs s with
    | 34 :: s =>
      match chars (s.length + 1) s with
      | none => none
      | some (k, s) =>
        match skipWs s with
        | 58 :: s =>
          match value n s with
          | none => none
          | some (v, s) =>
            match skipWs s with
            | 44 :: s =>
              match members n s with
              | some (l, s) => some ((k, v) :: l, s)
              | none => none
            | 125 :: s => some ([(k, v)], s)
            | _ => none
        | _ => none
    | _ => none
end

/-- A whole text. The text is copied into a buffer ended by NUL (src/abieos.hpp:510-513, 741-744), so it ends at its
first NUL; only white space may follow the value. The step budget is larger than any text needs. -/
def read (text : Bytes) : Option JVal :=
  let s := text.takeWhile (· != 0)
  match value (2 * s.length + 2) s with
  | some (v, r) => if skipWs r = [] then some v else none
  | none => none

/-! What rapidjson's `IterativeParseNext`, called by `peek_token` (include/eosio/from_json.hpp:192-200), reports of a text that is not a
document: one event for each token, until the call that meets the error. -/

mutual
/-- The events of a value that is not well-formed, up to the error. -/
def valueTo : Nat → Bytes → List Tok
  | 0, _ => []
  | n + 1, s =>
    match skipWs s with
    | 91 :: s => .startArr :: elemsTo n s
    | 123 :: s => .startObj :: membersTo n s
    | _ => []

/-- The events of elements that do not end well. -/
def elemsTo : Nat → Bytes → List Tok
  | 0, _ => []
  | n + 1, s =>
    match value n s with
    | none => valueTo n s
    | some (v, s) => v.toks ++
      match skipWs s with
      | 44 :: s => elemsTo n s
      | _ => []

/-- The events of members that do not end well. -/
def membersTo : Nat → Bytes → List Tok
  | 0, _ => []
  | n + 1, s =>
    match skipWs s with
    | 34 :: s =>
      match chars (s.length + 1) s with
      | none => []
      | some (k, s) => .key k ::
        match skipWs s with
        | 58 :: s =>
          match value n s with
          | none => valueTo n s
          | some (v, s) => v.toks ++
            match skipWs s with
            | 44 :: s => membersTo n s
            | _ => []
        | _ => []
    | _ => []
end

/-- The events of a text, up to the error if there is one. What follows the value is looked at by the call that reports its last event, so
that event is lost if something does. -/
def upTo (text : Bytes) : List Tok :=
  let s := text.takeWhile (· != 0)
  match value (2 * s.length + 2) s with
  | some (v, r) => if skipWs r = [] then v.toks else v.toks.dropLast
  | none => valueTo (2 * s.length + 2) s

end Reader
end Abieos
