import Verif.Model.Hex
/-
Writing strings as JSON.
-/
namespace Abieos

/-- Lead byte followed by its tail bytes: `rapidjson::UTF8<>::Validate` (rapidjson/encodings.h, external).
Returns the length of the well-formed UTF-8 sequence at the start of `s`, if there is one. A missing tail byte is the
zero padding of `stream_adaptor` (include/eosio/to_json.hpp:18-28), which is no tail byte. -/
def utf8Seq (s : Bytes) : Option Nat :=
  let tail := fun (c : UInt8) => decide (0x80 ≤ c ∧ c ≤ 0xBF)
  match s with
  | [] => none
  | c :: s =>
    if c < 0x80 then some 1
    else if 0xC2 ≤ c ∧ c ≤ 0xDF then
      match s with
      | a :: _ => if tail a then some 2 else none
      | _ => none
    else if 0xE0 ≤ c ∧ c ≤ 0xEF then
      match s with
      | a :: b :: _ =>
        if tail a && tail b && (c != 0xE0 || decide (0xA0 ≤ a)) && (c != 0xED || decide (a ≤ 0x9F)) then some 3 else none
      | _ => none
    else if 0xF0 ≤ c ∧ c ≤ 0xF4 then
      match s with
      | a :: b :: d :: _ =>
        if tail a && tail b && tail d && (c != 0xF0 || decide (0x90 ≤ a)) && (c != 0xF4 || decide (a ≤ 0x8F)) then some 4 else none
      | _ => none
    else none

/-- Bytes the inner scan of `to_json(string_view)` passes over (include/eosio/to_json.hpp:37). -/
def plainByte (c : UInt8) : Bool := c != 34 && c != 92 && decide (32 ≤ c) && c != 127

/-- Escapes (include/eosio/to_json.hpp:49-58). -/
def escapeByte (c : UInt8) : Bytes :=
  if c = 34 then [92, 34]
  else if c = 92 then [92, 92]
  else [92, 117, 48, 48, hexDigit (c.toNat >>> 4), hexDigit (c.toNat &&& 15)]

/-- Body of `to_json(string_view)` (include/eosio/to_json.hpp:33-60). The C++ scans a run of plain bytes and then walks
through it; the run is recomputed here at each position, which gives the same run. -/
def jsonChars : Bytes → Bytes
  | [] => []
  | c :: r =>
    if plainByte c then
      match utf8Seq (((c :: r).takeWhile plainByte).take 4) with
      | some n => (c :: r).take n ++ jsonChars (r.drop (n - 1))
      | none => 63 :: jsonChars r
    else escapeByte c ++ jsonChars r
termination_by s => s.length
decreasing_by all_goals (simp [List.length_drop]; try omega)

/-- `to_json(string_view)` (include/eosio/to_json.hpp:30-62). -/
def jsonString (s : Bytes) : Bytes := 34 :: (jsonChars s ++ [34])

end Abieos
