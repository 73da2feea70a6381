import Verif.Model.JsonReader
/-
When a text is a JSON rendition of a document.
-/
namespace Abieos.Spec

/-- The rest of the text starts with a delimiter (`,` `]` `}` or white space), or is empty. -/
def Delim (r : Bytes) : Prop := ∀ c, r.head? = some c → c = 44 ∨ c = 93 ∨ c = 125 ∨ c = 32 ∨ c = 9 ∨ c = 10 ∨ c = 13

/-- The JSON reader, given `t` followed by a delimiter or the end, reads exactly `t` and finds the document `v`. -/
def Reads (t : Bytes) (v : JVal) : Prop :=
  0 < t.length ∧ (∀ c ∈ t, c ≠ 0) ∧
  ∀ r, Delim r → ∀ n, 2 * t.length < n → Reader.value n (t ++ r) = some (v, r)

/-- Valid UTF-8. -/
inductive Utf8 : Bytes → Prop
  | nil : Utf8 []
  | cons (s : Bytes) (n : Nat) : utf8Seq s = some n → Utf8 (s.drop n) → Utf8 s

/-- Unicode scalar values: code points that are no surrogates. -/
def IsScalarValue (n : Nat) : Prop := n < 0xD800 ∨ (0xDFFF < n ∧ n < 0x110000)

/-- `s` is the UTF-8 encoding of a sequence of Unicode scalar values. `Props/JsonString.lean` shows that this is the same
as `Utf8`. -/
def IsUtf8Text (s : Bytes) : Prop := ∃ cps : List Nat, (∀ c ∈ cps, IsScalarValue c) ∧ s = cps.flatMap Reader.utf8Encode

/-- The text with every byte that does not belong to a UTF-8 sequence replaced by `?`. -/
def patch : Bytes → Bytes
  | [] => []
  | c :: r =>
    match utf8Seq (c :: r) with
    | some n => (c :: r).take n ++ patch (r.drop (n - 1))
    | none => 63 :: patch r
termination_by s => s.length
decreasing_by all_goals (simp [List.length_drop]; try omega)

end Abieos.Spec
