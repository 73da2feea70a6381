import Verif.Proofs.Utf8
/-! # C18: strings in JSON -/
namespace Abieos

open Spec

theorem jsonChars_utf8 (s : Bytes) : Utf8 (jsonChars s) := by
  induction hn : s.length using Nat.strongRecOn generalizing s with
  | _ m ih =>
    cases s with
    | nil => rw [jsonChars.eq_def]; exact .nil
    | cons c r =>
      cases hc : plainByte c with
      | true =>
        cases h : utf8Seq (c :: r) with
        | some k =>
          rw [jsonChars_plain hc h]
          obtain ⟨cp, h1, h2⟩ := encode_of_utf8Seq h
          rw [h2]
          refine (utf8_encode h1).append (ih (r.drop (k - 1)).length ?_ _ rfl)
          subst hn; simp; omega
        | none =>
          rw [jsonChars_bad hc h]
          exact .cons _ 1 (utf8Seq_1 (by decide)) (by simpa using ih r.length (by subst hn; simp) r rfl)
      | false =>
        rw [jsonChars_escape hc]
        have : ∀ c : UInt8, plainByte c = false → ∀ b ∈ escapeByte c, b.toNat < 128 := by
          apply forall_uint8; decide +kernel
        exact (utf8_ascii (this c hc)).append (ih r.length (by subst hn; simp) r rfl)

/-- Whatever bytes a string has, `to_json` writes one well-formed JSON string: a JSON reader accepts the whole text and
delivers a string, namely the given one with each byte that is not part of a UTF-8 sequence replaced by `?`. The text is
itself UTF-8, and has no NUL. -/
theorem c18_json_string_well_formed (s : Bytes) :
    Reader.read (jsonString s) = some (.str (patch s)) ∧ IsUtf8Text (jsonString s) ∧ ∀ b ∈ jsonString s, b ≠ 0 := by
  refine ⟨read_of_reads (reads_jsonString s), ?_, jsonString_ne_zero s⟩
  rw [← utf8_iff]
  have := ((utf8_ascii (s := [34]) (by simp)).append (jsonChars_utf8 s)).append (utf8_ascii (s := [34]) (by simp))
  simpa [jsonString] using this

/-- A string in UTF-8 survives writing and reading. -/
theorem c18_json_string_round_trip (s : Bytes) (h : IsUtf8Text s) : Reader.read (jsonString s) = some (.str s) := by
  rw [← utf8_iff] at h
  rw [read_of_reads (reads_jsonString s), patch_eq_of_utf8 h]

/-- The replacement leaves UTF-8 alone, always gives UTF-8, changes nothing about the length, and changes bytes only to
`?`. -/
theorem c18_patch (s : Bytes) :
    IsUtf8Text (patch s) ∧ (patch s = s ↔ IsUtf8Text s) ∧ (patch s).length = s.length ∧
    ∀ (i : Nat) (b : UInt8), (patch s)[i]? = some b → s[i]? = some b ∨ b = 63 := by
  refine ⟨(utf8_iff _).1 (patch_utf8 s), ⟨fun h => h ▸ (utf8_iff _).1 (patch_utf8 s), fun h => patch_eq_of_utf8 ((utf8_iff _).2 h)⟩, ?_⟩
  induction hn : s.length using Nat.strongRecOn generalizing s with
  | _ m ih =>
    cases s with
    | nil => rw [patch.eq_def]; simp [← hn]
    | cons c r =>
      cases h : utf8Seq (c :: r) with
      | some k =>
        obtain ⟨h1, h2, h3, -⟩ := utf8Seq_spec h
        obtain ⟨i1, i2⟩ := ih (r.drop (k - 1)).length (by subst hn; simp; omega) _ rfl
        rw [patch_cons_some h]
        constructor
        · simp only [List.length_append, i1, List.length_take, List.length_drop]
          simp at h2 hn ⊢; omega
        · intro i b hb
          rw [List.getElem?_append] at hb
          split at hb
          · rename_i hi
            simp only [List.length_take] at hi
            rw [List.getElem?_take, if_pos (by omega)] at hb
            exact .inl hb
          · rename_i hi
            rcases i2 _ _ hb with h' | h'
            · rw [List.getElem?_drop] at h'
              left
              simp only [List.length_take, Nat.min_eq_left h2] at h' hi
              obtain ⟨j, rfl⟩ : ∃ j, i = j + 1 := ⟨i - 1, by omega⟩
              rw [List.getElem?_cons_succ]
              rw [show k - 1 + (j + 1 - k) = j by omega] at h'
              exact h'
            · exact .inr h'
      | none =>
        obtain ⟨i1, i2⟩ := ih r.length (by subst hn; simp) _ rfl
        rw [patch_cons_none h]
        refine ⟨by simp [i1, ← hn], ?_⟩
        intro i b hb
        cases i with
        | zero => simp at hb; exact .inr hb.symm
        | succ i => simpa using i2 i b (by simpa using hb)

/-- Different UTF-8 strings have different JSON texts. -/
theorem c18_json_string_injective (a b : Bytes) (ha : IsUtf8Text a) (hb : IsUtf8Text b) (h : jsonString a = jsonString b) : a = b := by
  have h1 := c18_json_string_round_trip a ha
  rw [h, c18_json_string_round_trip b hb] at h1
  simpa using h1.symm

/-- Hypotheses are met: "a", a control character, a quote, "é", a DEL and an emoji form a UTF-8 text; a lone
continuation byte does not and is replaced. -/
example : IsUtf8Text [97, 10, 34, 0xC3, 0xA9, 127, 0xF0, 0x9F, 0x98, 0x80] :=
  ⟨[97, 10, 34, 0xE9, 127, 0x1F600], by simp [IsScalarValue], by decide⟩
example : jsonString [97, 10, 34, 0xC3, 0xA9, 0x80] = str "\"a\\u000A\\\"" ++ [0xC3, 0xA9] ++ str "?\"" := by
  simp [jsonString, jsonChars, plainByte, utf8Seq, escapeByte, hexDigit, str]
example : patch [97, 0x80, 98] = [97, 63, 98] := by simp [patch, utf8Seq]

end Abieos
