import Verif.Model.NameLiteral
import Verif.Props.Name
/-
C05: names known at compile time.
-/
namespace Abieos
open Spec

theorem literalImpl_iff (v : Nat) : ∀ (rest : Bytes) (n value : Nat) (c : UInt8), n + rest.length ≤ 12 →
    (nameLiteralImpl n value c rest = some v ↔ stringToNameStrictLoop n value (c :: rest) = .ok v)
  | rest, n, value, c, h => by
    unfold nameLiteralImpl stringToNameStrictLoop
    cases hx : charToNameDigitStrict c with
    | none => simp
    | some x =>
      simp only
      by_cases hn : n < 12
      · rw [if_neg (by omega), if_pos hn]
        cases rest with
        | nil =>
          simp only [stringToNameStrictLoop, if_neg (show ¬ n = 12 by omega), Nat.add_zero, Option.some.injEq, Except.ok.injEq]
        | cons c' rest' => exact literalImpl_iff v rest' (n + 1) _ c' (by simp only [List.length_cons] at h; omega)
      · have hn : n = 12 := by omega
        have hr : rest = [] := by cases rest with
          | nil => rfl
          | cons a l => simp only [List.length_cons] at h; omega
        subst hn hr
        simp only [show ¬ (12 < 12) by decide, if_false, true_and]
        by_cases hy : x &&& 0xf = x
        · have h5 : x &&& 0x1f = x := by
            have : x < 16 := by
              have := Nat.and_lt_two_pow (n := 4) x (y := 0xf) (by decide)
              omega
            exact Nat.and_two_pow_sub_one_of_lt_two_pow (n := 5) (by omega)
          simp [hy, h5]
        · simp [hy, Ne.symm hy]

/-- **C05.** A name literal compiles exactly if the strict converter accepts its text, and it is the same name. -/
theorem c05_literal (s : Bytes) (v : Nat) : nameLiteral s = some v ↔ stringToNameStrict s = .ok v := by
  by_cases hl : s.length ≤ 13
  · unfold nameLiteral; rw [if_pos hl]
    cases s with
    | nil => simp [stringToNameStrict, stringToNameStrictLoop]
    | cons c rest => exact literalImpl_iff v rest 0 0 c (by simp only [List.length_cons] at hl; omega)
  · unfold nameLiteral; rw [if_neg hl]
    constructor
    · intro h; cases h
    · intro h; exact absurd ((strictLoop_ok s 0 0 v (by omega)).1 h).1 (by omega)

/-- **C05.** So it compiles exactly for valid name texts, and its text is the text of the literal without dots at its end. -/
theorem c05_literal_valid (s : Bytes) : (∃ v, nameLiteral s = some v) ↔ ValidNameText s := by
  rw [← c05_strict_accepts_iff]
  exact exists_congr fun v => c05_literal s v

/-- **C05.** The value of a single character is its digit in a strict name, and the other characters are refused. -/
theorem c05_char_to_value (c : UInt8) : charToValue c = match charToNameDigitStrict c with
    | some x => .ok x
    | none => .error .invalid_name_char := by
  revert c
  apply forall_uint8
  decide +kernel

example : nameLiteral (str "eosio.token") = some (stringToName (str "eosio.token")) ∧ nameLiteral (str "zzzzzzzzzzzzz") = none ∧
    nameLiteral (str "aaaaaaaaaaaaj") ≠ none ∧ nameLiteral (str "aaaaaaaaaaaajj") = none ∧ nameLiteral (str "Eosio") = none := by decide +kernel

end Abieos
