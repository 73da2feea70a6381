import Verif.Proofs.ToKey
import Verif.Spec.Double
import Mathlib.Tactic.Ring
import Mathlib.Tactic.FieldSimp
import Mathlib.Tactic.Positivity
/-
C19, C20: database keys.
-/
namespace Abieos
open Spec

/-- **C19, C20: keys exist.** `convert_to_key` succeeds for every value and appends the key to the vector, whatever is in it: the first
pass finds the size the second one needs. -/
theorem c19_convert {t : KTy} {v : KVal} (h : IsKey t v) : ∃ k, ∀ bin, convertToKey t v bin = .ok (bin ++ k) :=
  ⟨keyOf t v, convertToKey_of (writes_key t v h)⟩

theorem key_eq {t : KTy} {v : KVal} {k : Bytes} (h : IsKey t v) (hk : convertToKey t v [] = .ok k) : k = keyOf t v := by
  rw [convertToKey_of (writes_key t v h)] at hk
  cases hk; rfl

/-- **C19: order.** The bytes of the keys are in lexicographic order exactly when the values are in their order. -/
theorem c19_order {t : KTy} {a b : KVal} {ka kb : Bytes} (ha : IsKey t a) (hb : IsKey t b)
    (hka : convertToKey t a [] = .ok ka) (hkb : convertToKey t b [] = .ok kb) : ka < kb ↔ KeyLess t a b := by
  rw [key_eq ha hka, key_eq hb hkb]
  constructor
  · intro h
    by_cases h1 : KeyLess t a b
    · exact h1
    · by_cases h2 : KeyLess t b a
      · exact absurd h (List.lt_asymm ((key_ordered t b a hb ha).1 h2).lt)
      · rw [(key_ordered t a b ha hb).2 h1 h2] at h
        exact absurd h (List.lt_irrefl _)
  · exact fun h => ((key_ordered t a b ha hb).1 h).lt

/-- **C20: prefixes.** If the key of one value is a prefix of the key of another one, the keys are equal. -/
theorem c20_prefix_free {t : KTy} {a b : KVal} {ka kb : Bytes} (ha : IsKey t a) (hb : IsKey t b)
    (hka : convertToKey t a [] = .ok ka) (hkb : convertToKey t b [] = .ok kb) (h : ka <+: kb) : ka = kb := by
  rw [key_eq ha hka, key_eq hb hkb] at *
  by_cases h1 : KeyLess t a b
  · exact absurd h ((key_ordered t a b ha hb).1 h1).not_prefix.1
  · by_cases h2 : KeyLess t b a
    · exact absurd h ((key_ordered t b a hb ha).1 h2).not_prefix.2
    · exact (key_ordered t a b ha hb).2 h1 h2

/-- **C20: concatenation.** In bytes that start with a key of the type, the key is determined. -/
theorem c20_concat {t : KTy} {a b : KVal} {ka kb x y : Bytes} (ha : IsKey t a) (hb : IsKey t b)
    (hka : convertToKey t a [] = .ok ka) (hkb : convertToKey t b [] = .ok kb) (h : ka ++ x = kb ++ y) : ka = kb ∧ x = y := by
  have : ka = kb := by
    rcases List.prefix_or_prefix_of_prefix (List.prefix_append ka x) (h ▸ List.prefix_append kb y) with h' | h'
    · exact c20_prefix_free ha hb hka hkb h'
    · exact (c20_prefix_free hb ha hkb hka h').symm
  subst this
  exact ⟨rfl, List.append_cancel_left h⟩

/-- **C20: equal keys.** Values have the same key exactly when neither is less than the other. -/
theorem c20_equivalent {t : KTy} {a b : KVal} {ka kb : Bytes} (ha : IsKey t a) (hb : IsKey t b)
    (hka : convertToKey t a [] = .ok ka) (hkb : convertToKey t b [] = .ok kb) : ka = kb ↔ ¬ KeyLess t a b ∧ ¬ KeyLess t b a := by
  constructor
  · rintro rfl
    rw [← c19_order ha hb hka hkb, ← c19_order hb ha hkb hka]
    exact ⟨List.lt_irrefl _, List.lt_irrefl _⟩
  · rintro ⟨h1, h2⟩
    rw [key_eq ha hka, key_eq hb hkb]
    exact (key_ordered t a b ha hb).2 h1 h2

/-- **C20: equal keys.** Without floating-point numbers (where 0 and −0 have the same key) values with the same key are equal. -/
theorem c20_injective {t : KTy} {a b : KVal} {k : Bytes} (ht : Exact t) (ha : IsKey t a) (hb : IsKey t b)
    (hka : convertToKey t a [] = .ok k) (hkb : convertToKey t b [] = .ok k) : a = b := by
  obtain ⟨h1, h2⟩ := (c20_equivalent ha hb hka hkb).1 rfl
  exact key_exact t a b ht ha hb h1 h2

/-- **C19.** The order of values is a strict weak order: the one of the keys. -/
theorem c19_strict {t : KTy} {a b c : KVal} (ha : IsKey t a) (hb : IsKey t b) (hc : IsKey t c) :
    ¬ KeyLess t a a ∧ (KeyLess t a b → ¬ KeyLess t b a) ∧ (KeyLess t a b → KeyLess t b c → KeyLess t a c) ∧
      (KeyLess t a c → KeyLess t a b ∨ KeyLess t b c) := by
  obtain ⟨ka, h1⟩ := c19_convert ha
  obtain ⟨kb, h2⟩ := c19_convert hb
  obtain ⟨kc, h3⟩ := c19_convert hc
  have h1 := h1 []; have h2 := h2 []; have h3 := h3 []
  rw [← c19_order ha ha h1 h1, ← c19_order ha hb h1 h2, ← c19_order hb ha h2 h1, ← c19_order hb hc h2 h3, ← c19_order ha hc h1 h3]
  refine ⟨List.lt_irrefl _, fun h => List.lt_asymm h, fun h h' => List.lt_trans h h', fun h => ?_⟩
  by_cases h' : ([] ++ ka) < ([] ++ kb)
  · exact .inl h'
  · exact .inr (List.lt_of_le_of_lt (List.not_lt.1 h') h)

theorem ieeeUnits_magnitude (m : Nat) : magnitude m = ieeeUnits 52 m * (2 : ℚ) ^ (-1074 : Int) := by
  unfold magnitude ieeeUnits
  by_cases h : m / 2 ^ 52 = 0
  · rw [if_pos h, if_pos h]
  · simp only [h, if_false]
    obtain ⟨k, hk⟩ : ∃ k, m / 2 ^ 52 = k + 1 := ⟨m / 2 ^ 52 - 1, by omega⟩
    rw [hk, Nat.add_sub_cancel, show ((k + 1 : Nat) - 1075 : Int) = (k : Int) + (-1074) by omega, zpow_add₀ (by decide), zpow_natCast]
    push_cast
    ring

/-- **C19, doubles.** The order used for `double` is the order of the numbers they are (`float` differs in its field sizes only). -/
theorem c19_double (a b : Nat) :
    KeyLess .double (.bits a) (.bits b) ↔ doubleValue a < doubleValue b := by
  have e : ∀ x, doubleValue x = (ieeeValue 52 11 x : ℚ) * (2 : ℚ) ^ (-1074 : Int) := by
    intro x
    unfold doubleValue ieeeValue
    rw [ieeeUnits_magnitude]
    split <;> simp
  simp only [KeyLess]
  rw [e, e, mul_lt_mul_iff_left₀ (by positivity), Int.cast_lt]

/-! ## Examples -/

/-- `std::vector<std::tuple<std::string, std::optional<int8_t>, std::variant<double, varuint32>>>` -/
def keyExampleType : KTy := .seq (.struct [.str, .opt (.sint 1), .variant [.double, .varuint32]])

def keyExampleA : KVal := .list [.list [.bytes [97, 0], .some (.int (-128)), .alt 0 (.bits 0xbff0000000000000)]]
def keyExampleB : KVal := .list [.list [.bytes [97, 0], .some (.int (-128)), .alt 1 (.nat 300)]]

example : IsKey keyExampleType keyExampleA ∧ IsKey keyExampleType keyExampleB := by
  refine ⟨?_, ?_⟩ <;> simp [keyExampleType, keyExampleA, keyExampleB, IsKey, IsKeyFields, IsKeyAlt, NotNan]

example : KeyLess keyExampleType keyExampleA keyExampleB := by
  simp [keyExampleType, keyExampleA, keyExampleB, KeyLess, KeyLessFields, LexLess]

example : convertToKey keyExampleType keyExampleA [7] = .ok [7, 1, 97, 0, 1, 0, 0, 0, 1, 0, 0x40, 0x0f, 255, 255, 255, 255, 255, 255, 0] := by
  decide +kernel
example : convertToKey keyExampleType keyExampleB [] = .ok [1, 97, 0, 1, 0, 0, 0, 1, 1, 0x81, 0x2c, 0] := by decide +kernel

/-- Equal keys of different values: 0 and −0. -/
example : convertToKey .double (.bits 0) [] = convertToKey .double (.bits (2 ^ 63)) [] := by decide +kernel

example : ∃ l, IsKey (.fixed 20 4) (.words l) ∧ convertToKey (.fixed 20 4) (.words l) [] = .ok (List.replicate 19 0 ++ [5]) := by
  refine ⟨fixedFromBytes 20 4 (List.replicate 19 0 ++ [5]), ?_, by decide +kernel⟩
  exact ⟨by decide, _, c43_from_bytes (by decide) (by decide)⟩

end Abieos
