import Verif.Props.Float
import Verif.Spec.Single
import Verif.Spec.LittleEndian
import Verif.Model.Builtins
/-
C48 for `float32`.
-/
namespace Abieos
open Spec

/-- the exponent and fraction fields of the widened float -/
def widenLow (exp frac : Nat) : Nat :=
  if exp = 255 then 2047 * 2 ^ 52 + frac * 2 ^ 29
  else if exp ≠ 0 then (exp + 896) * 2 ^ 52 + frac * 2 ^ 29
  else if frac = 0 then 0
  else (frac.log2 + 874) * 2 ^ 52 + (frac - 2 ^ frac.log2) * 2 ^ (52 - frac.log2)

theorem widenFloat_eq (bits : Nat) : widenFloat bits = bits / 2 ^ 31 % 2 * 2 ^ 63 + widenLow (bits / 2 ^ 23 % 2 ^ 8) (bits % 2 ^ 23) := rfl

theorem log2_frac {frac : Nat} (h : frac < 2 ^ 23) (h0 : frac ≠ 0) :
    frac.log2 ≤ 22 ∧ 2 ^ frac.log2 ≤ frac ∧ (frac - 2 ^ frac.log2) * 2 ^ (52 - frac.log2) < 2 ^ 52 ∧
    (frac - 2 ^ frac.log2) * 2 ^ (52 - frac.log2) + 2 ^ 52 = frac * 2 ^ (52 - frac.log2) := by
  have h1 : frac.log2 < 23 := (Nat.log2_lt h0).2 h
  have h2 : 2 ^ frac.log2 ≤ frac := Nat.log2_self_le h0
  have h3 : frac < 2 ^ (frac.log2 + 1) := Nat.lt_log2_self
  have h4 : 2 ^ frac.log2 * 2 ^ (52 - frac.log2) = 2 ^ 52 := by
    rw [← Nat.pow_add]; congr 1; omega
  have h5 : frac - 2 ^ frac.log2 < 2 ^ frac.log2 := by
    rw [Nat.pow_succ] at h3; omega
  refine ⟨by omega, h2, ?_, ?_⟩
  · calc (frac - 2 ^ frac.log2) * 2 ^ (52 - frac.log2) < 2 ^ frac.log2 * 2 ^ (52 - frac.log2) :=
        Nat.mul_lt_mul_of_pos_right h5 (by positivity)
      _ = 2 ^ 52 := h4
  · rw [Nat.sub_mul, h4]
    have : 2 ^ 52 ≤ frac * 2 ^ (52 - frac.log2) := by rw [← h4]; exact Nat.mul_le_mul_right _ h2
    omega

theorem widenLow_lt {exp frac : Nat} (he : exp < 2 ^ 8) (hf : frac < 2 ^ 23) : widenLow exp frac < 2 ^ 63 := by
  unfold widenLow
  split
  · omega
  · split
    · omega
    · split
      · omega
      · rename_i h0
        obtain ⟨h1, -, h2, -⟩ := log2_frac hf h0
        omega

theorem widenFloat_parts (bits : Nat) : widenFloat bits < 2 ^ 64 ∧ widenFloat bits / 2 ^ 63 % 2 = bits / 2 ^ 31 % 2 ∧
    widenFloat bits % 2 ^ 63 = widenLow (bits / 2 ^ 23 % 2 ^ 8) (bits % 2 ^ 23) := by
  have h := widenLow_lt (Nat.mod_lt (bits / 2 ^ 23) (show 0 < 2 ^ 8 by decide)) (Nat.mod_lt bits (show 0 < 2 ^ 23 by decide))
  rw [widenFloat_eq]
  generalize widenLow _ _ = w at h
  omega

/-- Widening a float keeps its value, its sign and whether it is finite. -/
theorem c48_widen {bits : Nat} (hf : Finite32 bits) : widenFloat bits < 2 ^ 64 ∧ Spec.Finite (widenFloat bits) ∧
    doubleValue (widenFloat bits) = floatValue bits ∧ widenFloat bits / 2 ^ 63 % 2 = bits / 2 ^ 31 % 2 := by
  obtain ⟨h1, h2, h3⟩ := widenFloat_parts bits
  have he : bits / 2 ^ 23 % 2 ^ 8 < 2 ^ 8 := Nat.mod_lt _ (by decide)
  have hm : bits % 2 ^ 23 < 2 ^ 23 := Nat.mod_lt _ (by decide)
  have e1 : bits % 2 ^ 31 / 2 ^ 23 = bits / 2 ^ 23 % 2 ^ 8 := by omega
  have e2 : bits % 2 ^ 31 % 2 ^ 23 = bits % 2 ^ 23 := by omega
  unfold Finite32 at hf
  have key : widenLow (bits / 2 ^ 23 % 2 ^ 8) (bits % 2 ^ 23) / 2 ^ 52 < 2047 ∧
      magnitude (widenLow (bits / 2 ^ 23 % 2 ^ 8) (bits % 2 ^ 23)) = magnitude32 (bits % 2 ^ 31) := by
    unfold magnitude32
    rw [e1, e2]
    generalize bits / 2 ^ 23 % 2 ^ 8 = e at *
    generalize bits % 2 ^ 23 = m at *
    unfold widenLow
    rw [if_neg hf]
    by_cases h0 : e = 0
    · rw [if_neg (not_not.2 h0), if_pos h0]
      by_cases hm0 : m = 0
      · subst hm0; rw [if_pos rfl]; simp [magnitude]
      · rw [if_neg hm0]
        obtain ⟨a1, a2, a3, a4⟩ := log2_frac hm hm0
        generalize hw : (m - 2 ^ m.log2) * 2 ^ (52 - m.log2) = w at *
        have b1 : ((m.log2 + 874) * 2 ^ 52 + w) / 2 ^ 52 = m.log2 + 874 := by omega
        have b2 : ((m.log2 + 874) * 2 ^ 52 + w) % 2 ^ 52 = w := by omega
        refine ⟨by omega, ?_⟩
        unfold magnitude
        rw [b1, b2, if_neg (by omega), Nat.add_comm, a4]
        rw [Nat.cast_mul, Nat.cast_pow, Nat.cast_ofNat, mul_assoc, ← zpow_natCast (2 : ℚ), ← zpow_add₀ (by norm_num)]
        have : ((52 - m.log2 : ℕ) : ℤ) + (((m.log2 + 874 : ℕ) : ℤ) - 1075) = -149 := by omega
        rw [this]
    · rw [if_pos h0, if_neg h0]
      have b1 : ((e + 896) * 2 ^ 52 + m * 2 ^ 29) / 2 ^ 52 = e + 896 := by omega
      have b2 : ((e + 896) * 2 ^ 52 + m * 2 ^ 29) % 2 ^ 52 = m * 2 ^ 29 := by omega
      refine ⟨by omega, ?_⟩
      unfold magnitude
      rw [b1, b2, if_neg (by omega)]
      have b3 : 2 ^ 52 + m * 2 ^ 29 = (2 ^ 23 + m) * 2 ^ 29 := by omega
      rw [b3]
      rw [Nat.cast_mul, Nat.cast_pow, Nat.cast_ofNat, mul_assoc, ← zpow_natCast (2 : ℚ) 29, ← zpow_add₀ (by norm_num)]
      have : ((29 : ℕ) : ℤ) + (((e + 896 : ℕ) : ℤ) - 1075) = (e : ℤ) - 150 := by omega
      rw [this]
  refine ⟨h1, ?_, ?_, h2⟩
  · unfold Spec.Finite
    have : widenFloat bits / 2 ^ 52 % 2 ^ 11 = widenFloat bits % 2 ^ 63 / 2 ^ 52 := by omega
    rw [this, h3]
    omega
  · unfold doubleValue floatValue
    rw [h2, h3, key.2]

/-- A float that is not finite stays so, and keeps its sign and whether it is a number. -/
theorem c48_widen_special {bits : Nat} (hf : ¬ Finite32 bits) : ¬ Spec.Finite (widenFloat bits) ∧
    widenFloat bits / 2 ^ 63 % 2 = bits / 2 ^ 31 % 2 ∧ (widenFloat bits % 2 ^ 52 = 0 ↔ bits % 2 ^ 23 = 0) := by
  obtain ⟨h1, h2, h3⟩ := widenFloat_parts bits
  unfold Finite32 at hf
  have hm : bits % 2 ^ 23 < 2 ^ 23 := Nat.mod_lt _ (by decide)
  rw [not_not.1 hf] at h3
  unfold widenLow at h3
  rw [if_pos rfl] at h3
  refine ⟨?_, h2, ?_⟩
  · unfold Spec.Finite; omega
  · omega

/-- **C48, floats.** Decoding a `float32` reads four bytes; if they are a finite float, the text printed is a JSON number whose exact value is
nearer to that float than to any other finite double, so nearer than to any other float. -/
theorem c48_float_nearest {bin t rest : Bytes} (h : builtinFromBin .float32 bin = .ok (t, rest)) :
    ∃ a, bin = a ++ rest ∧ a.length = 4 ∧ (Finite32 (leVal a) →
      ∃ x, NumberValue t x ∧ (t.head? = some 45 ↔ leVal a / 2 ^ 31 % 2 = 1) ∧
        ∀ b, Finite32 b → floatValue b ≠ floatValue (leVal a) → |x - floatValue (leVal a)| < |x - floatValue b|) ∧
      (¬ Finite32 (leVal a) → t = if leVal a % 2 ^ 23 ≠ 0 then str "\"NaN\"" else if leVal a / 2 ^ 31 % 2 = 1 then str "\"-Infinity\"" else str "\"Infinity\"") := by
  rw [builtinFromBin, decFloat] at h
  obtain ⟨⟨a, r⟩, h1, h⟩ := bind_eq_ok.1 h
  obtain ⟨t', h2, h⟩ := bind_eq_ok.1 h
  simp only [Except.ok.injEq, Prod.mk.injEq] at h
  obtain ⟨rfl, rfl⟩ := h
  obtain ⟨h3, h4⟩ := readBytes_ok h1
  refine ⟨a, h3, h4, fun hf => ?_, fun hf => ?_⟩
  · obtain ⟨w1, w2, w3, w4⟩ := c48_widen hf
    obtain ⟨x, hx, hn, hs⟩ := c48_print_nearest w2 h2
    refine ⟨x, hx, by rw [hs, w4], fun b hb hne => ?_⟩
    obtain ⟨v1, v2, v3, v4⟩ := c48_widen hb
    have := hn _ v1 v2 (by rw [v3, w3]; exact hne)
    rwa [v3, w3] at this
  · obtain ⟨w1, w2, w3⟩ := c48_widen_special hf
    rw [c48_print_special w1] at h2
    cases h2
    simp only [ne_eq, w2, w3]

/-- **C48, floats.** Two finite floats of different values never print to the same text. -/
theorem c48_float_injective {a b : Nat} (hfa : Finite32 a) (hfb : Finite32 b) {t : Bytes}
    (h1 : fpToJson (widenFloat a) = .ok t) (h2 : fpToJson (widenFloat b) = .ok t) : floatValue a = floatValue b := by
  obtain ⟨a1, a2, a3, -⟩ := c48_widen hfa
  obtain ⟨b1, b2, b3, -⟩ := c48_widen hfb
  rw [← a3, ← b3]
  exact c48_print_injective a1 b1 a2 b2 h1 h2

/-- A case: 0.1f prints the digits of the double it widens to. -/
example : builtinFromBin .float32 [0xCD, 0xCC, 0xCC, 0x3D] = .ok (str "0.10000000149011612", []) := by decide +kernel
example : Finite32 (leVal [0xCD, 0xCC, 0xCC, 0x3D]) := by unfold Finite32; decide
/-- The smallest float. -/
example : builtinFromBin .float32 [1, 0, 0, 0] = .ok (str "1.401298464324817e-45", []) := by decide +kernel

end Abieos
