import Verif.Proofs.GrisuText
import Mathlib.Order.Monotone.Basic
import Mathlib.Tactic.Linarith
/-
Numbers between the midpoints are nearest to the double; the printed text of a double.
-/
namespace Abieos
open Spec

/-- Binary exponent of the last place. -/
def lastPlace (b : Nat) : Int := if b / 2 ^ 52 = 0 then -1074 else (b / 2 ^ 52 : Nat) - 1075

theorem magnitude_succ (b : Nat) : magnitude (b + 1) = magnitude b + 2 ^ lastPlace b := by
  unfold magnitude lastPlace
  have hm : b % 2 ^ 52 < 2 ^ 52 := Nat.mod_lt _ (by decide)
  by_cases hc : b % 2 ^ 52 + 1 < 2 ^ 52
  · have e1 : (b + 1) / 2 ^ 52 = b / 2 ^ 52 := by omega
    have e2 : (b + 1) % 2 ^ 52 = b % 2 ^ 52 + 1 := by omega
    rw [e1, e2]
    split
    · push_cast; ring
    · push_cast; ring
  · have e1 : (b + 1) / 2 ^ 52 = b / 2 ^ 52 + 1 := by omega
    have e2 : (b + 1) % 2 ^ 52 = 0 := by omega
    have e3 : b % 2 ^ 52 = 2 ^ 52 - 1 := by omega
    rw [e1, e2, e3, if_neg (by omega)]
    split
    · rename_i h
      rw [h]
      norm_num
      ring
    · have : ((b / 2 ^ 52 + 1 : Nat) - 1075 : Int) = (b / 2 ^ 52 : Nat) - 1075 + 1 := by push_cast; ring
      rw [this, zpow_add₀ (by norm_num)]
      norm_num
      ring

theorem magnitude_lt {a b : Nat} (h : a < b) : magnitude a < magnitude b := by
  have : StrictMono magnitude := strictMono_nat_of_lt_succ (fun n => by
    rw [magnitude_succ]
    have : (0 : ℚ) < 2 ^ lastPlace n := by positivity
    linarith)
  exact this h

theorem magnitude_le {a b : Nat} (h : a ≤ b) : magnitude a ≤ magnitude b := by
  rcases Nat.lt_or_eq_of_le h with h | rfl
  · exact le_of_lt (magnitude_lt h)
  · exact le_refl _

theorem magnitude_zero : magnitude 0 = 0 := by simp [magnitude]

theorem buildFp_eq (bits : Nat) : (buildFp bits).frac = (if bits % 2 ^ 63 / 2 ^ 52 = 0 then bits % 2 ^ 63 % 2 ^ 52 else 2 ^ 52 + bits % 2 ^ 63 % 2 ^ 52) ∧
    (buildFp bits).exp = lastPlace (bits % 2 ^ 63) := by
  have e1 : bits % 2 ^ 63 / 2 ^ 52 = bits / 2 ^ 52 % 2 ^ 11 := by omega
  have e2 : bits % 2 ^ 63 % 2 ^ 52 = bits % 2 ^ 52 := by omega
  unfold buildFp lastPlace
  rw [e1, e2]
  simp only [hiddenbit]
  by_cases h : bits / 2 ^ 52 % 2 ^ 11 = 0
  · rw [if_neg (by omega), if_pos h, if_pos h]; exact ⟨rfl, rfl⟩
  · rw [if_pos h, if_neg h, if_neg h]; exact ⟨by simp only; omega, rfl⟩

theorem buildFp_value (bits : Nat) : ((buildFp bits).frac : ℚ) * 2 ^ (buildFp bits).exp = magnitude (bits % 2 ^ 63) := by
  obtain ⟨h1, h2⟩ := buildFp_eq bits
  rw [h1, h2]
  unfold magnitude lastPlace
  split <;> rfl

/-- The midpoints of the printer are inside the midpoints to the neighbours. -/
theorem midpoints {bits : Nat} {y : ℚ} (h0 : bits % 2 ^ 63 ≠ 0)
    (hl : ((buildFp bits).frac * 2 ^ lShift (buildFp bits) - 1 : ℚ) * 2 ^ ((buildFp bits).exp - lShift (buildFp bits)) < y)
    (hu : y < (2 * (buildFp bits).frac + 1) * 2 ^ ((buildFp bits).exp - 1)) :
    |y - magnitude (bits % 2 ^ 63)| < magnitude (bits % 2 ^ 63 + 1) - y ∧ |y - magnitude (bits % 2 ^ 63)| < y - magnitude (bits % 2 ^ 63 - 1) := by
  have hv := buildFp_value bits
  obtain ⟨h1, h2⟩ := buildFp_eq bits
  generalize hb : bits % 2 ^ 63 = b at *
  obtain ⟨a, rfl⟩ : ∃ a, b = a + 1 := ⟨b - 1, by omega⟩
  rw [Nat.add_sub_cancel]
  have hs := magnitude_succ (a + 1)
  have hp := magnitude_succ a
  rw [← h2] at hs
  have hpos : (0 : ℚ) < 2 ^ (buildFp bits).exp := by positivity
  have e1 : (2 : ℚ) ^ ((buildFp bits).exp - 1) = 2 ^ (buildFp bits).exp / 2 := by
    rw [zpow_sub₀ (by norm_num)]; norm_num
  have hls : (lShift (buildFp bits) = 1 ∧ lastPlace a = (buildFp bits).exp) ∨
      (lShift (buildFp bits) = 2 ∧ (lastPlace a = (buildFp bits).exp ∨ lastPlace a = (buildFp bits).exp - 1)) := by
    unfold lShift
    rw [h1, h2]
    unfold lastPlace hiddenbit
    by_cases hF : (a + 1) % 2 ^ 52 = 0
    · have hE : (a + 1) / 2 ^ 52 = a / 2 ^ 52 + 1 := by omega
      rw [hF, hE]
      simp only [if_neg (show ¬ a / 2 ^ 52 + 1 = 0 by omega), Nat.add_zero, if_true]
      right
      refine ⟨trivial, ?_⟩
      split
      · left; omega
      · right; push_cast; omega
    · have hE : (a + 1) / 2 ^ 52 = a / 2 ^ 52 := by omega
      rw [hE]
      left
      refine ⟨?_, rfl⟩
      by_cases h : a / 2 ^ 52 = 0
      · rw [if_pos h, if_neg (by omega)]
      · rw [if_neg h, if_neg (by omega)]
  rw [e1] at hu
  have hu' : y < magnitude (a + 1) + 2 ^ (buildFp bits).exp / 2 := by rw [← hv]; linarith
  have hgap : magnitude (a + 1) - (magnitude (a + 1) - magnitude a) / 2 < y := by
    rcases hls with ⟨e2, e3⟩ | ⟨e2, e3⟩
    · rw [e2] at hl
      rw [e3] at hp
      have : (2 : ℚ) ^ ((buildFp bits).exp - (1 : Nat)) = 2 ^ (buildFp bits).exp / 2 := by exact_mod_cast e1
      rw [this] at hl
      rw [← hv] at hp ⊢
      linarith
    · rw [e2] at hl
      have : (2 : ℚ) ^ ((buildFp bits).exp - (2 : Nat)) = 2 ^ (buildFp bits).exp / 4 := by
        rw [zpow_sub₀ (by norm_num)]; norm_num
      rw [this] at hl
      have hp' : (2 : ℚ) ^ (buildFp bits).exp / 2 ≤ 2 ^ lastPlace a := by
        rcases e3 with e3 | e3
        · rw [e3]; linarith
        · rw [e3, e1]
      rw [← hv] at hp ⊢
      linarith
  have hma : magnitude a < magnitude (a + 1) := magnitude_lt (by omega)
  constructor
  · rw [abs_lt]; constructor <;> linarith
  · rw [abs_lt]; constructor <;> linarith

/-- A number between the midpoints, with the sign of the double, is nearest to the double. -/
theorem nearest_of_midpoints {bits : Nat} {y : ℚ} (h0 : bits % 2 ^ 63 ≠ 0)
    (hl : ((buildFp bits).frac * 2 ^ lShift (buildFp bits) - 1 : ℚ) * 2 ^ ((buildFp bits).exp - lShift (buildFp bits)) < y)
    (hu : y < (2 * (buildFp bits).frac + 1) * 2 ^ ((buildFp bits).exp - 1)) :
    Nearest bits ((if bits / 2 ^ 63 % 2 = 1 then -1 else 1) * y) := by
  intro b hb hf hne
  obtain ⟨k1, k2⟩ := midpoints h0 hl hu
  unfold doubleValue at hne ⊢
  have hz := magnitude_le (Nat.zero_le (bits % 2 ^ 63 - 1))
  have hzb := magnitude_le (Nat.zero_le (b % 2 ^ 63))
  rw [magnitude_zero] at hz hzb
  have same : bits / 2 ^ 63 % 2 = b / 2 ^ 63 % 2 → |y - magnitude (bits % 2 ^ 63)| < |y - magnitude (b % 2 ^ 63)| := by
    intro hs
    have hbb : b % 2 ^ 63 ≠ bits % 2 ^ 63 := by
      intro h
      apply hne
      rw [h, hs]
    rcases Nat.lt_or_gt_of_ne hbb with h | h
    · have := magnitude_le (show b % 2 ^ 63 ≤ bits % 2 ^ 63 - 1 by omega)
      exact lt_of_lt_of_le (by linarith) (le_abs_self _)
    · have := magnitude_le (show bits % 2 ^ 63 + 1 ≤ b % 2 ^ 63 by omega)
      rw [abs_sub_comm y (magnitude (b % 2 ^ 63))]
      exact lt_of_lt_of_le (by linarith) (le_abs_self _)
  have other : |y - magnitude (bits % 2 ^ 63)| < |y + magnitude (b % 2 ^ 63)| :=
    lt_of_lt_of_le (by linarith) (le_abs_self _)
  by_cases h1 : bits / 2 ^ 63 % 2 = 1 <;> by_cases h2 : b / 2 ^ 63 % 2 = 1
  · rw [if_pos h1, if_pos h2]
    have := same (by omega)
    rw [← abs_neg] at this
    rw [← abs_neg (y - magnitude (b % 2 ^ 63))] at this
    convert this using 2 <;> ring
  · rw [if_pos h1, if_neg h2]
    rw [← abs_neg] at other
    rw [← abs_neg (y + magnitude (b % 2 ^ 63))] at other
    convert other using 2 <;> ring
  · rw [if_neg h1, if_pos h2]
    convert other using 2 <;> ring
  · rw [if_neg h1, if_neg h2]
    have := same (by omega)
    convert this using 2 <;> ring

end Abieos
