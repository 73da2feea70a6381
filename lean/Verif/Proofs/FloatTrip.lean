import Verif.Spec.CLibrary
import Verif.Proofs.LeafAll
import Verif.Props.Single
import Mathlib.Tactic.NormNum
/-
Printed floating point numbers lie in the range where the C library rounds.
-/
namespace Abieos
open Spec

/-- A number that is strictly nearest to `v`, when `m` is another value, is on the far side of the midpoint. -/
theorem nearer_above {x v m : ℚ} (hv : m < v) (h : |x - v| < |x - m|) : m < x := by
  by_contra hx
  rw [not_lt] at hx
  rw [abs_of_nonpos (by linarith), abs_of_nonpos (by linarith)] at h
  linarith

theorem nearer_below {x v m : ℚ} (hv : v < m) (h : |x - v| < |x - m|) : x < m := by
  by_contra hx
  rw [not_lt] at hx
  rw [abs_of_nonneg (by linarith), abs_of_nonneg (by linarith)] at h
  linarith

/-- The value of the text of one number. -/
theorem value_of_text {t u : Bytes} {x : ℚ} (h : NumberValue t x) (e : t = u) {y : ℚ} (hu : NumberValue u y) : x = y := by
  subst e; exact numberValue_unique h hu

theorem doubleValue_pos {b : Nat} (h : b < 2 ^ 63) : doubleValue b = magnitude b := by
  unfold doubleValue
  rw [if_neg (by omega), Nat.mod_eq_of_lt h, one_mul]

theorem doubleValue_neg {b : Nat} (h : b < 2 ^ 63) : doubleValue (2 ^ 63 + b) = -magnitude b := by
  unfold doubleValue
  rw [if_pos (by omega), show (2 ^ 63 + b) % 2 ^ 63 = b by omega, neg_one_mul]

set_option exponentiation.threshold 2000 in
theorem magnitude_min : magnitude (2 ^ 52) = 2 ^ (-1022 : Int) := by
  unfold magnitude; norm_num

set_option exponentiation.threshold 2000 in
theorem magnitude_max : magnitude (2047 * 2 ^ 52 - 1) = 2 ^ 1024 - 2 ^ 971 := by
  unfold magnitude; norm_num

theorem magnitude_nonneg (b : Nat) : 0 ≤ magnitude b := by
  rw [← magnitude_zero]; exact magnitude_le (Nat.zero_le b)

/-- the numbers whose printing is looked at directly: the smallest and the largest normal double, with both signs -/
theorem print_min : fpToJson (2 ^ 52) = .ok (str "2.2250738585072014e-308") := by decide +kernel
theorem print_min_neg : fpToJson (2 ^ 63 + 2 ^ 52) = .ok (str "-2.2250738585072014e-308") := by decide +kernel
theorem print_max : fpToJson (2047 * 2 ^ 52 - 1) = .ok (str "1.7976931348623157e+308") := by decide +kernel
theorem print_max_neg : fpToJson (2 ^ 63 + (2047 * 2 ^ 52 - 1)) = .ok (str "-1.7976931348623157e+308") := by decide +kernel

/-- A text with all parts has the value it says. -/
theorem numberValue_text {neg : Bool} {int fd d sg : Bytes} (h1 : Digits int) (h2 : int.head? = some 48 → int.length = 1) (h3 : Digits fd)
    (h4 : Digits d) (h5 : sg = [43] ∨ sg = [45]) :
    NumberValue ((if neg then [45] else []) ++ (int ++ (46 :: fd ++ 101 :: (sg ++ d))))
      ((if neg then -1 else 1) * (decVal (int ++ fd) * 10 ^ ((if sg = [45] then -(decVal d : Int) else decVal d) - fd.length))) :=
  ⟨neg, int, fd, 46 :: fd, 101 :: (sg ++ d), _, rfl, h1, h2, .inr ⟨h3, rfl⟩, .inr ⟨101, sg, d, .inl rfl, .inr h5, h4, rfl, rfl⟩, rfl⟩

theorem min_text (neg : Bool) : NumberValue (if neg then str "-2.2250738585072014e-308" else str "2.2250738585072014e-308")
    ((if neg then -1 else 1) * (22250738585072014 * 10 ^ (-324 : Int))) := by
  have := numberValue_text (neg := neg) (int := str "2") (fd := str "2250738585072014") (d := str "308") (sg := [45])
    ⟨by decide, by decide⟩ (by decide) ⟨by decide, by decide⟩ ⟨by decide, by decide⟩ (.inr rfl)
  have e1 : decVal (str "2" ++ str "2250738585072014") = 22250738585072014 := by decide +kernel
  have e2 : decVal (str "308") = 308 := by decide +kernel
  have e3 : (str "2250738585072014").length = 16 := by decide
  rw [e1, e2, e3, if_pos rfl] at this
  cases neg <;> exact this

theorem max_text (neg : Bool) : NumberValue (if neg then str "-1.7976931348623157e+308" else str "1.7976931348623157e+308")
    ((if neg then -1 else 1) * (17976931348623157 * 10 ^ (292 : Int))) := by
  have := numberValue_text (neg := neg) (int := str "1") (fd := str "7976931348623157") (d := str "308") (sg := [43])
    ⟨by decide, by decide⟩ (by decide) ⟨by decide, by decide⟩ ⟨by decide, by decide⟩ (.inl rfl)
  have e1 : decVal (str "1" ++ str "7976931348623157") = 17976931348623157 := by decide +kernel
  have e2 : decVal (str "308") = 308 := by decide +kernel
  have e3 : (str "7976931348623157").length = 16 := by decide
  rw [e1, e2, e3, if_neg (show ¬ ([43] : Bytes) = [45] by decide)] at this
  cases neg <;> exact this

set_option exponentiation.threshold 2000 in
theorem min_num : (2 : ℚ) ^ (-1022 : Int) ≤ 22250738585072014 * 10 ^ (-324 : Int) ∧ (22250738585072014 : ℚ) * 10 ^ (-324 : Int) < 1 := by norm_num

set_option exponentiation.threshold 2000 in
theorem max_num : (17976931348623157 : ℚ) * 10 ^ (292 : Int) < 2 ^ 1024 - 2 ^ 970 ∧ (1 : ℚ) ≤ 17976931348623157 * 10 ^ (292 : Int) := by norm_num

set_option exponentiation.threshold 2000 in
theorem dbl_bounds : (2 : ℚ) ^ (-1022 : Int) < 1 ∧ (1 : ℚ) < 2 ^ 1024 - 2 ^ 971 ∧ (2 : ℚ) ^ 1024 - 2 ^ 971 < 2 ^ 1024 - 2 ^ 970 := by norm_num

theorem low_of_finite {b : Nat} (h : b < 2 ^ 63) (hf : Spec.Finite b) : b ≤ 2047 * 2 ^ 52 - 1 := by
  unfold Spec.Finite at hf; omega

theorem finite_of_low {b : Nat} (h : b ≤ 2047 * 2 ^ 52 - 1) : Spec.Finite b ∧ Spec.Finite (2 ^ 63 + b) := by
  unfold Spec.Finite; omega

/-- The text of a normal double denotes a number in the range of the normal doubles, below the point where rounding overflows. -/
theorem double_range {bits : Nat} (hb : bits < 2 ^ 64) (hf : Spec.Finite bits) (hm : 2 ^ (-1022 : Int) ≤ |doubleValue bits|) {t : Bytes}
    (h : fpToJson bits = .ok t) {x : ℚ} (hx : NumberValue t x) (hn : Nearest bits x) :
    2 ^ (-1022 : Int) ≤ |x| ∧ |x| < 2 ^ 1024 - 2 ^ 970 := by
  obtain ⟨b1, b2, b3⟩ := dbl_bounds
  have p0 : (0 : ℚ) < 2 ^ (-1022 : Int) := by positivity
  have vmin := doubleValue_pos (show 2 ^ 52 < 2 ^ 63 by decide)
  have vmax := doubleValue_pos (show 2047 * 2 ^ 52 - 1 < 2 ^ 63 by decide)
  have nmin := doubleValue_neg (show 2 ^ 52 < 2 ^ 63 by decide)
  have nmax := doubleValue_neg (show 2047 * 2 ^ 52 - 1 < 2 ^ 63 by decide)
  rw [magnitude_min] at vmin nmin
  rw [magnitude_max] at vmax nmax
  by_cases hs : bits < 2 ^ 63
  · have hl := low_of_finite hs hf
    have hv := doubleValue_pos hs
    rw [hv, abs_of_nonneg (magnitude_nonneg _)] at hm
    have hlo : 2 ^ 52 ≤ bits := by
      by_contra hc
      have := magnitude_lt (Nat.lt_of_not_le hc)
      rw [magnitude_min] at this
      exact absurd hm (not_le.2 this)
    have hge : 2 ^ (-1022 : Int) ≤ x := by
      rcases Nat.eq_or_lt_of_le hlo with e | hlt
      · subst e
        rw [print_min] at h
        cases h
        have := numberValue_unique hx (min_text false)
        rw [if_neg (by decide), one_mul] at this
        rw [this]; exact min_num.1
      · have k := magnitude_lt hlt
        rw [magnitude_min] at k
        have := hn (2 ^ 52) (by decide) (finite_of_low (by decide)).1 (by rw [vmin, hv]; exact ne_of_lt k)
        rw [hv, vmin] at this
        exact le_of_lt (nearer_above k this)
    have hlt : x < 2 ^ 1024 - 2 ^ 970 := by
      rcases Nat.eq_or_lt_of_le hl with e | hlt
      · subst e
        rw [print_max] at h
        cases h
        have := numberValue_unique hx (max_text false)
        rw [if_neg (by decide), one_mul] at this
        rw [this]; exact max_num.1
      · have k := magnitude_lt hlt
        rw [magnitude_max] at k
        have := hn (2047 * 2 ^ 52 - 1) (by decide) (finite_of_low (by decide)).1 (by rw [vmax, hv]; exact ne_of_gt k)
        rw [hv, vmax] at this
        exact lt_trans (nearer_below k this) b3
    rw [abs_of_pos (lt_of_lt_of_le p0 hge)]
    exact ⟨hge, hlt⟩
  · obtain ⟨l, rfl⟩ : ∃ l, bits = 2 ^ 63 + l := ⟨bits - 2 ^ 63, by omega⟩
    have hl63 : l < 2 ^ 63 := by omega
    have hl := low_of_finite hl63 (by unfold Spec.Finite at hf ⊢; omega)
    have hv := doubleValue_neg hl63
    rw [hv, abs_neg, abs_of_nonneg (magnitude_nonneg _)] at hm
    have hlo : 2 ^ 52 ≤ l := by
      by_contra hc
      have := magnitude_lt (Nat.lt_of_not_le hc)
      rw [magnitude_min] at this
      exact absurd hm (not_le.2 this)
    have hge : x ≤ -2 ^ (-1022 : Int) := by
      rcases Nat.eq_or_lt_of_le hlo with e | hlt
      · subst e
        rw [print_min_neg] at h
        cases h
        have := numberValue_unique hx (min_text true)
        rw [if_pos rfl, neg_one_mul] at this
        rw [this]; exact neg_le_neg min_num.1
      · have k := neg_lt_neg (magnitude_lt hlt)
        rw [magnitude_min] at k
        have := hn (2 ^ 63 + 2 ^ 52) (by decide) (finite_of_low (by decide)).2 (by rw [nmin, hv]; exact ne_of_gt k)
        rw [hv, nmin] at this
        exact le_of_lt (nearer_below k this)
    have hlt : -(2 ^ 1024 - 2 ^ 970) < x := by
      rcases Nat.eq_or_lt_of_le hl with e | hlt
      · subst e
        rw [print_max_neg] at h
        cases h
        have := numberValue_unique hx (max_text true)
        rw [if_pos rfl, neg_one_mul] at this
        rw [this]; exact neg_lt_neg max_num.1
      · have k := neg_lt_neg (magnitude_lt hlt)
        rw [magnitude_max] at k
        have := hn (2 ^ 63 + (2047 * 2 ^ 52 - 1)) (by decide) (finite_of_low (by decide)).2 (by rw [nmax, hv]; exact ne_of_lt k)
        rw [hv, nmax] at this
        exact lt_trans (neg_lt_neg b3) (nearer_above k this)
    rw [abs_of_neg (lt_of_le_of_lt hge (neg_neg_of_pos p0))]
    exact ⟨le_neg_of_le_neg hge, neg_lt_of_neg_lt hlt⟩

/-! ## Floats -/

def lastPlace32 (b : Nat) : Int := if b / 2 ^ 23 = 0 then -149 else (b / 2 ^ 23 : Nat) - 150

theorem magnitude32_succ (b : Nat) : magnitude32 (b + 1) = magnitude32 b + 2 ^ lastPlace32 b := by
  unfold magnitude32 lastPlace32
  have hm : b % 2 ^ 23 < 2 ^ 23 := Nat.mod_lt _ (by decide)
  by_cases hc : b % 2 ^ 23 + 1 < 2 ^ 23
  · have e1 : (b + 1) / 2 ^ 23 = b / 2 ^ 23 := by omega
    have e2 : (b + 1) % 2 ^ 23 = b % 2 ^ 23 + 1 := by omega
    rw [e1, e2]
    split
    · push_cast; ring
    · push_cast; ring
  · have e1 : (b + 1) / 2 ^ 23 = b / 2 ^ 23 + 1 := by omega
    have e2 : (b + 1) % 2 ^ 23 = 0 := by omega
    have e3 : b % 2 ^ 23 = 2 ^ 23 - 1 := by omega
    rw [e1, e2, e3, if_neg (by omega)]
    split
    · rename_i h
      rw [h]
      norm_num
    · have : ((b / 2 ^ 23 + 1 : Nat) - 150 : Int) = (b / 2 ^ 23 : Nat) - 150 + 1 := by push_cast; ring
      rw [this, zpow_add₀ (by norm_num)]
      norm_num
      ring

theorem magnitude32_lt {a b : Nat} (h : a < b) : magnitude32 a < magnitude32 b := by
  have : StrictMono magnitude32 := strictMono_nat_of_lt_succ (fun n => by
    rw [magnitude32_succ]
    have : (0 : ℚ) < 2 ^ lastPlace32 n := by positivity
    linarith)
  exact this h

theorem magnitude32_zero : magnitude32 0 = 0 := by simp [magnitude32]

theorem magnitude32_nonneg (b : Nat) : 0 ≤ magnitude32 b := by
  rcases Nat.eq_zero_or_pos b with rfl | h
  · rw [magnitude32_zero]
  · rw [← magnitude32_zero]; exact le_of_lt (magnitude32_lt h)

theorem magnitude32_min : magnitude32 (2 ^ 23) = 2 ^ (-126 : Int) := by
  unfold magnitude32; norm_num

theorem magnitude32_max : magnitude32 (255 * 2 ^ 23 - 1) = 2 ^ 128 - 2 ^ 104 := by
  unfold magnitude32; norm_num

theorem floatValue_pos {b : Nat} (h : b < 2 ^ 31) : floatValue b = magnitude32 b := by
  unfold floatValue
  rw [if_neg (by omega), Nat.mod_eq_of_lt h, one_mul]

theorem floatValue_neg {b : Nat} (h : b < 2 ^ 31) : floatValue (2 ^ 31 + b) = -magnitude32 b := by
  unfold floatValue
  rw [if_pos (by omega), show (2 ^ 31 + b) % 2 ^ 31 = b by omega, neg_one_mul]

theorem print_fmax : fpToJson (widenFloat (255 * 2 ^ 23 - 1)) = .ok (str "3.4028234663852886e+38") := by decide +kernel
theorem print_fmax_neg : fpToJson (widenFloat (2 ^ 31 + (255 * 2 ^ 23 - 1))) = .ok (str "-3.4028234663852886e+38") := by decide +kernel

theorem fmax_text (neg : Bool) : NumberValue (if neg then str "-3.4028234663852886e+38" else str "3.4028234663852886e+38")
    ((if neg then -1 else 1) * (34028234663852886 * 10 ^ (22 : Int))) := by
  have := numberValue_text (neg := neg) (int := str "3") (fd := str "4028234663852886") (d := str "38") (sg := [43])
    ⟨by decide, by decide⟩ (by decide) ⟨by decide, by decide⟩ ⟨by decide, by decide⟩ (.inl rfl)
  have e1 : decVal (str "3" ++ str "4028234663852886") = 34028234663852886 := by decide +kernel
  have e2 : decVal (str "38") = 38 := by decide +kernel
  have e3 : (str "4028234663852886").length = 16 := by decide
  rw [e1, e2, e3, if_neg (show ¬ ([43] : Bytes) = [45] by decide)] at this
  cases neg <;> exact this

theorem fmax_num : (34028234663852886 : ℚ) * 10 ^ (22 : Int) < 2 ^ 128 - 2 ^ 103 := by norm_num

theorem low_of_finite32 {b : Nat} (h : b < 2 ^ 31) (hf : Finite32 b) : b ≤ 255 * 2 ^ 23 - 1 := by
  unfold Finite32 at hf; omega

theorem finite32_of_low {b : Nat} (h : b ≤ 255 * 2 ^ 23 - 1) : Finite32 b ∧ Finite32 (2 ^ 31 + b) := by
  unfold Finite32; omega

/-- The text of a float above the smallest normal one denotes a number in the range of the normal floats, below the point where rounding
overflows. -/
theorem float_range {bits : Nat} (hb : bits < 2 ^ 32) (hf : Finite32 bits) (hm : 2 ^ (-126 : Int) < |floatValue bits|) {t : Bytes}
    (h : fpToJson (widenFloat bits) = .ok t) {x : ℚ} (hx : NumberValue t x) (hn : Nearest32 bits x) :
    2 ^ (-126 : Int) ≤ |x| ∧ |x| < 2 ^ 128 - 2 ^ 103 := by
  have b3 : (2 : ℚ) ^ 128 - 2 ^ 104 < 2 ^ 128 - 2 ^ 103 := by norm_num
  have p0 : (0 : ℚ) < 2 ^ (-126 : Int) := by positivity
  have vmin := floatValue_pos (show 2 ^ 23 < 2 ^ 31 by decide)
  have vmax := floatValue_pos (show 255 * 2 ^ 23 - 1 < 2 ^ 31 by decide)
  have nmin := floatValue_neg (show 2 ^ 23 < 2 ^ 31 by decide)
  have nmax := floatValue_neg (show 255 * 2 ^ 23 - 1 < 2 ^ 31 by decide)
  rw [magnitude32_min] at vmin nmin
  rw [magnitude32_max] at vmax nmax
  by_cases hs : bits < 2 ^ 31
  · have hl := low_of_finite32 hs hf
    have hv := floatValue_pos hs
    rw [hv, abs_of_nonneg (magnitude32_nonneg _)] at hm
    have hge : 2 ^ (-126 : Int) < x := by
      have := hn (2 ^ 23) (by decide) (finite32_of_low (by decide)).1 (by rw [vmin, hv]; exact ne_of_lt hm)
      rw [hv, vmin] at this
      exact nearer_above hm this
    have hlt : x < 2 ^ 128 - 2 ^ 103 := by
      rcases Nat.eq_or_lt_of_le hl with e | hlt
      · subst e
        rw [print_fmax] at h
        cases h
        have := numberValue_unique hx (fmax_text false)
        rw [if_neg (by decide), one_mul] at this
        rw [this]; exact fmax_num
      · have k := magnitude32_lt hlt
        rw [magnitude32_max] at k
        have := hn (255 * 2 ^ 23 - 1) (by decide) (finite32_of_low (by decide)).1 (by rw [vmax, hv]; exact ne_of_gt k)
        rw [hv, vmax] at this
        exact lt_trans (nearer_below k this) b3
    rw [abs_of_pos (lt_trans p0 hge)]
    exact ⟨le_of_lt hge, hlt⟩
  · obtain ⟨l, rfl⟩ : ∃ l, bits = 2 ^ 31 + l := ⟨bits - 2 ^ 31, by omega⟩
    have hl31 : l < 2 ^ 31 := by omega
    have hl := low_of_finite32 hl31 (by unfold Finite32 at hf ⊢; omega)
    have hv := floatValue_neg hl31
    rw [hv, abs_neg, abs_of_nonneg (magnitude32_nonneg _)] at hm
    have k := neg_lt_neg hm
    have hge : x < -2 ^ (-126 : Int) := by
      have := hn (2 ^ 31 + 2 ^ 23) (by decide) (finite32_of_low (by decide)).2 (by rw [nmin, hv]; exact ne_of_gt k)
      rw [hv, nmin] at this
      exact nearer_below k this
    have hlt : -(2 ^ 128 - 2 ^ 103) < x := by
      rcases Nat.eq_or_lt_of_le hl with e | hlt
      · subst e
        rw [print_fmax_neg] at h
        cases h
        have := numberValue_unique hx (fmax_text true)
        rw [if_pos rfl, neg_one_mul] at this
        rw [this]; exact neg_lt_neg fmax_num
      · have k := neg_lt_neg (magnitude32_lt hlt)
        rw [magnitude32_max] at k
        have := hn (2 ^ 31 + (255 * 2 ^ 23 - 1)) (by decide) (finite32_of_low (by decide)).2 (by rw [nmax, hv]; exact ne_of_lt k)
        rw [hv, nmax] at this
        exact lt_trans (neg_lt_neg b3) (nearer_above k this)
    rw [abs_of_neg (lt_trans hge (neg_neg_of_pos p0))]
    exact ⟨le_neg_of_le_neg (le_of_lt hge), neg_lt_of_neg_lt hlt⟩

end Abieos
