import Verif.Proofs.GrisuDigits
import Mathlib.Algebra.Order.Field.Rat
import Mathlib.Algebra.Order.Field.Power
import Mathlib.Tactic.FieldSimp
import Mathlib.Tactic.Positivity
/-
The decimal number Grisu2 prints lies strictly between the midpoints around the double.
-/
namespace Abieos

theorem zpow_split (b : ℚ) (hb : 0 < b) (k : Int) : b ^ k * b ^ (-k).toNat = b ^ k.toNat := by
  rw [← zpow_natCast, ← zpow_natCast, ← zpow_add₀ (ne_of_gt hb)]
  congr 1
  omega

/-- Entry `i` of the table against the power of ten, as rational numbers. -/
theorem power_near {i : Nat} (hi : i < 87) : ∀ {p : Fp} {k : Int}, p = powersTen.getD i default → k = -348 + i * 8 →
    2 ^ 63 ≤ p.frac ∧ p.frac < 2 ^ 64 ∧ (2 * p.frac - 1 : ℚ) * 2 ^ p.exp ≤ 2 * 10 ^ k ∧ (2 : ℚ) * 10 ^ k ≤ (2 * p.frac + 1) * 2 ^ p.exp := by
  rintro p k rfl rfl
  have h := powers_ok ⟨i, hi⟩
  unfold powerOk at h
  simp only [decide_eq_true_eq] at h
  generalize powersTen.getD i default = p at h ⊢
  generalize (-348 + (i : Int) * 8) = k at h ⊢
  obtain ⟨h1, h2, h3, h4⟩ := h
  refine ⟨h1, h2, ?_, ?_⟩
  all_goals
    have a1 := zpow_split 10 (by norm_num) k
    have a2 := zpow_split 2 (by norm_num) p.exp
    have hs : (0 : ℚ) < 10 ^ (-k).toNat * 2 ^ (-p.exp).toNat := by positivity
    refine le_of_mul_le_mul_right ?_ hs
    have h3' : (2 * (p.frac * (2 ^ p.exp.toNat * 10 ^ (-k).toNat)) : ℚ) ≤ 2 * (10 ^ k.toNat * 2 ^ (-p.exp).toNat) + 2 ^ p.exp.toNat * 10 ^ (-k).toNat := by exact_mod_cast h3
    have h4' : (2 * (10 ^ k.toNat * 2 ^ (-p.exp).toNat) : ℚ) ≤ 2 * (p.frac * (2 ^ p.exp.toNat * 10 ^ (-k).toNat)) + 2 ^ p.exp.toNat * 10 ^ (-k).toNat := by exact_mod_cast h4
    rw [← a1, ← a2] at h3' h4'
    linarith

theorem between_rat {sh u l D : Nat} {κ : Int} (h : Between sh u l D κ) :
    (l : ℚ) ≤ D * 10 ^ κ * 2 ^ sh ∧ (D * 10 ^ κ * 2 ^ sh : ℚ) ≤ u := by
  obtain ⟨-, -, h3, h4⟩ := h
  have a1 := zpow_split 10 (by norm_num) κ
  have hs : (0 : ℚ) < 10 ^ (-κ).toNat := by positivity
  have h3' : (l * 10 ^ (-κ).toNat : ℚ) ≤ D * 10 ^ κ.toNat * 2 ^ sh := by exact_mod_cast h3
  have h4' : (D * 10 ^ κ.toNat * 2 ^ sh : ℚ) ≤ u * 10 ^ (-κ).toNat := by exact_mod_cast h4
  rw [← a1] at h3' h4'
  constructor
  · refine le_of_mul_le_mul_right ?_ hs; linarith
  · refine le_of_mul_le_mul_right ?_ hs; linarith

/-- Numbers inside the scaled and shrunk interval are inside the true one. -/
theorem inside {U L C : Nat} {eu pe k κ : Int} {D : Nat} (hU : U < 2 ^ 64) (hL : L < 2 ^ 64) (he : eu + pe + 64 ≤ 0)
    (hC1 : (2 * C - 1 : ℚ) * 2 ^ pe ≤ 2 * 10 ^ k) (hC2 : (2 : ℚ) * 10 ^ k ≤ (2 * C + 1) * 2 ^ pe)
    (hl : (((L * C + 2 ^ 63) / 2 ^ 64 + 1 : Nat) : ℚ) ≤ D * 10 ^ κ * 2 ^ (-(eu + pe + 64)).toNat)
    (hu : (D * 10 ^ κ * 2 ^ (-(eu + pe + 64)).toNat : ℚ) + 1 ≤ ((U * C + 2 ^ 63) / 2 ^ 64 : Nat)) :
    (L : ℚ) * 2 ^ eu < D * 10 ^ (-k + κ) ∧ (D * 10 ^ (-k + κ) : ℚ) < U * 2 ^ eu := by
  have hs : (0 : ℚ) < 10 ^ k := by positivity
  have h2e : (0 : ℚ) < 2 ^ eu := by positivity
  have e1 : (10 : ℚ) ^ (-k + κ) * 10 ^ k = 10 ^ κ := by
    rw [← zpow_add₀ (by norm_num)]; congr 1; ring
  generalize hsh : (-(eu + pe + 64)).toNat = sh at hl hu
  have e2 : (2 : ℚ) ^ eu * 2 ^ pe * 2 ^ sh * 2 ^ 64 = 1 := by
    rw [← zpow_natCast, ← zpow_natCast (2 : ℚ) 64, ← zpow_add₀ (by norm_num), ← zpow_add₀ (by norm_num), ← zpow_add₀ (by norm_num)]
    rw [show eu + pe + (sh : Int) + ((64 : Nat) : Int) = 0 by push_cast; omega, zpow_zero]
  have hsp : (0 : ℚ) < 2 ^ sh := by positivity
  have d1 : (L * C + 2 ^ 63 : Nat) < 2 ^ 64 * ((L * C + 2 ^ 63) / 2 ^ 64 + 1) := Nat.lt_mul_div_succ _ (by norm_num)
  have d2 : 2 ^ 64 * ((U * C + 2 ^ 63) / 2 ^ 64) ≤ (U * C + 2 ^ 63 : Nat) := Nat.mul_div_le _ _
  have d1' : (L * C + 2 ^ 63 : ℚ) < 2 ^ 64 * ((((L * C + 2 ^ 63) / 2 ^ 64 + 1 : Nat)) : ℚ) := by exact_mod_cast d1
  have d2' : (2 ^ 64 * ((((U * C + 2 ^ 63) / 2 ^ 64 : Nat)) : ℚ)) ≤ (U * C + 2 ^ 63 : ℚ) := by exact_mod_cast d2
  generalize ((((L * C + 2 ^ 63) / 2 ^ 64 + 1 : Nat)) : ℚ) = l at hl d1'
  generalize ((((U * C + 2 ^ 63) / 2 ^ 64 : Nat)) : ℚ) = u at hu d2'
  have hU' : (U : ℚ) < 2 ^ 64 := by exact_mod_cast hU
  have hL' : (L : ℚ) < 2 ^ 64 := by exact_mod_cast hL
  have e63 : (2 : ℚ) ^ 63 = 2 ^ 64 / 2 := by norm_num
  have hPpos : (0 : ℚ) < 2 ^ 64 := by positivity
  rw [e63] at d1' d2'
  generalize (2 : ℚ) ^ 64 = P at *
  have hm : (0 : ℚ) < 10 ^ k * (2 ^ sh * P) := by positivity
  have hq : (0 : ℚ) ≤ 2 ^ eu * 2 ^ sh * P := by positivity
  constructor
  · refine lt_of_mul_lt_mul_right ?_ (le_of_lt hm)
    have h1 : (L : ℚ) * 2 ^ eu * (10 ^ k * (2 ^ sh * P)) * 2 ≤ L * (2 * C + 1) := by
      calc (L : ℚ) * 2 ^ eu * (10 ^ k * (2 ^ sh * P)) * 2 = ((2 : ℚ) * 10 ^ k) * (L * (2 ^ eu * 2 ^ sh * P)) := by ring
        _ ≤ ((2 * C + 1) * 2 ^ pe) * (L * (2 ^ eu * 2 ^ sh * P)) := mul_le_mul_of_nonneg_right hC2 (by positivity)
        _ = (L : ℚ) * (2 * C + 1) * (2 ^ eu * 2 ^ pe * 2 ^ sh * P) := by ring
        _ = _ := by rw [e2, mul_one]
    have h2 : (D : ℚ) * 10 ^ (-k + κ) * (10 ^ k * (2 ^ sh * P)) = D * 10 ^ κ * 2 ^ sh * P := by rw [← e1]; ring
    rw [h2]
    have h3 : P * l ≤ P * (D * 10 ^ κ * 2 ^ sh) := mul_le_mul_of_nonneg_left hl (le_of_lt hPpos)
    linarith
  · refine lt_of_mul_lt_mul_right ?_ (le_of_lt hm)
    have h1 : (U : ℚ) * (2 * C - 1) ≤ U * 2 ^ eu * (10 ^ k * (2 ^ sh * P)) * 2 := by
      calc (U : ℚ) * (2 * C - 1) = U * (2 * C - 1) * (2 ^ eu * 2 ^ pe * 2 ^ sh * P) := by rw [e2, mul_one]
        _ = ((2 * C - 1) * 2 ^ pe) * (U * (2 ^ eu * 2 ^ sh * P)) := by ring
        _ ≤ (2 * 10 ^ k) * (U * (2 ^ eu * 2 ^ sh * P)) := mul_le_mul_of_nonneg_right hC1 (by positivity)
        _ = _ := by ring
    have h2 : (D : ℚ) * 10 ^ (-k + κ) * (10 ^ k * (2 ^ sh * P)) = D * 10 ^ κ * 2 ^ sh * P := by rw [← e1]; ring
    rw [h2]
    have h3 : P * (D * 10 ^ κ * 2 ^ sh + 1) ≤ P * u := mul_le_mul_of_nonneg_left hu (le_of_lt hPpos)
    linarith

/-- The fraction and exponent of a finite nonzero double are in range. -/
theorem buildFp_normal {bits : Nat} (h0 : bits % 2 ^ 63 ≠ 0) (h1 : bits / 2 ^ 52 % 2 ^ 11 ≠ 2047) :
    ∃ j, Normal (buildFp bits) j ∧ -1137 ≤ (buildFp bits).exp - j - 11 ∧ (buildFp bits).exp - j - 11 ≤ 960 := by
  have hm : bits % 2 ^ 52 < 2 ^ 52 := Nat.mod_lt _ (by decide)
  have hm' : bits / 2 ^ 52 % 2 ^ 11 < 2 ^ 11 := Nat.mod_lt _ (by decide)
  unfold buildFp
  simp only
  split
  · rename_i he
    refine ⟨0, ⟨?_, ?_, by omega, ?_, ?_⟩, ?_, ?_⟩ <;> simp only [hiddenbit, pow_zero] <;> omega
  · rename_i he
    have hf : bits % 2 ^ 52 ≠ 0 := by omega
    obtain ⟨j, hj1, hj2, hj3⟩ := norm_shift hf (by omega)
    exact ⟨j, ⟨hf, by simp only; omega, hj1, hj2, hj3⟩, by simp only; omega, by simp only; omega⟩

/-- The scaled interval is wide enough and `generate_digits` works on it. -/
theorem range_scaled {U L W C sh : Nat} (hU : U < 2 ^ 64) (hU' : 2 ^ 63 ≤ U) (hC : C < 2 ^ 64) (hC' : 2 ^ 63 ≤ C) (hsh : sh ≤ 60)
    (hLW : L + 512 ≤ W) (hWU : W + 1024 ≤ U) (hG : U < 2 ^ 53 * (U - L)) :
    Range sh ((U * C + 2 ^ 63) / 2 ^ 64 - 1) ((L * C + 2 ^ 63) / 2 ^ 64 + 1) ∧
      (L * C + 2 ^ 63) / 2 ^ 64 + 1 ≤ (W * C + 2 ^ 63) / 2 ^ 64 ∧ (W * C + 2 ^ 63) / 2 ^ 64 ≤ (U * C + 2 ^ 63) / 2 ^ 64 - 1 ∧
      (U * C + 2 ^ 63) / 2 ^ 64 < 2 ^ 64 ∧ 0 < (U * C + 2 ^ 63) / 2 ^ 64 ∧ (L * C + 2 ^ 63) / 2 ^ 64 + 1 < 2 ^ 64 := by
  have a1 : U * C ≤ (2 ^ 64 - 1) * (2 ^ 64 - 1) := Nat.mul_le_mul (by omega) (by omega)
  have a2 : 2 ^ 63 * 2 ^ 63 ≤ U * C := Nat.mul_le_mul hU' hC'
  have a3 : L * C + 512 * C ≤ W * C := by rw [← Nat.add_mul]; exact Nat.mul_le_mul_right _ hLW
  have a4 : W * C + 1024 * C ≤ U * C := by rw [← Nat.add_mul]; exact Nat.mul_le_mul_right _ hWU
  have a5 : U * C ≤ 2 ^ 53 * ((U - L) * C) := by rw [← Nat.mul_assoc]; exact Nat.mul_le_mul_right _ (by omega)
  have a6 : (U - L) * C = U * C - L * C := Nat.sub_mul _ _ _
  have hp : 2 ^ sh ≤ 2 ^ 60 := Nat.pow_le_pow_right (by decide) hsh
  generalize U * C = x at *
  generalize L * C = y at *
  generalize W * C = z at *
  clear hU hU' hG hLW hWU
  refine ⟨⟨hsh, ?_, ?_, ?_, ?_, ?_, ?_⟩, ?_, ?_, ?_, ?_, ?_⟩ <;> norm_num at * <;> omega

/-- `grisu2` succeeds on every finite nonzero double, with the at most 17 digits of a number that is strictly between the midpoints to the
two neighbours. -/
theorem grisu2_ok {bits : Nat} (h0 : bits % 2 ^ 63 ≠ 0) (h1 : bits / 2 ^ 52 % 2 ^ 11 ≠ 2047) :
    ∃ D K, grisu2 bits = .ok ((repr10 D).reverse, K) ∧ 0 < D ∧ D < 10 ^ 17 ∧
      ((buildFp bits).frac * 2 ^ lShift (buildFp bits) - 1 : ℚ) * 2 ^ ((buildFp bits).exp - lShift (buildFp bits)) < D * 10 ^ K ∧
      (D * 10 ^ K : ℚ) < (2 * (buildFp bits).frac + 1) * 2 ^ ((buildFp bits).exp - 1) := by
  obtain ⟨j, hN, he1, he2⟩ := buildFp_normal h0 h1
  generalize hfp : buildFp bits = fp at *
  obtain ⟨p, k, hc, i, hi, hp, hk, hx1, hx2⟩ := findCachedPow10_ok he1 he2
  obtain ⟨hC1, hC2, hC3, hC4⟩ := power_near hi hp hk
  have hlt := hN.lt; have hlo := hN.lo; have hhi := hN.hi; have hpos := hN.pos
  have hls : lShift fp = 1 ∨ (lShift fp = 2 ∧ fp.frac = 2 ^ 52 ∧ j = 0) := by
    unfold lShift
    split
    · rename_i hf
      right
      refine ⟨rfl, hf, ?_⟩
      rw [hf, hiddenbit] at hhi
      by_contra hj
      have : 2 ^ 1 ≤ 2 ^ j := Nat.pow_le_pow_right (by decide) (by omega)
      have : 2 ^ 52 * 2 ^ 1 ≤ 2 ^ 52 * 2 ^ j := Nat.mul_le_mul_left _ this
      omega
    · exact .inl rfl
  generalize hlsd : lShift fp = ls at *
  -- the three numbers
  have hj0 : 0 < 2 ^ j := by positivity
  have hfls : 0 < fp.frac * 2 ^ ls := by positivity
  have eU : (2 * fp.frac + 1) * 2 ^ (j + 10) = 2 ^ 11 * (fp.frac * 2 ^ j) + 2 ^ 10 * 2 ^ j := by rw [pow_add]; ring
  have eW : fp.frac * 2 ^ (j + 11) = 2 ^ 11 * (fp.frac * 2 ^ j) := by rw [pow_add]; ring
  have eL : (fp.frac * 2 ^ ls - 1) * 2 ^ (j + 11 - ls) + 2 ^ (j + 11 - ls) = 2 ^ 11 * (fp.frac * 2 ^ j) := by
    rw [← Nat.succ_mul, Nat.succ_eq_add_one, Nat.sub_add_cancel hfls, Nat.mul_assoc, ← pow_add, show ls + (j + 11 - ls) = j + 11 by omega, pow_add]
    ring
  have hup : fp.frac * 2 ^ j + 2 ^ j ≤ 2 ^ 53 := by
    have hd : 2 ^ j ∣ 2 ^ 53 := pow_dvd_pow 2 (by have := hN.j_le; omega)
    obtain ⟨q, hq⟩ := hd
    rw [hq, Nat.mul_comm (2 ^ j) q] at hhi ⊢
    have hfq : fp.frac < q := lt_of_mul_lt_mul_right hhi (Nat.zero_le _)
    rw [← Nat.succ_mul]
    exact Nat.mul_le_mul_right _ hfq
  have hl9 : 2 ^ 9 * 2 ^ j ≤ 2 ^ (j + 11 - ls) := by rw [← pow_add]; exact Nat.pow_le_pow_right (by decide) (by omega)
  generalize hU : (2 * fp.frac + 1) * 2 ^ (j + 10) = U at *
  generalize hL : (fp.frac * 2 ^ ls - 1) * 2 ^ (j + 11 - ls) = L at *
  generalize hW : fp.frac * 2 ^ (j + 11) = W at *
  have hU64 : U < 2 ^ 64 := by omega
  have hU63 : 2 ^ 63 ≤ U := by omega
  have hLW : L + 512 ≤ W := by omega
  have hWU : W + 1024 ≤ U := by omega
  have hG : U < 2 ^ 53 * (U - L) := by
    rcases hls with rfl | ⟨rfl, hf, rfl⟩
    · rw [show j + 11 - 1 = j + 10 by omega, pow_add] at eL
      omega
    · rw [hf] at eU eW eL hup; norm_num at eU eW eL; omega
  obtain ⟨R, g1, g2, g3, g4, g5⟩ := range_scaled (sh := (-(fp.exp - j - 11 + p.exp + 64)).toNat) hU64 hU63 hC2 hC1 (by omega) hLW hWU hG
  obtain ⟨D, κ, hgen, hbt⟩ := generateDigits_ok (e := fp.exp - j - 11 + p.exp + 64) (ew := fp.exp - j - 11 + p.exp + 64)
    (el := fp.exp - j - 11 + p.exp + 64) hx1 hx2 R g1 g2
  refine ⟨D, -k + κ, ?_, hbt.1, hbt.2.1, ?_⟩
  · unfold grisu2
    simp only
    rw [hfp, upperBoundary_eq hN, bind_ok, lowerBoundary_eq hN, normalizeFp_eq hN, bind_ok]
    simp only [hlsd, hU, hL, hW]
    rw [hc, bind_ok]
    simp only
    rw [multiplyFp_frac (a := ⟨U, _⟩) hU64 hC2, multiplyFp_frac (a := ⟨L, _⟩) (by simp only; omega) hC2, multiplyFp_frac (a := ⟨W, _⟩) (by simp only; omega) hC2]
    simp only
    rw [u64_add_sub g3 (by omega), u64_lt g5, hgen, bind_ok]
  · obtain ⟨b1, b2⟩ := between_rat hbt
    have b2' : (D * 10 ^ κ * 2 ^ (-(fp.exp - j - 11 + p.exp + 64)).toNat : ℚ) + 1 ≤ ((U * p.frac + 2 ^ 63) / 2 ^ 64 : Nat) := by
      have : (((U * p.frac + 2 ^ 63) / 2 ^ 64 : Nat) : ℚ) = (((U * p.frac + 2 ^ 63) / 2 ^ 64 - 1 : Nat) : ℚ) + 1 := by
        exact_mod_cast (Nat.sub_add_cancel g4).symm
      rw [this]; linarith
    have hin := inside (L := L) (k := k) hU64 (by omega) (by omega) hC3 hC4 b1 b2'
    have v1 : (L : ℚ) * 2 ^ (fp.exp - j - 11) = (fp.frac * 2 ^ ls - 1 : ℚ) * 2 ^ (fp.exp - ls) := by
      rw [← hL]
      push_cast [Nat.cast_sub (show 1 ≤ fp.frac * 2 ^ ls from hfls)]
      rw [mul_assoc, ← zpow_natCast (2 : ℚ) (j + 11 - ls), ← zpow_add₀ (by norm_num)]
      congr 2
      omega
    have v2 : (U : ℚ) * 2 ^ (fp.exp - j - 11) = (2 * fp.frac + 1 : ℚ) * 2 ^ (fp.exp - 1) := by
      rw [← hU]
      push_cast
      rw [mul_assoc, ← zpow_natCast (2 : ℚ) (j + 10), ← zpow_add₀ (by norm_num)]
      congr 2
      push_cast
      ring
    rw [v1, v2] at hin
    exact hin

end Abieos
