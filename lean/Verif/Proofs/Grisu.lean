import Verif.Model.Fpconv
import Mathlib.Tactic.Linarith
import Mathlib.Tactic.Ring
import Mathlib.Tactic.NormNum
import Mathlib.Data.Nat.Bitwise
/-
Arithmetic of Grisu2 without wrap-around: normalization, the product, the choice of the power of ten.
-/
namespace Abieos

theorem u64_lt {n : Nat} (h : n < 2 ^ 64) : u64 n = n := Nat.mod_eq_of_lt h

theorem u64_add_sub {a b : Nat} (ha : a < 2 ^ 64) (hb : b ≤ a) : u64 (a + 2 ^ 64 - b) = a - b := by
  unfold u64
  have : a + 2 ^ 64 - b = (a - b) + 2 ^ 64 := by omega
  rw [this, Nat.add_mod_right, Nat.mod_eq_of_lt (by omega)]

/-! ## Normalization -/

theorem and_pow_zero {f b : Nat} (h : f < 2 ^ b) : f &&& 2 ^ b = 0 := by
  rw [Nat.and_two_pow, Nat.testBit_lt_two_pow h]; simp

theorem and_pow_ne {f b : Nat} (h : 2 ^ b ≤ f) (h' : f < 2 ^ (b + 1)) : f &&& 2 ^ b ≠ 0 := by
  rw [Nat.and_two_pow]
  have : f.testBit b = true := by
    rw [Nat.testBit_eq_decide_div_mod_eq]
    have h1 : f / 2 ^ b = 1 := by
      rw [Nat.div_eq_iff (by positivity)]
      rw [pow_succ] at h'; omega
    simp [h1]
  rw [this]
  simp

theorem shiftUp_eq {b : Nat} (hb : b < 63) : ∀ (j fuel f : Nat) (e : Int), j < fuel → 2 ^ b ≤ f * 2 ^ j → f * 2 ^ j < 2 ^ (b + 1) →
    shiftUp (2 ^ b) fuel ⟨f, e⟩ = .ok ⟨f * 2 ^ j, e - j⟩
  | 0, fuel + 1, f, e, _, h1, h2 => by
    rw [shiftUp, if_neg (and_pow_ne (by simpa using h1) (by simpa using h2))]; simp
  | j + 1, fuel + 1, f, e, hf, h1, h2 => by
    have hlt : f < 2 ^ b := by
      have : f * 2 ^ (j + 1) = (f * 2) * 2 ^ j := by ring
      have h3 : 1 ≤ 2 ^ j := Nat.one_le_two_pow
      have h4 : f * 2 * 1 ≤ f * 2 * 2 ^ j := Nat.mul_le_mul_left _ h3
      have h5 : 2 ^ (b + 1) = 2 * 2 ^ b := by ring
      omega
    rw [shiftUp, if_pos (by simpa using and_pow_zero hlt)]
    have h64 : f <<< 1 < 2 ^ 64 := by
      rw [Nat.shiftLeft_eq]
      have : 2 ^ b < 2 ^ 63 := Nat.pow_lt_pow_right (by decide) hb
      omega
    rw [u64_lt h64, Nat.shiftLeft_eq]
    have e1 : f * 2 ^ 1 * 2 ^ j = f * 2 ^ (j + 1) := by ring
    rw [shiftUp_eq hb j fuel (f * 2 ^ 1) (e - 1) (by omega) (by rw [e1]; exact h1) (by rw [e1]; exact h2), e1]
    congr 2
    push_cast; ring

/-- The shift that normalizes a fraction of at most 53 bits. -/
theorem norm_shift {f : Nat} (h0 : f ≠ 0) (h : f < 2 ^ 53) : ∃ j, j ≤ 52 ∧ 2 ^ 52 ≤ f * 2 ^ j ∧ f * 2 ^ j < 2 ^ 53 := by
  refine ⟨52 - f.log2, by omega, ?_, ?_⟩
  · have h1 := Nat.log2_self_le h0
    have h2 : f.log2 < 53 := (Nat.log2_lt h0).2 h
    calc 2 ^ 52 = 2 ^ f.log2 * 2 ^ (52 - f.log2) := by rw [← pow_add]; congr 1; omega
      _ ≤ _ := Nat.mul_le_mul_right _ h1
  · have h1 := Nat.lt_log2_self (n := f)
    have h2 : f.log2 < 53 := (Nat.log2_lt h0).2 h
    calc f * 2 ^ (52 - f.log2) < 2 ^ (f.log2 + 1) * 2 ^ (52 - f.log2) := Nat.mul_lt_mul_of_pos_right h1 (by positivity)
      _ = 2 ^ 53 := by rw [← pow_add]; congr 1; omega

/-- The fraction and the exponent of a finite nonzero double. -/
structure Normal (fp : Fp) (j : Nat) : Prop where
  pos : fp.frac ≠ 0
  lt : fp.frac < 2 ^ 53
  j_le : j ≤ 52
  lo : 2 ^ 52 ≤ fp.frac * 2 ^ j
  hi : fp.frac * 2 ^ j < 2 ^ 53

theorem normalizeFp_eq {fp : Fp} {j : Nat} (h : Normal fp j) : normalizeFp fp = .ok ⟨fp.frac * 2 ^ (j + 11), fp.exp - j - 11⟩ := by
  obtain ⟨f, e⟩ := fp
  have := shiftUp_eq (b := 52) (by decide) j 64 f e (by have := h.j_le; omega) h.lo h.hi
  unfold normalizeFp
  rw [hiddenbit, this]
  have h1 := h.hi
  simp only at h1
  show Except.ok (Fp.mk (u64 ((f * 2 ^ j) <<< 11)) (e - j - 11)) = _
  rw [u64_lt (by rw [Nat.shiftLeft_eq]; omega), Nat.shiftLeft_eq, Nat.mul_assoc, ← pow_add]

theorem upperBoundary_eq {fp : Fp} {j : Nat} (h : Normal fp j) :
    upperBoundary fp = .ok ⟨(2 * fp.frac + 1) * 2 ^ (j + 10), fp.exp - j - 11⟩ := by
  obtain ⟨f, e⟩ := fp
  have h0 := h.lt; have h1 := h.lo; have h2 := h.hi; have h3 := h.j_le
  simp only at h0 h1 h2
  unfold upperBoundary
  have e1 : u64 (f <<< 1) = 2 * f := by rw [u64_lt (by rw [Nat.shiftLeft_eq]; omega), Nat.shiftLeft_eq]; ring
  have hlo : 2 ^ 53 ≤ (2 * f + 1) * 2 ^ j := by nlinarith
  have hhi : (2 * f + 1) * 2 ^ j < 2 ^ 54 := by
    have hf : (f + 1) * 2 ^ j ≤ 2 ^ 53 := by
      have hd : 2 ^ j ∣ 2 ^ 53 := pow_dvd_pow 2 (by omega)
      obtain ⟨q, hq⟩ := hd
      rw [hq] at h2 ⊢
      have : f < q := by
        by_contra hc
        have := Nat.mul_le_mul_left (2 ^ j) (Nat.le_of_not_lt hc)
        rw [Nat.mul_comm f] at h2; omega
      calc (f + 1) * 2 ^ j ≤ q * 2 ^ j := Nat.mul_le_mul_right _ this
        _ = _ := Nat.mul_comm _ _
    have hp : 0 < 2 ^ j := by positivity
    have e2 : (2 * f + 1) * 2 ^ j + 2 ^ j = 2 * ((f + 1) * 2 ^ j) := by ring
    omega
  have := shiftUp_eq (b := 53) (by decide) j 64 (2 * f + 1) (e - 1) (by omega) hlo hhi
  simp only
  rw [e1, u64_lt (by omega), hiddenbit, show (2 ^ 52) <<< 1 = 2 ^ 53 by rfl, this]
  show Except.ok (Fp.mk (u64 (((2 * f + 1) * 2 ^ j) <<< 10)) (e - 1 - j - 10)) = _
  rw [u64_lt (by rw [Nat.shiftLeft_eq]; omega), Nat.shiftLeft_eq, Nat.mul_assoc, ← pow_add]
  congr 2
  omega

theorem lowerBoundary_eq {fp : Fp} {j : Nat} (h : Normal fp j) :
    lowerBoundary fp ⟨(2 * fp.frac + 1) * 2 ^ (j + 10), fp.exp - j - 11⟩ =
      ⟨(fp.frac * 2 ^ lShift fp - 1) * 2 ^ (j + 11 - lShift fp), fp.exp - j - 11⟩ := by
  obtain ⟨f, e⟩ := fp
  have h0 := h.lt; have h1 := h.lo; have h2 := h.hi; have h3 := h.j_le; have h4 := h.pos
  simp only at h0 h1 h2 h4
  unfold lowerBoundary
  have hl : lShift ⟨f, e⟩ = 1 ∨ lShift ⟨f, e⟩ = 2 := by unfold lShift; split <;> simp
  generalize lShift ⟨f, e⟩ = ls at hl ⊢
  have hls : 1 ≤ ls ∧ ls ≤ 2 := by omega
  simp only
  have hp : f * 2 ^ ls ≤ f * 4 := Nat.mul_le_mul_left _ (by rcases hl with rfl | rfl <;> decide)
  have hq : 0 < f * 2 ^ ls := by positivity
  have e0 : (e - (ls : Int) - (e - j - 11)).toNat = j + 11 - ls := by omega
  rw [e0, Nat.shiftLeft_eq f ls, u64_lt (n := f * 2 ^ ls) (by omega), u64_add_sub (by omega) (by omega), u64_lt, Nat.shiftLeft_eq]
  rw [Nat.shiftLeft_eq]
  calc (f * 2 ^ ls - 1) * 2 ^ (j + 11 - ls) < (f * 2 ^ ls) * 2 ^ (j + 11 - ls) := Nat.mul_lt_mul_of_pos_right (by omega) (by positivity)
    _ = f * 2 ^ (ls + (j + 11 - ls)) := by rw [Nat.mul_assoc, ← pow_add]
    _ = f * 2 ^ j * 2 ^ 11 := by rw [show ls + (j + 11 - ls) = j + 11 by omega, pow_add, Nat.mul_assoc]
    _ < 2 ^ 64 := by omega

/-! ## The product -/

theorem multiplyFp_frac {a b : Fp} (ha : a.frac < 2 ^ 64) (hb : b.frac < 2 ^ 64) :
    multiplyFp a b = ⟨(a.frac * b.frac + 2 ^ 63) / 2 ^ 64, a.exp + b.exp + 64⟩ := by
  obtain ⟨x, ex⟩ := a
  obtain ⟨y, ey⟩ := b
  simp only at ha hb
  unfold multiplyFp
  simp only [Nat.shiftRight_eq_div_pow]
  obtain ⟨xh, xl, hxl, rfl⟩ : ∃ xh xl, xl < 2 ^ 32 ∧ x = 2 ^ 32 * xh + xl := ⟨x / 2 ^ 32, x % 2 ^ 32, Nat.mod_lt _ (by decide), (Nat.div_add_mod _ _).symm⟩
  obtain ⟨yh, yl, hyl, rfl⟩ : ∃ xh xl, xl < 2 ^ 32 ∧ y = 2 ^ 32 * xh + xl := ⟨y / 2 ^ 32, y % 2 ^ 32, Nat.mod_lt _ (by decide), (Nat.div_add_mod _ _).symm⟩
  have hxh : xh < 2 ^ 32 := by omega
  have hyh : yh < 2 ^ 32 := by omega
  rw [show (2 ^ 32 * xh + xl) / 2 ^ 32 = xh by omega, show (2 ^ 32 * yh + yl) / 2 ^ 32 = yh by omega,
    show (2 ^ 32 * xh + xl) % 2 ^ 32 = xl by omega, show (2 ^ 32 * yh + yl) % 2 ^ 32 = yl by omega]
  have hm : ∀ {a b : Nat}, a < 2 ^ 32 → b < 2 ^ 32 → a * b ≤ (2 ^ 32 - 1) * (2 ^ 32 - 1) := fun ha hb => Nat.mul_le_mul (by omega) (by omega)
  have m1 := hm hxh hyl
  have m2 := hm hxl hyh
  have m3 := hm hxl hyl
  have m4 := hm hxh hyh
  have e : (2 ^ 32 * xh + xl) * (2 ^ 32 * yh + yl) = 2 ^ 64 * (xh * yh) + 2 ^ 32 * (xh * yl) + 2 ^ 32 * (xl * yh) + xl * yl := by ring
  rw [e]
  generalize xh * yl = p at *
  generalize xl * yh = q at *
  generalize xl * yl = r at *
  generalize xh * yh = s at *
  unfold u64
  norm_num at m1 m2 m3 m4 ⊢
  omega

/-! ## The cached powers of ten -/

/-- Entry `i` of the table is `10^(8 i - 348)` rounded to 64 bits: twice the difference is at most one unit of the last place.
Both sides are multiplied by the denominators. -/
def powerOk (i : Nat) : Bool :=
  let p := powersTen.getD i default
  let k : Int := -348 + i * 8
  let n := 10 ^ k.toNat * 2 ^ (-p.exp).toNat
  let a := 2 ^ p.exp.toNat * 10 ^ (-k).toNat
  decide (2 ^ 63 ≤ p.frac ∧ p.frac < 2 ^ 64 ∧ 2 * (p.frac * a) ≤ 2 * n + a ∧ 2 * n ≤ 2 * (p.frac * a) + a)

theorem powers_ok : ∀ i : Fin 87, powerOk i = true := by decide +kernel

theorem cachedLoop_ok {e : Int} : ∀ {fuel : Nat} {idx : Int} {p : Fp} {k : Int}, cachedLoop e fuel idx = .ok (p, k) →
    ∃ i : Nat, i < 87 ∧ p = powersTen.getD i default ∧ k = -348 + i * 8 ∧ -60 ≤ e + p.exp + 64 ∧ e + p.exp + 64 ≤ -32
  | 0, idx, p, k, h => by simp [cachedLoop] at h
  | fuel + 1, idx, p, k, h => by
    rw [cachedLoop] at h
    split at h
    · rename_i hi
      simp only at h
      split at h
      · exact cachedLoop_ok h
      · split at h
        · exact cachedLoop_ok h
        · simp only [Except.ok.injEq, Prod.mk.injEq] at h
          obtain ⟨rfl, rfl⟩ := h
          exact ⟨idx.toNat, by omega, rfl, by omega, by omega, by omega⟩
    · simp at h

/-- A power is found, without leaving the table, for every exponent an upper boundary can have. -/
theorem cached_found : ∀ i : Fin 2098, (match findCachedPow10 ((i : Nat) - 1137) with | .ok _ => true | .error _ => false) = true := by
  decide +kernel

theorem findCachedPow10_ok {e : Int} (h : -1137 ≤ e) (h' : e ≤ 960) : ∃ p k, findCachedPow10 e = .ok (p, k) ∧
    ∃ i : Nat, i < 87 ∧ p = powersTen.getD i default ∧ k = -348 + i * 8 ∧ -60 ≤ e + p.exp + 64 ∧ e + p.exp + 64 ≤ -32 := by
  have := cached_found ⟨(e + 1137).toNat, by omega⟩
  simp only at this
  rw [show (((e + 1137).toNat : Nat) : Int) - 1137 = e by omega] at this
  cases hr : findCachedPow10 e with
  | error x => rw [hr] at this; simp at this
  | ok r =>
    obtain ⟨p, k⟩ := r
    refine ⟨p, k, rfl, ?_⟩
    unfold findCachedPow10 at hr
    exact cachedLoop_ok hr

/-- The exact product that `find_cachedpow10` truncates is zero or farther than 10^-6 from every integer, so rounding it to a
`double` before truncation gives the same index. -/
theorem approx_margin : ∀ i : Fin 2098,
    let n : Int := -((i : Nat) - 1137 + 87)
    n = 0 ∨ (10 ^ 11 ≤ (n * 30102999566398114) % 10 ^ 17 ∧ (n * 30102999566398114) % 10 ^ 17 ≤ 10 ^ 17 - 10 ^ 11) := by
  decide +kernel

end Abieos
