import Verif.Spec.Calendar
/-
The day count formulas.
-/
namespace Abieos

open Spec

/-- days before year `yoe` of the 400-year cycle (years start in March) -/
def cyc (yoe : Nat) : Nat := 365 * yoe + yoe / 4 - yoe / 100

/-- the formula that recovers the year of the cycle -/
def yoeOf (doe : Nat) : Nat := (doe - doe / 1460 + doe / 36524 - doe / 146096) / 365

theorem yoeOf_mono {a b : Nat} (h : a ≤ b) (hb : b < 146097) : yoeOf a ≤ yoeOf b := by
  unfold yoeOf
  apply Nat.div_le_div_right
  have h1 : a - a / 1460 ≤ b - b / 1460 := by omega
  have h2 : a / 36524 - a / 146096 ≤ b / 36524 - b / 146096 := by omega
  omega

theorem cyc_check : ∀ y : Fin 400, yoeOf (cyc y.val) = y.val ∧
    yoeOf (if y.val = 399 then 146096 else cyc (y.val + 1) - 1) = y.val := by decide +kernel

theorem yoeOf_eq {y doe : Nat} (hy : y < 400) (h1 : cyc y ≤ doe) (h2 : if y = 399 then doe < 146097 else doe < cyc (y + 1)) :
    yoeOf doe = y := by
  obtain ⟨c1, c2⟩ := cyc_check ⟨y, hy⟩
  simp only at c1 c2
  have hcyc : y ≠ 399 → cyc (y + 1) ≤ 146097 := by intro; unfold cyc; omega
  apply Nat.le_antisymm
  · rw [← c2]
    refine yoeOf_mono ?_ ?_ <;> split at h2 <;> simp_all <;> omega
  · have : yoeOf (cyc y) ≤ yoeOf doe := yoeOf_mono h1 (by split at h2 <;> omega)
    omega

theorem leap_check : ∀ y : Fin 399, 366 ≤ cyc (y.val + 1) - cyc y.val →
    (y.val + 1) % 4 = 0 ∧ ((y.val + 1) % 100 ≠ 0 ∨ (y.val + 1) % 400 = 0) := by decide +kernel

theorem yoeOf_spec {doe : Nat} (h : doe < 146097) : yoeOf doe < 400 ∧ cyc (yoeOf doe) ≤ doe ∧ doe - cyc (yoeOf doe) ≤ 365 ∧
    (doe - cyc (yoeOf doe) = 365 → IsLeap ((yoeOf doe : Int) + 1)) := by
  have hlt : yoeOf doe < 400 := by unfold yoeOf; omega
  have h1 : cyc (yoeOf doe) ≤ doe := by
    apply Nat.le_of_not_lt
    intro hc
    have h0 : yoeOf doe ≠ 0 := by intro h; rw [h] at hc; simp [cyc] at hc
    obtain ⟨-, c2⟩ := cyc_check ⟨yoeOf doe - 1, by omega⟩
    simp only at c2
    rw [if_neg (by omega), show yoeOf doe - 1 + 1 = yoeOf doe by omega] at c2
    have := yoeOf_mono (a := doe) (b := cyc (yoeOf doe) - 1) (by omega) (by unfold cyc; omega)
    omega
  have h2 : yoeOf doe < 399 → doe < cyc (yoeOf doe + 1) := by
    intro hy
    apply Nat.lt_of_not_le
    intro hc
    obtain ⟨c1, -⟩ := cyc_check ⟨yoeOf doe + 1, by omega⟩
    simp only at c1
    have := yoeOf_mono hc h
    omega
  generalize yoeOf doe = y at *
  refine ⟨hlt, h1, ?_, ?_⟩
  · by_cases hy : y < 399
    · have := h2 hy
      unfold cyc at *
      omega
    · have : y = 399 := by omega
      subst this
      simp [cyc] at *
      omega
  · intro he
    by_cases hy : y < 399
    · have := h2 hy
      have hn : (y + 1) % 4 = 0 ∧ ((y + 1) % 100 ≠ 0 ∨ (y + 1) % 400 = 0) :=
        leap_check ⟨y, hy⟩ (by simp only; omega)
      unfold IsLeap
      omega
    · have : y = 399 := by omega
      subst this
      simp [IsLeap]

/-- days from the epoch of the formulas to year `y` (starting in March) -/
def yearDays (y : Int) : Int := 365 * y + y / 4 - y / 100 + y / 400

theorem yearDays_shift (y e : Int) : yearDays (y + e * 400) = yearDays y + e * 146097 := by
  unfold yearDays
  have h1 : (y + e * 400) / 4 = y / 4 + e * 100 := by omega
  have h2 : (y + e * 400) / 100 = y / 100 + e * 4 := by omega
  have h3 : (y + e * 400) / 400 = y / 400 + e := by omega
  rw [h1, h2, h3]
  omega

theorem yearDays_cyc {y : Nat} (h : y < 400) : yearDays y = cyc y := by
  unfold yearDays cyc
  omega

theorem era_eq {y : Int} : (if y ≥ 0 then y else y - 399).tdiv 400 = y / 400 := by
  split
  · rw [Int.tdiv_eq_ediv_of_nonneg (by omega)]
  · have : (y - 399).tdiv 400 = -((399 - y).tdiv 400) := by rw [← Int.neg_tdiv]; congr 1; omega
    rw [this, Int.tdiv_eq_ediv_of_nonneg (by omega)]
    omega

theorem era_eq' {z : Int} : (if z ≥ 0 then z else z - 146096).tdiv 146097 = z / 146097 := by
  split
  · rw [Int.tdiv_eq_ediv_of_nonneg (by omega)]
  · have : (z - 146096).tdiv 146097 = -((146096 - z).tdiv 146097) := by rw [← Int.neg_tdiv]; congr 1; omega
    rw [this, Int.tdiv_eq_ediv_of_nonneg (by omega)]
    omega

/-- days before month `m` (1..12) in a year starting in March -/
def monthStart (m : Nat) : Int := (153 * (if m > 2 then (m : Int) - 3 else m + 9) + 2) / 5

theorem toDays_eq (x : Date) : toDays x = yearDays (x.y - (if x.m ≤ 2 then 1 else 0)) + monthStart x.m + x.d - 719469 := by
  unfold toDays yearDays monthStart
  simp only [era_eq]
  generalize hy : x.y - (if x.m ≤ 2 then (1 : Int) else 0) = y
  generalize (153 * (if x.m > 2 then (x.m : Int) - 3 else x.m + 9) + 2) / 5 = ms
  omega

/-- the formulas of `fromDays`, with the quantities named -/
theorem fromDays_eq (n : Int) : ∃ doe yoe doy mp : Nat, doe < 146097 ∧ n + 719468 = (n + 719468) / 146097 * 146097 + doe ∧
    yoe = yoeOf doe ∧ doy = doe - cyc yoe ∧ mp = (5 * doy + 2) / 153 ∧
    fromDays n = ⟨(yoe : Int) + (n + 719468) / 146097 * 400 + (if (if mp < 10 then mp + 3 else mp - 9) ≤ 2 then 1 else 0),
      if mp < 10 then mp + 3 else mp - 9, doy - (153 * mp + 2) / 5 + 1⟩ := by
  refine ⟨(n + 719468 - (n + 719468) / 146097 * 146097).toNat, _, _, _, by omega, by omega, rfl, rfl, rfl, ?_⟩
  unfold fromDays
  simp only [era_eq']
  rfl

theorem toDays_fromDays (n : Int) : toDays (fromDays n) = n := by
  obtain ⟨doe, yoe, doy, mp, h1, h2, h3, h4, h5, h6⟩ := fromDays_eq n
  obtain ⟨g1, g2, g3, g4⟩ := yoeOf_spec h1
  rw [← h3] at g1 g2 g3 g4
  rw [h6, toDays_eq]
  have hmp : mp ≤ 11 := by omega
  generalize (n + 719468) / 146097 = era at *
  have hyd : yearDays (yoe + era * 400) = era * 146097 + cyc yoe := by rw [yearDays_shift, yearDays_cyc g1]; omega
  clear h3
  by_cases h10 : mp < 10
  · simp only [if_pos h10, if_neg (show ¬ mp + 3 ≤ 2 by omega), Int.add_zero, Int.sub_zero, hyd, monthStart,
      if_pos (show mp + 3 > 2 by omega)]
    omega
  · simp only [if_neg h10, if_pos (show mp - 9 ≤ 2 by omega), Int.add_sub_cancel, hyd, monthStart,
      if_neg (show ¬ mp - 9 > 2 by omega)]
    omega

theorem fromDays_valid (n : Int) : ValidDate (fromDays n) := by
  obtain ⟨doe, yoe, doy, mp, h1, h2, h3, h4, h5, h6⟩ := fromDays_eq n
  obtain ⟨g1, g2, g3, g4⟩ := yoeOf_spec h1
  rw [← h3] at g1 g2 g3 g4
  rw [h6]
  have hmp : mp ≤ 11 := by omega
  generalize (n + 719468) / 146097 = era at *
  unfold ValidDate monthLength
  simp only
  refine ⟨by split <;> omega, by split <;> omega, by omega, ?_⟩
  by_cases h11 : mp = 11
  · subst h11
    simp only [show ¬ (11 < 10) by omega, if_false, show (11 - 9 : Nat) = 2 by rfl, if_true, Nat.le_refl]
    split
    · omega
    · rename_i hl
      have : ¬ (doe - cyc yoe = 365) := by
        intro h
        have := g4 h
        apply hl
        unfold IsLeap at *
        omega
      omega
  · have : mp = 0 ∨ mp = 1 ∨ mp = 2 ∨ mp = 3 ∨ mp = 4 ∨ mp = 5 ∨ mp = 6 ∨ mp = 7 ∨ mp = 8 ∨ mp = 9 ∨ mp = 10 := by omega
    clear h3 g4
    rcases this with rfl | rfl | rfl | rfl | rfl | rfl | rfl | rfl | rfl | rfl | rfl <;> simp <;> omega

theorem fromDays_toDays {x : Date} (hx : ValidDate x) : fromDays (toDays x) = x := by
  obtain ⟨y, m, d⟩ := x
  obtain ⟨v1, v2, v3, v4⟩ := hx
  simp only at v1 v2 v3 v4
  have ht := toDays_eq ⟨y, m, d⟩
  simp only at ht
  obtain ⟨doe, yoe, doy, mp, h1, h2, h3, h4, h5, h6⟩ := fromDays_eq (toDays ⟨y, m, d⟩)
  generalize toDays ⟨y, m, d⟩ = n at *
  rw [h6]
  -- the year of the formulas
  obtain ⟨Y, hY⟩ : ∃ Y : Int, Y = y - (if m ≤ 2 then 1 else 0) := ⟨_, rfl⟩
  rw [← hY] at ht
  -- day of the year
  obtain ⟨D, hD⟩ : ∃ D : Nat, (D : Int) = monthStart m + d - 1 := by
    refine ⟨(monthStart m + d - 1).toNat, ?_⟩
    have : 0 ≤ monthStart m := by unfold monthStart; split <;> omega
    omega
  have hlen : D ≤ 365 ∧ (D = 365 → IsLeap (Y + 1)) ∧ (5 * D + 2) / 153 = (if m > 2 then m - 3 else m + 9) ∧
      (153 * (if m > 2 then m - 3 else m + 9) + 2) / 5 + d = D + 1 := by
    unfold monthStart monthLength at *
    have : m = 1 ∨ m = 2 ∨ m = 3 ∨ m = 4 ∨ m = 5 ∨ m = 6 ∨ m = 7 ∨ m = 8 ∨ m = 9 ∨ m = 10 ∨ m = 11 ∨ m = 12 := by omega
    rcases this with rfl | rfl | rfl | rfl | rfl | rfl | rfl | rfl | rfl | rfl | rfl | rfl
    case inr.inl =>
      simp at hD v4 hY ⊢
      split at v4
      · rename_i hl
        refine ⟨by omega, fun _ => ?_, by omega, by omega⟩
        rw [hY, show y - 1 + 1 = y by omega]; exact hl
      · exact ⟨by omega, fun _ => by omega, by omega, by omega⟩
    all_goals simp at hD v4 ⊢; exact ⟨by omega, fun _ => by omega, by omega, by omega⟩
  obtain ⟨l1, l2, l3, l4⟩ := hlen
  have hn : n + 719468 = yearDays Y + D := by omega
  -- cycle and year of the cycle
  have hera : (n + 719468) / 146097 = Y / 400 ∧ (doe : Int) = cyc (Y % 400).toNat + D := by
    have hc : ((cyc (Y % 400).toNat : Nat) : Int) = 365 * (Y % 400) + (Y % 400) / 4 - (Y % 400) / 100 := by unfold cyc; omega
    have hle : (cyc (Y % 400).toNat : Int) + D < 146097 := by
      by_cases h365 : D = 365
      · have := l2 h365
        unfold IsLeap at this
        omega
      · omega
    have : yearDays Y = Y / 400 * 146097 + cyc (Y % 400).toNat := by
      have h1 := yearDays_shift ((Y % 400).toNat : Int) (Y / 400)
      rw [yearDays_cyc (by omega), show (((Y % 400).toNat : Nat) : Int) + Y / 400 * 400 = Y by omega] at h1
      omega
    have hd : (n + 719468) / 146097 = Y / 400 := by omega
    exact ⟨hd, by omega⟩
  obtain ⟨e1, e2⟩ := hera
  have hyoe : yoe = (Y % 400).toNat := by
    rw [h3]
    have e2' : doe = cyc (Y % 400).toNat + D := by omega
    apply yoeOf_eq (by omega) (by omega)
    split
    · exact h1
    · have : (cyc (Y % 400).toNat : Int) + D < cyc ((Y % 400).toNat + 1) := by
        by_cases h365 : D = 365
        · have := l2 h365
          unfold IsLeap at this
          unfold cyc
          omega
        · unfold cyc; omega
      omega
  have hdoy : doy = D := by rw [h4, hyoe]; omega
  subst hdoy
  have hmp : mp = if m > 2 then m - 3 else m + 9 := by rw [h5, l3]
  have hm : (if mp < 10 then mp + 3 else mp - 9) = m := by rw [hmp]; split <;> split <;> omega
  rw [hm, e1]
  congr 1
  · rw [hyoe]; omega
  · rw [hmp]; omega

theorem tomorrow_valid {x : Date} (h : ValidDate x) : ValidDate (tomorrow x) := by
  obtain ⟨h1, h2, h3, h4⟩ := h
  unfold tomorrow
  have hl : ∀ y m, 1 ≤ monthLength y m := by intro y m; unfold monthLength; split <;> split <;> omega
  split
  · exact ⟨h1, h2, by simp, by simpa⟩
  · split
    · exact ⟨by simp, by simp; omega, by simp, hl _ _⟩
    · exact ⟨by simp, by simp, by simp, hl _ _⟩

theorem toDays_tomorrow {x : Date} (h : ValidDate x) : toDays (tomorrow x) = toDays x + 1 := by
  obtain ⟨y, m, d⟩ := x
  obtain ⟨h1, h2, h3, h4⟩ := h
  simp only at h1 h2 h3 h4
  unfold tomorrow
  simp only
  split
  · simp only [toDays_eq]; omega
  · rename_i hd
    have hd : d = monthLength y m := by omega
    subst hd
    split
    · rename_i hm
      simp only [toDays_eq, yearDays, monthStart, monthLength]
      have : m = 1 ∨ m = 2 ∨ m = 3 ∨ m = 4 ∨ m = 5 ∨ m = 6 ∨ m = 7 ∨ m = 8 ∨ m = 9 ∨ m = 10 ∨ m = 11 := by omega
      rcases this with rfl | rfl | rfl | rfl | rfl | rfl | rfl | rfl | rfl | rfl | rfl
      case inr.inl =>
        simp
        split
        · rename_i hl; unfold IsLeap at hl; omega
        · rename_i hl; unfold IsLeap at hl; omega
      all_goals simp <;> omega
    · have : m = 12 := by omega
      subst this
      simp [toDays_eq, yearDays, monthStart, monthLength]
      omega

end Abieos
