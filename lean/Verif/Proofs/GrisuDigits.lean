import Verif.Proofs.Grisu
import Verif.Model.Hex
import Mathlib.Data.Nat.Digits.Lemmas
/-
The digits Grisu2 generates: they are the decimal digits of a number between the two boundaries.
-/
namespace Abieos

/-- The characters of a number, the last one first; none for zero. -/
def repr10 (D : Nat) : List Nat := (Nat.digits 10 D).map (· + 48)

theorem repr10_cons {E d : Nat} (hd : d < 10) (h : E ≠ 0 ∨ d ≠ 0) : repr10 (10 * E + d) = (d + 48) :: repr10 E := by
  unfold repr10
  rw [Nat.add_comm, Nat.digits_add 10 (by decide) d E hd h.symm]; rfl

theorem repr10_eq_nil {D : Nat} : repr10 D = [] ↔ D = 0 := by
  unfold repr10
  rw [List.map_eq_nil_iff, Nat.digits_eq_nil_iff_eq_zero]

theorem repr10_length {D k : Nat} : (repr10 D).length ≤ k ↔ D < 10 ^ k := by
  unfold repr10
  rw [List.length_map, Nat.digits_length_le_iff (by decide)]

theorem pushDigit_repr {D d : Nat} (hd : d < 10) (hD : D < 10 ^ 17) : pushDigit (repr10 D) d = .ok (repr10 (10 * D + d)) := by
  unfold pushDigit
  by_cases h : d ≠ 0 ∨ repr10 D ≠ []
  · have h1 := repr10_length.2 hD
    rw [if_pos h, if_pos (by omega), Nat.mod_eq_of_lt (by omega), repr10_cons hd]
    rcases h with h | h
    · exact .inr h
    · exact .inl (fun h0 => h (repr10_eq_nil.2 h0))
  · rw [if_neg h]
    have h0 : d = 0 ∧ D = 0 := by
      constructor
      · by_contra hc; exact h (.inl hc)
      · by_contra hc; exact h (.inr (fun h0 => hc (repr10_eq_nil.1 h0)))
    rw [h0.1, h0.2]

/-- Rounding lowers the last digit, stays inside the interval, and does not go below zero. -/
theorem roundDigit_ok {delta K frac : Nat} (hdl : delta < 2 ^ 64) (hfr : frac < 2 ^ 64) (hK : 0 < K) {E : Nat} :
    ∀ (d fuel rem : Nat), d < fuel → d < 10 → rem ≤ delta → delta ≤ rem + d * K → (E ≠ 0 ∨ delta < rem + d * K) →
    ∃ d', d' ≤ d ∧ (E ≠ 0 ∨ d' ≠ 0) ∧ rem + (d - d') * K ≤ delta ∧
      roundDigit delta K frac fuel ((d + 48) :: repr10 E) rem = .ok ((d' + 48) :: repr10 E)
  | d, 0, rem, hf, _, _, _, _ => by omega
  | d, fuel + 1, rem, hf, hd, hr, hle, hE => by
    rw [roundDigit]
    rw [u64_add_sub hdl hr]
    split
    · rename_i hc
      obtain ⟨h1, h2, -⟩ := hc
      cases d with
      | zero => omega
      | succ d =>
        have e1 : (d + 1) * K = d * K + K := by ring
        obtain ⟨d', g1, g2, g3, g4⟩ := roundDigit_ok hdl hfr hK (E := E) d fuel (rem + K) (by omega) (by omega) (by omega) (by omega)
          (by rcases hE with h | h
              · exact .inl h
              · exact .inr (by omega))
        refine ⟨d', by omega, g2, ?_, ?_⟩
        · rw [show d + 1 - d' = (d - d') + 1 by omega, Nat.add_mul]; omega
        · rw [show (d + 1 + 48 + 255) % 256 = d + 48 by omega, u64_lt (by omega), g4]
    · refine ⟨d, Nat.le_refl _, ?_, by simp; exact hr, rfl⟩
      rcases hE with h | h
      · exact .inl h
      · refine .inr ?_
        rintro rfl
        omega

theorem tens_get : ∀ i : Fin 20, tens.getD i 0 = 10 ^ (19 - (i : Nat)) := by decide

theorem tens_drop : tens.drop 10 = [10 ^ 9, 10 ^ 8, 10 ^ 7, 10 ^ 6, 10 ^ 5, 10 ^ 4, 10 ^ 3, 10 ^ 2, 10 ^ 1, 10 ^ 0] := by decide

/-- What holds while digits are generated: `u` is the upper end of the interval, `l` the lower end, in units of `2^-sh`. -/
structure Range (sh u l : Nat) : Prop where
  sh_le : sh ≤ 60
  u_lt : u < 2 ^ 64
  u_ge : 2 ^ sh ≤ u
  l_pos : 0 < l
  l_le : l ≤ u
  wide : 765 ≤ u - l
  short : u < 10 ^ 16 * (u - l)

/-- The digits of `D`, scaled by `10^κ`, are a number between `l` and `u`. -/
def Between (sh u l D : Nat) (κ : Int) : Prop :=
  0 < D ∧ D < 10 ^ 17 ∧ l * 10 ^ (-κ).toNat ≤ D * 10 ^ κ.toNat * 2 ^ sh ∧ D * 10 ^ κ.toNat * 2 ^ sh ≤ u * 10 ^ (-κ).toNat

theorem short_digits {sh u l D a rem : Nat} (R : Range sh u l) (h1 : D * a + rem = u) (h2 : u - l < a) : D < 10 ^ 16 := by
  have h3 := R.short
  have h4 := R.wide
  by_contra hc
  have h5 : 10 ^ 16 * (u - l) ≤ D * (u - l) := Nat.mul_le_mul_right _ (by omega)
  have h6 : D * (u - l) ≤ D * a := Nat.mul_le_mul_left _ (by omega)
  omega

theorem genFraction_ok {sh u l wf : Nat} (R : Range sh u l) (hw : wf ≤ u - l) : ∀ (unit j D part2 : Nat), unit + j = 19 →
    D * 2 ^ sh + part2 = u * 10 ^ j → part2 < 2 ^ sh → (u - l) * 10 ^ j ≤ part2 → D ≠ 0 →
    ∃ D' κ, genFraction sh wf unit part2 ((u - l) * 10 ^ j) (-(j : Int)) (repr10 D) = .ok (repr10 D', κ) ∧ Between sh u l D' κ
  | 0, j, D, part2, hj, h1, h2, h3, h0 => by
    exfalso
    have := R.wide
    have := R.sh_le
    have h4 : 2 ^ sh ≤ 2 ^ 60 := Nat.pow_le_pow_right (by decide) R.sh_le
    obtain rfl : j = 19 := by omega
    omega
  | unit + 1, j, D, part2, hj, h1, h2, h3, h0 => by
    have hsh : 2 ^ sh ≤ 2 ^ 60 := Nat.pow_le_pow_right (by decide) R.sh_le
    have hp : 0 < 2 ^ sh := by positivity
    have hD16 : D < 10 ^ 16 := by
      have hwide := R.wide
      have hshort := R.short
      by_contra hc
      have h5 : 10 ^ 16 * (u - l) * 10 ^ j ≤ D * (u - l) * 10 ^ j := Nat.mul_le_mul_right _ (Nat.mul_le_mul_right _ (by omega))
      have h6 : D * ((u - l) * 10 ^ j) ≤ D * 2 ^ sh := Nat.mul_le_mul_left _ (by omega)
      have h7 : u * 10 ^ j < 10 ^ 16 * (u - l) * 10 ^ j := Nat.mul_lt_mul_of_pos_right hshort (by positivity)
      rw [← Nat.mul_assoc] at h6
      omega
    rw [genFraction]
    have e1 : u64 (part2 * 10) = part2 * 10 := u64_lt (by omega)
    have e2 : u64 ((u - l) * 10 ^ j * 10) = (u - l) * 10 ^ (j + 1) := by rw [u64_lt (by omega)]; ring
    have hd10 : part2 * 10 / 2 ^ sh < 10 := by rw [Nat.div_lt_iff_lt_mul hp]; omega
    have hpush := pushDigit_repr (D := D) hd10 (by omega)
    simp only [e1, e2]
    rw [Nat.shiftRight_eq_div_pow, Nat.mod_eq_of_lt (show part2 * 10 / 2 ^ sh < 2 ^ 32 by omega), hpush]
    rw [bind_ok]
    have hdm := Nat.div_add_mod (part2 * 10) (2 ^ sh)
    have hm := Nat.mod_lt (part2 * 10) hp
    generalize hdig : part2 * 10 / 2 ^ sh = d at hdm hd10 ⊢
    generalize part2 * 10 % 2 ^ sh = p' at hdm hm ⊢
    have hdel : (u - l) * 10 ^ (j + 1) ≤ p' + d * 2 ^ sh := by
      rw [pow_succ, ← Nat.mul_assoc, Nat.mul_comm d]; omega
    have hu : (10 * D + d) * 2 ^ sh + p' = u * 10 ^ (j + 1) := by
      rw [pow_succ, ← Nat.mul_assoc, ← h1]
      rw [Nat.mul_comm (2 ^ sh) d] at hdm
      ring_nf at hdm ⊢
      omega
    split
    · rename_i hlt
      have hj : j ≤ 15 := by
        by_contra hc
        have h5 : 10 ^ 16 ≤ 10 ^ j := Nat.pow_le_pow_right (by decide) (by omega)
        have h6 : 765 * 10 ^ 16 ≤ (u - l) * 10 ^ j := Nat.mul_le_mul R.wide h5
        omega
      have ht : tens.getD unit 0 = 10 ^ (j + 1) := by
        have := tens_get ⟨unit, by omega⟩
        simp only at this
        rw [this]; congr 1; omega
      have hw' : wf * 10 ^ (j + 1) ≤ (u - l) * 10 ^ (j + 1) := Nat.mul_le_mul_right _ hw
      have hd64 : (u - l) * 10 ^ (j + 1) < 2 ^ 64 := by rw [pow_succ, ← Nat.mul_assoc]; omega
      obtain ⟨d', g1, g2, g3, g4⟩ := roundDigit_ok (K := 2 ^ sh) (frac := wf * 10 ^ (j + 1)) hd64 (by omega) hp (E := D) d 64 p'
        (by omega) hd10 (by omega) hdel (.inl h0)
      rw [ht, u64_lt (by omega), repr10_cons hd10 (.inl h0), g4, bind_ok]
      refine ⟨10 * D + d', _, by rw [repr10_cons (by omega) g2], by omega, by omega, ?_, ?_⟩
      · rw [show (-(-(j : Int) - 1)).toNat = j + 1 by omega, show (-(j : Int) - 1).toNat = 0 by omega]
        have e3 : (10 * D + d) * 2 ^ sh = (10 * D + d') * 2 ^ sh + (d - d') * 2 ^ sh := by rw [← Nat.add_mul]; congr 1; omega
        have e4 : (u - l) * 10 ^ (j + 1) = u * 10 ^ (j + 1) - l * 10 ^ (j + 1) := Nat.sub_mul _ _ _
        have e5 : l * 10 ^ (j + 1) ≤ u * 10 ^ (j + 1) := Nat.mul_le_mul_right _ R.l_le
        rw [pow_zero, Nat.mul_one]
        omega
      · rw [show (-(-(j : Int) - 1)).toNat = j + 1 by omega, show (-(j : Int) - 1).toNat = 0 by omega, pow_zero, Nat.mul_one, ← hu]
        have : (10 * D + d') * 2 ^ sh ≤ (10 * D + d) * 2 ^ sh := Nat.mul_le_mul_right _ (by omega)
        omega
    · rename_i hge
      have := genFraction_ok R hw unit (j + 1) (10 * D + d) p' (by omega) hu hm (by omega) (by omega)
      rw [show -(((j + 1 : Nat)) : Int) = -(j : Int) - 1 by push_cast; ring] at this
      exact this

/-- The rest of `tens` from `10^m` on. -/
def divsFrom : Nat → List Nat
  | 0 => [1]
  | m + 1 => 10 ^ (m + 1) :: divsFrom m

/-- One digit of the integer part: either the conversion ends with this digit, or the loop goes on. -/
theorem genInteger_step {sh u l wf : Nat} (R : Range sh u l) (hw : wf ≤ u - l) (m D part1 : Nat) (divs : List Nat) (hm : m ≤ 9)
    (h1 : D * 10 ^ (m + 1) + part1 = u / 2 ^ sh) (h2 : part1 < 10 ^ (m + 1)) (h3 : u - l < part1 * 2 ^ sh + u % 2 ^ sh) :
    (∃ D' κ, genInteger sh wf (u - l) (u % 2 ^ sh) (10 ^ m :: divs) part1 ((m : Int) + 1) (repr10 D) = .ok (repr10 D', κ) ∧ Between sh u l D' κ) ∨
    ∃ D' p', D' * 10 ^ m + p' = u / 2 ^ sh ∧ p' < 10 ^ m ∧ u - l < p' * 2 ^ sh + u % 2 ^ sh ∧
      genInteger sh wf (u - l) (u % 2 ^ sh) (10 ^ m :: divs) part1 ((m : Int) + 1) (repr10 D) =
        genInteger sh wf (u - l) (u % 2 ^ sh) divs p' m (repr10 D') := by
  have hp : 0 < 2 ^ sh := by positivity
  have hq : 0 < 10 ^ m := by positivity
  have hu := Nat.div_add_mod u (2 ^ sh)
  have hu2 := Nat.mod_lt u hp
  have hult := R.u_lt
  have hD : D < 10 ^ 16 := by
    refine short_digits R (a := 10 ^ (m + 1) * 2 ^ sh) (rem := part1 * 2 ^ sh + u % 2 ^ sh) ?_ ?_
    · rw [← Nat.mul_assoc, ← Nat.add_assoc, ← Nat.add_mul, h1, Nat.mul_comm]; exact hu
    · have : (part1 + 1) * 2 ^ sh ≤ 10 ^ (m + 1) * 2 ^ sh := Nat.mul_le_mul_right _ (by omega)
      rw [Nat.add_mul] at this
      omega
  have hd10 : part1 / 10 ^ m < 10 := by rw [Nat.div_lt_iff_lt_mul hq, Nat.mul_comm, ← pow_succ]; exact h2
  have hdm := Nat.div_add_mod part1 (10 ^ m)
  have hmod := Nat.mod_lt part1 hq
  rw [genInteger]
  rw [Nat.mod_eq_of_lt (show part1 / 10 ^ m < 2 ^ 32 by omega), pushDigit_repr hd10 (by omega), bind_ok]
  have hp1 : part1 < 2 ^ 64 := by
    have : part1 ≤ u / 2 ^ sh := by omega
    have := Nat.div_le_self u (2 ^ sh)
    omega
  rw [u64_add_sub hp1 (by rw [Nat.mul_comm]; omega)]
  rw [show part1 - part1 / 10 ^ m * 10 ^ m = part1 % 10 ^ m by rw [Nat.mul_comm]; omega]
  have htmp : part1 % 10 ^ m * 2 ^ sh + u % 2 ^ sh ≤ u := by
    have h5 : part1 % 10 ^ m * 2 ^ sh ≤ u / 2 ^ sh * 2 ^ sh := Nat.mul_le_mul_right _ (by omega)
    rw [Nat.mul_comm (u / 2 ^ sh)] at h5
    omega
  simp only
  rw [Nat.shiftLeft_eq (part1 % 10 ^ m), u64_lt (n := part1 % 10 ^ m * 2 ^ sh) (by omega), u64_lt (n := part1 % 10 ^ m * 2 ^ sh + u % 2 ^ sh) (by omega)]
  generalize hdig : part1 / 10 ^ m = d at hdm hd10 ⊢
  generalize hpp : part1 % 10 ^ m = p' at hdm hmod htmp ⊢
  have hD' : (10 * D + d) * 10 ^ m + p' = u / 2 ^ sh := by
    rw [← h1, ← hdm, pow_succ]; ring
  have hdl : part1 * 2 ^ sh = d * (10 ^ m * 2 ^ sh) + p' * 2 ^ sh := by rw [← hdm]; ring
  have hk : (m : Int) + 1 - 1 = m := by ring
  rw [hk]
  split
  · rename_i hle
    left
    have hd0 : d ≠ 0 := by rintro rfl; omega
    have hD'u : (10 * D + d) * (10 ^ m * 2 ^ sh) + (p' * 2 ^ sh + u % 2 ^ sh) = u := by
      rw [← Nat.mul_assoc, ← Nat.add_assoc, ← Nat.add_mul, hD', Nat.mul_comm]; exact hu
    have hK : 10 ^ m * 2 ^ sh ≤ u := by
      have : 1 * (10 ^ m * 2 ^ sh) ≤ (10 * D + d) * (10 ^ m * 2 ^ sh) := Nat.mul_le_mul_right _ (by omega)
      omega
    obtain ⟨d', g1, g2, g3, g4⟩ := roundDigit_ok (delta := u - l) (K := 10 ^ m * 2 ^ sh) (frac := wf) (by omega) (by omega) (by positivity) (E := D) d 64
      (p' * 2 ^ sh + u % 2 ^ sh) (by omega) hd10 hle (by omega) (.inr (by omega))
    rw [Nat.shiftLeft_eq, u64_lt (by omega), repr10_cons hd10 (.inr hd0), g4, bind_ok]
    refine ⟨10 * D + d', _, by rw [repr10_cons (by omega) g2], by omega, by omega, ?_, ?_⟩
    · rw [show (-(m : Int)).toNat = 0 by omega, show (m : Int).toNat = m by omega, pow_zero, Nat.mul_one, Nat.mul_assoc]
      have e3 : (10 * D + d) * (10 ^ m * 2 ^ sh) = (10 * D + d') * (10 ^ m * 2 ^ sh) + (d - d') * (10 ^ m * 2 ^ sh) := by rw [← Nat.add_mul]; congr 1; omega
      have := R.l_le
      omega
    · rw [show (-(m : Int)).toNat = 0 by omega, show (m : Int).toNat = m by omega, pow_zero, Nat.mul_one, Nat.mul_assoc]
      have : (10 * D + d') * (10 ^ m * 2 ^ sh) ≤ (10 * D + d) * (10 ^ m * 2 ^ sh) := Nat.mul_le_mul_right _ (by omega)
      omega
  · right
    exact ⟨10 * D + d, p', hD', hmod, by omega, rfl⟩

theorem genInteger_ok {sh u l wf : Nat} (R : Range sh u l) (hw : wf ≤ u - l) : ∀ (m D part1 : Nat), m ≤ 9 →
    D * 10 ^ (m + 1) + part1 = u / 2 ^ sh → part1 < 10 ^ (m + 1) → u - l < part1 * 2 ^ sh + u % 2 ^ sh →
    ∃ D' κ, genInteger sh wf (u - l) (u % 2 ^ sh) (divsFrom m) part1 ((m : Int) + 1) (repr10 D) = .ok (repr10 D', κ) ∧ Between sh u l D' κ := by
  intro m
  induction m with
  | zero =>
    intro D part1 hm h1 h2 h3
    rcases genInteger_step R hw 0 D part1 [] hm h1 h2 h3 with h | ⟨D', p', g1, g2, g3, g4⟩
    · exact h
    · rw [divsFrom]
      rw [pow_zero] at g4
      rw [g4, genInteger]
      obtain rfl : p' = 0 := by omega
      have hp : 0 < 2 ^ sh := by positivity
      have hu := Nat.div_add_mod u (2 ^ sh)
      have hD : D' = u / 2 ^ sh := by omega
      have := genFraction_ok R hw 19 0 D' (u % 2 ^ sh) (by omega) (by rw [hD, Nat.mul_comm]; omega) (Nat.mod_lt _ hp) (by omega)
        (by rw [hD]; have := Nat.div_pos R.u_ge hp; omega)
      simpa using this
  | succ m ih =>
    intro D part1 hm h1 h2 h3
    rcases genInteger_step R hw (m + 1) D part1 (divsFrom m) hm h1 h2 h3 with h | ⟨D', p', g1, g2, g3, g4⟩
    · exact h
    · rw [divsFrom, g4]
      exact ih D' p' (by omega) g1 g2 g3

/-- `generate_digits` succeeds, with the digits of a number in the interval. -/
theorem generateDigits_ok {w u l : Nat} {e ew el : Int} (he : -60 ≤ e) (he' : e ≤ -32) (R : Range (-e).toNat u l) (hw : l ≤ w) (hw' : w ≤ u) :
    ∃ D κ, generateDigits ⟨w, ew⟩ ⟨u, e⟩ ⟨l, el⟩ = .ok ((repr10 D).reverse, κ) ∧ Between (-e).toNat u l D κ := by
  unfold generateDigits
  simp only
  rw [u64_add_sub R.u_lt hw', u64_add_sub R.u_lt R.l_le, tens_drop, Nat.shiftRight_eq_div_pow]
  have hsh : 2 ^ 32 ≤ 2 ^ (-e).toNat := Nat.pow_le_pow_right (by decide) (by omega)
  have hu := R.u_lt
  have hlt : u / 2 ^ (-e).toNat < 2 ^ 32 := by
    rw [Nat.div_lt_iff_lt_mul (by positivity)]
    have : 2 ^ 32 * 2 ^ 32 ≤ 2 ^ 32 * 2 ^ (-e).toNat := Nat.mul_le_mul_left _ hsh
    omega
  have hdm := Nat.div_add_mod u (2 ^ (-e).toNat)
  rw [Nat.mul_comm] at hdm
  have hl := R.l_pos
  obtain ⟨D, κ, h1, h2⟩ := genInteger_ok R (wf := u - w) (by omega) 9 0 (u / 2 ^ (-e).toNat) (by decide) (by rw [Nat.zero_mul, Nat.zero_add])
    (lt_of_lt_of_le hlt (by decide)) (by rw [hdm]; omega)
  refine ⟨D, κ, ?_, h2⟩
  have e0 : repr10 0 = [] := repr10_eq_nil.2 rfl
  rw [e0] at h1
  have e1 : divsFrom 9 = [10 ^ 9, 10 ^ 8, 10 ^ 7, 10 ^ 6, 10 ^ 5, 10 ^ 4, 10 ^ 3, 10 ^ 2, 10 ^ 1, 10 ^ 0] := by decide
  rw [e1] at h1
  have e2 : ((9 : Nat) : Int) + 1 = 10 := by decide
  rw [e2] at h1
  rw [h1, bind_ok]

end Abieos
