import Verif.Spec.Decimal
import Verif.Model.JsonInt
import Verif.Proofs.Bytes
import Mathlib.Tactic.Ring
/-! Lemmas about decimal digit strings. -/
namespace Abieos
open Spec

theorem isDigit_iff (c : UInt8) : (48 ≤ c ∧ c ≤ 57) ↔ IsDigit c := by
  revert c; apply forall_uint8; decide +kernel

theorem isDigit_iff' (c : UInt8) : IsDigit c ↔ 48 ≤ c.toNat ∧ c.toNat ≤ 57 := Iff.rfl

theorem decFrom_eq (m : Nat) (s : Bytes) : decFrom m s = m * 10 ^ s.length + decVal s := by
  induction s generalizing m with
  | nil => simp [decFrom, decVal]
  | cons c s ih =>
    have h : decVal (c :: s) = (0 * 10 + digitVal c) * 10 ^ s.length + decVal s := by rw [← ih]; rfl
    rw [decFrom, ih, h, List.length_cons, Nat.pow_succ]
    ring

theorem decFrom_append (m : Nat) (s t : Bytes) : decFrom m (s ++ t) = decFrom (decFrom m s) t := by
  induction s generalizing m with
  | nil => rfl
  | cons c s ih => rw [List.cons_append, decFrom, decFrom, ih]

theorem decVal_snoc (s : Bytes) (c : UInt8) : decVal (s ++ [c]) = decVal s * 10 + (c.toNat - 48) := by
  rw [decVal, decFrom_append, ← digitVal_eq]; rfl

theorem decFrom_ge (m : Nat) (s : Bytes) : m ≤ decFrom m s := by
  rw [decFrom_eq]
  have : 1 ≤ 10 ^ s.length := Nat.one_le_pow _ _ (by decide)
  have := Nat.mul_le_mul_left m this
  omega

theorem decVal_lt (s : Bytes) (h : ∀ c ∈ s, IsDigit c) : decVal s < 10 ^ s.length := by
  induction s with
  | nil => simp [decVal, decFrom]
  | cons c s ih =>
    have hc := (isDigit_iff' c).1 (h c (by simp))
    have := ih (fun d hd => h d (by simp [hd]))
    rw [decVal, decFrom, decFrom_eq, digitVal_eq, List.length_cons, Nat.pow_succ]
    simp only [Nat.zero_mul, Nat.zero_add]
    have h9 : (c.toNat - 48) * 10 ^ s.length ≤ 9 * 10 ^ s.length := Nat.mul_le_mul_right _ (by omega)
    omega

theorem digit_toNat {n : Nat} (h : n < 10) : (UInt8.ofNat (48 + n)).toNat = 48 + n := by
  simp; omega

theorem digit_isDigit {n : Nat} (h : n < 10) : IsDigit (UInt8.ofNat (48 + n)) := by
  rw [isDigit_iff', digit_toNat h]; omega

theorem decRev_isDigit (u : Nat) : ∀ c ∈ decRev u, IsDigit c := by
  induction u using Nat.strong_induction_on with
  | _ u ih =>
    rw [decRev]
    intro c hc
    rcases List.mem_cons.1 hc with rfl | hc
    · exact digit_isDigit (Nat.mod_lt _ (by decide))
    · split at hc
      · simp at hc
      · exact ih (u / 10) (by omega) c hc

theorem decRev_ne_nil (u : Nat) : decRev u ≠ [] := by rw [decRev]; simp

theorem decRev_val (u : Nat) : decVal (decRev u).reverse = u := by
  induction u using Nat.strong_induction_on with
  | _ u ih =>
    rw [decRev, List.reverse_cons, decVal_snoc, digit_toNat (Nat.mod_lt _ (by decide))]
    split
    · simp [decVal, decFrom]; omega
    · rw [ih (u / 10) (by omega)]; omega

theorem decRev_length (k : Nat) : ∀ u, u < 10 ^ (k + 1) → (decRev u).length ≤ k + 1 := by
  induction k with
  | zero =>
    intro u h
    rw [decRev]
    have : u / 10 = 0 := by omega
    simp [this]
  | succ k ih =>
    intro u h
    rw [decRev]
    split
    · simp
    · have := ih (u / 10) (by rw [Nat.pow_succ] at h; omega)
      simp; omega

/-- the digit string has no superfluous leading zero -/
theorem decRev_getLast (u : Nat) (hu : u ≠ 0) : (decRev u).getLast? ≠ some 48 := by
  induction u using Nat.strong_induction_on with
  | _ u ih =>
    rw [decRev]
    split
    · simp only [List.getLast?_singleton, ne_eq, Option.some.injEq]
      intro h
      have := congrArg UInt8.toNat h
      rw [digit_toNat (Nat.mod_lt _ (by decide))] at this
      simp at this; omega
    · have := ih (u / 10) (by omega) (by assumption)
      rw [List.getLast?_cons]
      cases h : (decRev (u / 10)).getLast? with
      | none => simp at h; exact absurd h (decRev_ne_nil _)
      | some x => rw [h] at this; simpa using this

theorem natDec_isDecimal (u : Nat) : IsDecimal (decRev u).reverse u :=
  ⟨by simp [decRev_ne_nil], fun c hc => decRev_isDigit u c (by simpa using hc), decRev_val u⟩

/-! ### from_json_int -/

/-- The integer types of the code base. -/
def IntTy.Std (t : IntTy) : Prop := t.bits = 8 ∨ t.bits = 16 ∨ t.bits = 32 ∨ t.bits = 64 ∨ t.bits = 128

/-- `x` is in the range of `t`. -/
def IntTy.In (t : IntTy) (x : Int) : Prop := t.min ≤ x ∧ x ≤ t.max

theorem arith_in {t : IntTy} (ht : t.Std) {x : Int} (hx : t.In x) : t.arith x = .ok x := by
  obtain ⟨s, b⟩ := t
  rcases ht with h | h | h | h | h <;> simp only at h <;> subst h <;> cases s <;>
    simp [IntTy.In, IntTy.min, IntTy.max, IntTy.arith] at hx ⊢ <;> omega

theorem wrap_in {t : IntTy} (ht : t.Std) {x : Int} (hx : t.In x) : t.wrap x = x := by
  obtain ⟨s, b⟩ := t
  rcases ht with h | h | h | h | h <;> simp only at h <;> subst h <;> cases s <;>
    simp [IntTy.In, IntTy.min, IntTy.max, IntTy.wrap] at hx ⊢ <;> (try split) <;> omega

theorem max_ge {t : IntTy} (ht : t.Std) : 127 ≤ t.max := by
  obtain ⟨s, b⟩ := t
  rcases ht with h | h | h | h | h <;> simp only at h <;> subst h <;> cases s <;> decide

theorem min_le {t : IntTy} (ht : t.Std) (hs : t.signed = true) : t.min ≤ -128 ∧ t.min = -t.max - 1 := by
  obtain ⟨s, b⟩ := t
  simp only at hs; subst hs
  rcases ht with h | h | h | h | h <;> simp only at h <;> subst h <;> decide

theorem neg_tdiv_gt (L d m : Int) (hL : 0 ≤ L - d) : (-L + d).tdiv 10 > -m ↔ L < m * 10 + d := by
  rw [show -L + d = -(L - d) by ring, Int.neg_tdiv, Int.tdiv_eq_ediv_of_nonneg hL]
  omega

/-- The loop started with magnitude `m` and sign `sign`: accepts exactly digit strings whose magnitude stays within
`L`, never overflows. -/
theorem fromJsonIntLoop_iff (t : IntTy) (ht : t.Std) (sign limit L : Int)
    (hs : (sign = 1 ∧ limit = t.max ∧ L = t.max) ∨ (t.signed = true ∧ sign = -1 ∧ limit = t.min ∧ L = -t.min)) :
    ∀ (s : Bytes) (m : Nat) (found : Bool), (m : Int) ≤ L →
      (∀ v, fromJsonIntLoop t sign limit (sign * m) found s = .ok v ↔
        ((∀ c ∈ s, IsDigit c) ∧ (found = true ∨ s ≠ []) ∧ (decFrom m s : Int) ≤ L ∧ v = sign * decFrom m s)) ∧
      (∀ e, fromJsonIntLoop t sign limit (sign * m) found s = .error e → e = .expected_int ∨ e = .number_out_of_range) := by
  intro s
  have hL : 127 ≤ L := by
    have := max_ge ht
    rcases hs with ⟨_, _, rfl⟩ | ⟨h, _, _, rfl⟩
    · exact this
    · have := min_le ht h; omega
  have hin : ∀ k : Int, 0 ≤ k → k ≤ L → t.In (sign * k) := by
    intro k h0 h1
    unfold IntTy.In
    have hmx := max_ge ht
    rcases hs with ⟨rfl, _, rfl⟩ | ⟨h, rfl, _, rfl⟩
    · have : t.min ≤ 0 := by
        cases hh : t.signed
        · simp [IntTy.min, hh]
        · have := min_le ht hh; omega
      omega
    · have := min_le ht h; omega
  induction s with
  | nil =>
    intro m found hm
    cases found <;> simp [fromJsonIntLoop, decFrom, hm, eq_comm]
  | cons c s ih =>
    intro m found hm
    rw [fromJsonIntLoop]
    by_cases hc : IsDigit c
    · have hc' := (isDigit_iff c).2 hc
      have hc2 := (isDigit_iff' c).1 hc
      rw [if_pos hc']
      have hdc : decFrom m (c :: s) = decFrom (m * 10 + (c.toNat - 48)) s := by rw [decFrom, digitVal_eq]
      have hd : ((c.toNat - 48 : Nat) : Int) = (c.toNat : Int) - 48 := by omega
      by_cases hfit : ((m * 10 + (c.toNat - 48) : Nat) : Int) ≤ L
      · -- the digit is accepted
        have hstep : (do
            let d : Int := (c.toNat : Int) - 48
            if t.signed then
              let nl ← t.arith (-sign * limit)
              let x ← t.arith (nl + d)
              let nr ← t.arith (-sign * (sign * m))
              if x.tdiv 10 > nr then throw .number_out_of_range
            else
              let x ← t.arith (limit - d)
              if x.tdiv 10 < sign * m then throw .number_out_of_range
            let a ← t.arith (sign * m * 10)
            let b ← t.arith (sign * d)
            let r' ← t.arith (a + b)
            fromJsonIntLoop t sign limit (t.wrap r') true s : Res Int) =
            fromJsonIntLoop t sign limit (sign * ((m * 10 + (c.toNat - 48) : Nat) : Int)) true s := by
          push_cast at hfit
          rw [hd] at hfit
          have ha := arith_in ht (hin (m * 10) (by omega) (by omega))
          have hb := arith_in ht (hin ((c.toNat : Int) - 48) (by omega) (by omega))
          have hr := arith_in ht (hin (m * 10 + ((c.toNat : Int) - 48)) (by omega) (by omega))
          have hw := wrap_in ht (hin (m * 10 + ((c.toNat : Int) - 48)) (by omega) (by omega))
          have e1 : sign * m * 10 = sign * (m * 10) := by ring
          have e2 : sign * (m * 10 : Int) + sign * ((c.toNat : Int) - 48) = sign * (m * 10 + ((c.toNat : Int) - 48)) := by ring
          have hcast : ((m * 10 + (c.toNat - 48) : Nat) : Int) = m * 10 + ((c.toNat : Int) - 48) := by
            push_cast; rw [hd]
          simp only [e1, ha, hb, bind_ok, e2, hr, hw, hcast]
          by_cases hsg : t.signed = true
          · have hmin := min_le ht hsg
            have e3 : -sign * limit = -L := by
              rcases hs with ⟨rfl, rfl, rfl⟩ | ⟨_, rfl, rfl, rfl⟩ <;> ring
            have e4 : -sign * (sign * m) = -(m : Int) := by
              rcases hs with ⟨rfl, _, _⟩ | ⟨_, rfl, _, _⟩ <;> ring
            have hInNeg : ∀ k : Int, 0 ≤ k → k ≤ L → t.In (-k) := by
              intro k h0 h1
              unfold IntTy.In
              rcases hs with ⟨_, _, rfl⟩ | ⟨_, _, _, rfl⟩ <;> omega
            have g1 := arith_in ht (hInNeg L (by omega) (by omega))
            have g2 := arith_in ht (hInNeg (L - ((c.toNat : Int) - 48)) (by omega) (by omega))
            have g3 := arith_in ht (hInNeg m (by omega) (by omega))
            have e5 : -L + ((c.toNat : Int) - 48) = -(L - ((c.toNat : Int) - 48)) := by ring
            simp only [hsg, if_true, e3, e4, g1, g3, bind_ok, e5, g2]
            have := neg_tdiv_gt L ((c.toNat : Int) - 48) m (by omega)
            rw [← e5]
            have hng : ¬ ((-L + ((c.toNat : Int) - 48)).tdiv 10 > -(m : Int)) := by rw [this]; omega
            simp only [hng, if_false]
          · have hsg' : t.signed = false := by simpa using hsg
            rcases hs with ⟨rfl, rfl, rfl⟩ | ⟨h, _⟩
            · have g := arith_in ht (x := t.max - ((c.toNat : Int) - 48)) (by
                unfold IntTy.In; simp only [IntTy.min, hsg']; simp; omega)
              simp only [hsg', Bool.false_eq_true, if_false, g, bind_ok]
              rw [Int.tdiv_eq_ediv_of_nonneg (by omega)]
              have hng : ¬ ((t.max - ((c.toNat : Int) - 48)) / 10 < 1 * (m : Int)) := by omega
              simp only [hng, if_false]
            · exact absurd h hsg
        have ih' := ih (m * 10 + (c.toNat - 48)) true hfit
        rw [hstep]
        refine ⟨?_, ih'.2⟩
        intro v
        rw [ih'.1 v, hdc]
        simp [hc]
      · -- out of range
        have hstep : (do
            let d : Int := (c.toNat : Int) - 48
            if t.signed then
              let nl ← t.arith (-sign * limit)
              let x ← t.arith (nl + d)
              let nr ← t.arith (-sign * (sign * m))
              if x.tdiv 10 > nr then throw .number_out_of_range
            else
              let x ← t.arith (limit - d)
              if x.tdiv 10 < sign * m then throw .number_out_of_range
            let a ← t.arith (sign * m * 10)
            let b ← t.arith (sign * d)
            let r' ← t.arith (a + b)
            fromJsonIntLoop t sign limit (t.wrap r') true s : Res Int) = .error .number_out_of_range := by
          push_cast at hfit
          rw [hd] at hfit
          by_cases hsg : t.signed = true
          · have hmin := min_le ht hsg
            have e3 : -sign * limit = -L := by
              rcases hs with ⟨rfl, rfl, rfl⟩ | ⟨_, rfl, rfl, rfl⟩ <;> ring
            have e4 : -sign * (sign * m) = -(m : Int) := by
              rcases hs with ⟨rfl, _, _⟩ | ⟨_, rfl, _, _⟩ <;> ring
            have hInNeg : ∀ k : Int, 0 ≤ k → k ≤ L → t.In (-k) := by
              intro k h0 h1
              unfold IntTy.In
              rcases hs with ⟨_, _, rfl⟩ | ⟨_, _, _, rfl⟩ <;> omega
            have g1 := arith_in ht (hInNeg L (by omega) (by omega))
            have g2 := arith_in ht (hInNeg (L - ((c.toNat : Int) - 48)) (by omega) (by omega))
            have g3 := arith_in ht (hInNeg m (by omega) (by omega))
            have e5 : -L + ((c.toNat : Int) - 48) = -(L - ((c.toNat : Int) - 48)) := by ring
            simp only [hsg, if_true, e3, e4, g1, g3, bind_ok, e5, g2]
            have := neg_tdiv_gt L ((c.toNat : Int) - 48) m (by omega)
            rw [← e5]
            have hng : ((-L + ((c.toNat : Int) - 48)).tdiv 10 > -(m : Int)) := by rw [this]; omega
            simp only [hng, if_true]
            rfl
          · have hsg' : t.signed = false := by simpa using hsg
            rcases hs with ⟨rfl, rfl, rfl⟩ | ⟨h, _⟩
            · have g := arith_in ht (x := t.max - ((c.toNat : Int) - 48)) (by
                unfold IntTy.In; simp only [IntTy.min, hsg']; simp; omega)
              simp only [hsg', Bool.false_eq_true, if_false, g, bind_ok]
              rw [Int.tdiv_eq_ediv_of_nonneg (by omega)]
              have hng : ((t.max - ((c.toNat : Int) - 48)) / 10 < 1 * (m : Int)) := by omega
              simp only [hng, if_true]
              rfl
            · exact absurd h hsg
        rw [hstep]
        constructor
        · intro v
          have := decFrom_ge (m * 10 + (c.toNat - 48)) s
          rw [hdc]
          constructor
          · intro h; simp at h
          · rintro ⟨_, _, h, _⟩; exfalso; omega
        · intro e he; simp at he; exact Or.inr he.symm
    · have hc' : ¬ (48 ≤ c ∧ c ≤ 57) := fun h => hc ((isDigit_iff c).1 h)
      rw [if_neg hc']
      constructor
      · intro v; simp [hc]
      · intro e he; simp at he; exact Or.inl he.symm

end Abieos
