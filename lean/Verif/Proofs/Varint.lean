import Verif.Model.Varint
import Mathlib.Tactic.Ring
/-! Helper lemmas for variable length integers. -/
namespace Abieos

theorem varuintLoop_eq (v : Nat) : varuintLoop v =
    if v < 128 then [UInt8.ofNat v] else UInt8.ofNat (v % 128 + 128) :: varuintLoop (v / 128) := by
  rw [varuintLoop]
  have h1 : v >>> 7 = v / 128 := by simp [Nat.shiftRight_eq_div_pow]
  have h2 : v &&& 0x7f = v % 128 := Nat.and_two_pow_sub_one_eq_mod v 7
  have h3 : (v % 128) ||| (1 <<< 7) = v % 128 + 128 := by
    have := Nat.two_pow_add_eq_or_of_lt (i := 7) (b := v % 128) (Nat.mod_lt _ (by decide)) 1
    rw [Nat.or_comm]
    simpa [Nat.add_comm] using this.symm
  rw [h1, h2, h3]
  by_cases h : v < 128
  · have : v / 128 = 0 := by omega
    have h' : v % 128 = v := by omega
    simp [this, h, h']
  · have : v / 128 ≠ 0 := by omega
    simp [this, h]

theorem and_7f (n : Nat) : n &&& 0x7f = n % 128 := Nat.and_two_pow_sub_one_eq_mod n 7

theorem and_80 (b : UInt8) : (b.toNat &&& 0x80 ≠ 0) ↔ 128 ≤ b.toNat := by
  have : ∀ b : Fin 256, (b.val &&& 0x80 ≠ 0) ↔ 128 ≤ b.val := by decide +kernel
  exact this ⟨b.toNat, b.toNat_lt⟩

theorem or_shift_mod {w sh dest c : Nat} (hd : dest < 2 ^ sh) (hs : sh ≤ w) :
    dest ||| ((c <<< sh) % 2 ^ w) = dest + 2 ^ sh * (c % 2 ^ (w - sh)) := by
  have : (c <<< sh) % 2 ^ w = 2 ^ sh * (c % 2 ^ (w - sh)) := by
    rw [Nat.shiftLeft_eq]
    obtain ⟨k, rfl⟩ := Nat.exists_eq_add_of_le hs
    rw [Nat.pow_add, Nat.mul_comm c, Nat.mul_mod_mul_left]
    simp
  rw [this, Nat.or_comm, ← Nat.two_pow_add_eq_or_of_lt hd]
  omega

/-- One step of the reading loop, arithmetic form. -/
theorem fromLoop_cons {w lim sh dest : Nat} {b : UInt8} {s : Bytes} (h : sh < lim) (hs : sh ≤ w) (hd : dest < 2 ^ sh) :
    varuintFromBinLoop w lim sh dest (b :: s) =
      if 128 ≤ b.toNat then
        varuintFromBinLoop w lim (sh + 7) (dest + 2 ^ sh * (b.toNat % 128 % 2 ^ (w - sh))) s
      else .ok (dest + 2 ^ sh * (b.toNat % 2 ^ (w - sh)), s) := by
  rw [varuintFromBinLoop]
  simp only [h, dite_true, and_7f, or_shift_mod hd hs]
  by_cases hb : 128 ≤ b.toNat
  · have := (and_80 b).2 hb
    simp [this, hb]
  · have : b.toNat &&& 0x80 = 0 := by
      by_contra hc; exact hb ((and_80 b).1 hc)
    have h' : b.toNat % 128 = b.toNat := by omega
    simp [this, hb, h']

theorem dest_lt {sh w dest c : Nat} (hd : dest < 2 ^ sh) (hc : c < 128) :
    dest + 2 ^ sh * (c % 2 ^ (w - sh)) < 2 ^ (sh + 7) := by
  have h1 : c % 2 ^ (w - sh) ≤ 127 := le_trans (Nat.mod_le _ _) (by omega)
  have h2 : 2 ^ sh * (c % 2 ^ (w - sh)) ≤ 2 ^ sh * 127 := Nat.mul_le_mul_left _ h1
  have h3 : 2 ^ (sh + 7) = 2 ^ sh * 128 := by rw [Nat.pow_add]
  omega

theorem fromLoop_write (w lim : Nat) (hwl : w ≤ lim) (rest : Bytes) : ∀ v sh dest, dest < 2 ^ sh → v * 2 ^ sh < 2 ^ w →
    sh < lim → sh ≤ w →
    varuintFromBinLoop w lim sh dest (varuintLoop v ++ rest) = .ok (dest + 2 ^ sh * v, rest) := by
  intro v
  induction v using Nat.strong_induction_on with
  | _ v ih =>
    intro sh dest hd hv hl hs
    have hpow : 2 ^ w = 2 ^ (w - sh) * 2 ^ sh := by rw [← Nat.pow_add]; congr 1; omega
    have hv' : v < 2 ^ (w - sh) := by
      rw [hpow] at hv; exact Nat.lt_of_mul_lt_mul_right hv
    rw [varuintLoop_eq]
    by_cases h : v < 128
    · simp only [h, if_true, List.cons_append, List.nil_append]
      rw [fromLoop_cons hl hs hd]
      have hn : (UInt8.ofNat v).toNat = v := by simp; omega
      have : ¬ 128 ≤ v := by omega
      rw [hn, if_neg this, Nat.mod_eq_of_lt hv']
    · simp only [h, if_false, List.cons_append]
      rw [fromLoop_cons hl hs hd]
      have hn : (UInt8.ofNat (v % 128 + 128)).toNat = v % 128 + 128 := by simp; omega
      rw [hn, if_pos (by omega)]
      have e1 : (v % 128 + 128) % 128 = v % 128 := by omega
      have e2 : v % 128 % 2 ^ (w - sh) = v % 128 := Nat.mod_eq_of_lt (lt_of_le_of_lt (Nat.mod_le _ _) hv')
      have hd' := dest_lt (w := w) hd (Nat.mod_lt v (by decide : 0 < 128))
      rw [e1]
      rw [e2] at hd' ⊢
      have hdiv : v / 128 * 2 ^ (sh + 7) < 2 ^ w := by
        have : v / 128 * 2 ^ (sh + 7) = (v / 128 * 128) * 2 ^ sh := by rw [Nat.pow_add]; ring
        rw [this]
        exact lt_of_le_of_lt (Nat.mul_le_mul_right _ (by omega)) hv
      have hlt : 2 ^ (sh + 7) < 2 ^ w := by
        have : 1 * 2 ^ (sh + 7) ≤ v / 128 * 2 ^ (sh + 7) := Nat.mul_le_mul_right _ (by omega)
        omega
      have hsw : sh + 7 < w := (Nat.pow_lt_pow_iff_right (by decide)).1 hlt
      rw [ih (v / 128) (by omega) (sh + 7) _ hd' hdiv (by omega) (by omega)]
      congr 2
      have : v = 128 * (v / 128) + v % 128 := (Nat.div_add_mod v 128).symm
      have e3 : 2 ^ (sh + 7) * (v / 128) = 2 ^ sh * (128 * (v / 128)) := by rw [Nat.pow_add]; ring
      rw [e3, Nat.add_assoc, ← Nat.mul_add]
      congr 2; omega

theorem varuintLoop_length (k : Nat) : ∀ v, v < 2 ^ (7 * (k + 1)) ↔ (varuintLoop v).length ≤ k + 1 := by
  induction k with
  | zero =>
    intro v
    rw [varuintLoop_eq]
    by_cases h : v < 128
    · simp [h]
    · have : 0 < (varuintLoop (v / 128)).length := by rw [varuintLoop_eq]; split <;> simp
      simp only [h, if_false, List.length_cons]
      constructor
      · intro h'; norm_num at h'; omega
      · intro h'; omega
  | succ k ih =>
    intro v
    rw [varuintLoop_eq]
    by_cases h : v < 128
    · simp only [h, if_true, List.length_singleton]
      constructor
      · intro; omega
      · intro _
        have : 2 ^ 7 ≤ 2 ^ (7 * (k + 1 + 1)) := Nat.pow_le_pow_right (by decide) (by omega)
        omega
    · simp only [h, if_false, List.length_cons]
      have := ih (v / 128)
      have e : 2 ^ (7 * (k + 1 + 1)) = 2 ^ (7 * (k + 1)) * 128 := by
        rw [show 7 * (k + 1 + 1) = 7 * (k + 1) + 7 by ring, Nat.pow_add]
      rw [e, ← Nat.div_lt_iff_lt_mul (by decide), this]
      omega

theorem varuintLoop_length_pos (v : Nat) : 0 < (varuintLoop v).length := by
  rw [varuintLoop_eq]; split <;> simp

/-- What a successful read looks like. -/
theorem fromLoop_ok (w lim : Nat) (hlim : lim < w + 7) : ∀ s sh dest v r, dest < 2 ^ sh → (sh ≤ w → dest < 2 ^ w) → sh < lim + 7 → sh % 7 = 0 → lim % 7 = 0 →
    varuintFromBinLoop w lim sh dest s = .ok (v, r) →
    ∃ a, s = a ++ r ∧ 0 < a.length ∧ sh + 7 * a.length ≤ lim ∧ v < 2 ^ (sh + 7 * a.length) ∧ v < 2 ^ w := by
  intro s
  induction s with
  | nil =>
    intro sh dest v r _ _ _ _ _ h
    rw [varuintFromBinLoop] at h
    split at h <;> simp at h
  | cons b s ih =>
    intro sh dest v r hd hdw hsh hm hlm h
    by_cases hl : sh < lim
    · have hs : sh ≤ w := by omega
      have hw := hdw hs
      have hpow : 2 ^ w = 2 ^ (w - sh) * 2 ^ sh := by rw [← Nat.pow_add]; congr 1; omega
      have key : ∀ c, dest + 2 ^ sh * (c % 2 ^ (w - sh)) < 2 ^ w := by
        intro c
        have h1 : c % 2 ^ (w - sh) + 1 ≤ 2 ^ (w - sh) := Nat.mod_lt _ (Nat.two_pow_pos _)
        have h2 : 2 ^ sh * (c % 2 ^ (w - sh) + 1) ≤ 2 ^ w := by
          rw [hpow, Nat.mul_comm (2 ^ (w - sh))]; exact Nat.mul_le_mul_left _ h1
        have h3 : 2 ^ sh * (c % 2 ^ (w - sh) + 1) = 2 ^ sh * (c % 2 ^ (w - sh)) + 2 ^ sh := by ring
        omega
      rw [fromLoop_cons hl hs hd] at h
      split at h
      · have hd' := dest_lt (w := w) hd (Nat.mod_lt b.toNat (by decide : 0 < 128))
        obtain ⟨a, ha, _, hlen, hv, hv2⟩ := ih (sh + 7) _ v r hd' (fun _ => key _) (by omega) (by omega) hlm h
        refine ⟨b :: a, by simp [ha], by simp, ?_, ?_, hv2⟩
        · simp only [List.length_cons]; omega
        · simp only [List.length_cons]
          rw [show sh + 7 * (a.length + 1) = sh + 7 + 7 * a.length by ring]; exact hv
      · simp only [Except.ok.injEq, Prod.mk.injEq] at h
        obtain ⟨rfl, rfl⟩ := h
        refine ⟨[b], rfl, by simp, ?_, ?_, key _⟩
        · simp; omega
        · simpa using dest_lt (w := w) hd (by omega : b.toNat < 128)
    · rw [varuintFromBinLoop] at h
      simp [hl] at h

theorem sshr31 (v : BitVec 32) : v.sshiftRight 31 = if v.msb then BitVec.allOnes 32 else 0#32 := by
  apply BitVec.eq_of_getLsbD_eq
  intro i hi
  rw [BitVec.getLsbD_sshiftRight]
  have : ¬ (32 ≤ i) := by omega
  simp only [this, decide_false, Bool.not_false, Bool.true_and]
  by_cases h0 : i = 0
  · subst h0
    have : v.getLsbD 31 = v.msb := by simp [BitVec.msb_eq_getLsbD_last]
    simp only [Nat.add_zero, show (31 < 32) = True from by simp, if_true, this]
    cases v.msb <;> simp
  · have : ¬ (31 + i < 32) := by omega
    simp only [this, if_false]
    cases v.msb
    · simp
    · simp only [if_true, BitVec.getLsbD_allOnes, hi, decide_true]

theorem zigzag_toNat (v : BitVec 32) :
    ((zigzag v).toNat : Int) = if 0 ≤ v.toInt then 2 * v.toInt else -2 * v.toInt - 1 := by
  unfold zigzag
  rw [sshr31, BitVec.toInt_eq_msb_cond]
  have hv := v.isLt
  have hm := BitVec.msb_eq_decide v
  by_cases h : v.msb = true
  · rw [h] at hm
    simp only [h, if_true]
    rw [BitVec.xor_allOnes, BitVec.toNat_not, BitVec.toNat_shiftLeft, Nat.shiftLeft_eq]
    have : 2 ^ 31 ≤ v.toNat := by simpa using hm
    split <;> omega
  · simp only [Bool.not_eq_true] at h
    rw [h] at hm
    simp only [h]
    have : v.toNat < 2 ^ 31 := by simpa using hm
    simp only [Bool.false_eq_true, if_false, BitVec.xor_zero, BitVec.toNat_shiftLeft, Nat.shiftLeft_eq]
    split <;> omega

theorem unzigzag_toInt (u : BitVec 32) :
    (unzigzag u).toInt = if u.toNat % 2 = 0 then (u.toNat / 2 : Int) else -((u.toNat / 2 : Int)) - 1 := by
  unfold unzigzag
  have hu := u.isLt
  have hb : (u &&& 1#32 ≠ 0#32) ↔ u.toNat % 2 = 1 := by
    rw [ne_eq, ← BitVec.toNat_inj, BitVec.toNat_and]
    have : (1#32).toNat = 2 ^ 1 - 1 := rfl
    rw [this, Nat.and_two_pow_sub_one_eq_mod]
    simp
  by_cases h : u.toNat % 2 = 0
  · have : ¬ (u &&& 1#32 ≠ 0#32) := by rw [hb]; omega
    rw [if_neg this, if_pos h, BitVec.toInt_eq_toNat_cond, BitVec.toNat_ushiftRight, Nat.shiftRight_eq_div_pow]
    split <;> omega
  · have : (u &&& 1#32 ≠ 0#32) := by rw [hb]; omega
    rw [if_pos this, if_neg h, BitVec.toInt_eq_toNat_cond, BitVec.toNat_or, BitVec.toNat_ushiftRight, BitVec.toNat_not, Nat.shiftRight_eq_div_pow]
    have e : (0x80000000#32).toNat = 2 ^ 31 * 1 := rfl
    have hlt : (2 ^ 32 - 1 - u.toNat) / 2 ^ 1 < 2 ^ 31 := by omega
    rw [Nat.or_comm, e, ← Nat.two_pow_add_eq_or_of_lt hlt]
    split <;> omega

theorem unzigzag_zigzag (v : BitVec 32) : unzigzag (zigzag v) = v := by
  apply BitVec.eq_of_toInt_eq
  rw [unzigzag_toInt]
  have h := zigzag_toNat v
  split at h <;> split <;> omega

theorem zigzag_unzigzag (v : BitVec 32) : zigzag (unzigzag v) = v := by
  apply BitVec.eq_of_toNat_eq
  have h := zigzag_toNat (unzigzag v)
  rw [unzigzag_toInt] at h
  split at h <;> split at h <;> omega
end Abieos
