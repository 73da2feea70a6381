import Verif.Model.Basic
import Verif.Spec.LittleEndian
/-! Small general lemmas. -/
namespace Abieos

theorem forall_uint8 {P : UInt8 → Prop} (h : ∀ n : Fin 256, P (UInt8.ofNat n.val)) : ∀ b, P b := by
  intro b
  have := h ⟨b.toNat, b.toNat_lt⟩
  simpa using this

theorem uint8_toNat_ofNat_lt {n : Nat} (h : n < 256) : (UInt8.ofNat n).toNat = n := by
  simp; omega

theorem uint8_ext {a b : UInt8} (h : a.toNat = b.toNat) : a = b := UInt8.toNat_inj.1 h

open Spec in
theorem leVal_lt (a : Bytes) : leVal a < 256 ^ a.length := by
  induction a with
  | nil => simp [leVal]
  | cons b s ih =>
    rw [leVal, List.length_cons, Nat.pow_succ]
    have := b.toNat_lt
    omega

open Spec in
theorem leVal_inj : ∀ a b : Bytes, a.length = b.length → leVal a = leVal b → a = b
  | [], [], _, _ => rfl
  | x :: a, y :: b, hl, h => by
    simp only [leVal] at h
    have hx := x.toNat_lt
    have hy := y.toNat_lt
    have e1 : x.toNat = y.toNat := by omega
    have e2 : leVal a = leVal b := by omega
    rw [uint8_ext e1, leVal_inj a b (by simpa using hl) e2]

open Spec in
theorem leVal_zero (n : Nat) : leVal (List.replicate n 0) = 0 := by
  induction n with
  | zero => rfl
  | succ n ih => simp [List.replicate_succ, leVal, ih]

theorem leBytes_length : ∀ n v, (leBytes n v).length = n
  | 0, _ => rfl
  | n + 1, v => by rw [leBytes, List.length_cons, leBytes_length]

theorem leBytes_append : ∀ n m v, leBytes (n + m) v = leBytes n v ++ leBytes m (v / 256 ^ n)
  | 0, m, v => by simp [leBytes]
  | n + 1, m, v => by
    rw [show n + 1 + m = (n + m) + 1 by omega, leBytes, leBytes, leBytes_append n m, List.cons_append, Nat.div_div_eq_div_mul, Nat.pow_succ,
      Nat.mul_comm 256]

theorem leBytes_mod : ∀ n v, leBytes n (v % 256 ^ n) = leBytes n v
  | 0, _ => rfl
  | n + 1, v => by
    have h1 : v % 256 ^ (n + 1) % 256 = v % 256 := Nat.mod_mod_of_dvd v ⟨256 ^ n, by rw [Nat.pow_succ, Nat.mul_comm]⟩
    have h2 : v % 256 ^ (n + 1) / 256 = v / 256 % 256 ^ n := by
      rw [Nat.pow_succ, Nat.mul_comm, Nat.mod_mul_right_div_self]
    rw [leBytes, leBytes, h1, h2, leBytes_mod n]

open Spec in
theorem leVal_leBytes : ∀ n v, leVal (leBytes n v) = v % 256 ^ n
  | 0, v => by simp [leBytes, leVal, Nat.mod_one]
  | n + 1, v => by
    rw [leBytes, leVal, leVal_leBytes n, uint8_toNat_ofNat_lt (Nat.mod_lt _ (by decide)), Nat.pow_succ, Nat.mul_comm (256 ^ n), Nat.mod_mul]

open Spec in
theorem leBytes_leVal : ∀ a : Bytes, leBytes a.length (leVal a) = a
  | [] => rfl
  | b :: s => by
    have hb := b.toNat_lt
    have h1 : (b.toNat + 256 * leVal s) % 256 = b.toNat := by omega
    have h2 : (b.toNat + 256 * leVal s) / 256 = leVal s := by omega
    rw [List.length_cons, leBytes, leVal, h1, h2, leBytes_leVal s, UInt8.ofNat_toNat]

end Abieos
