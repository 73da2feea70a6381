import Verif.Proofs.Bytes
import Verif.Spec.BigEndian
/-
Big-endian bytes of numbers.
-/
namespace Abieos
open Spec

/-- the bytes of a number, most significant first -/
def beBytes (w n : Nat) : Bytes := (leBytes w n).reverse

theorem beBytes_length (w n : Nat) : (beBytes w n).length = w := by simp [beBytes, leBytes_length]

theorem beBytes_append (a b n : Nat) : beBytes (a + b) n = beBytes a (n / 256 ^ b) ++ beBytes b n := by
  unfold beBytes
  rw [Nat.add_comm, leBytes_append, List.reverse_append]

theorem beBytes_mod (w n : Nat) : beBytes w (n % 256 ^ w) = beBytes w n := by unfold beBytes; rw [leBytes_mod]

theorem beVal_beBytes (w n : Nat) : beVal (beBytes w n) = n % 256 ^ w := by
  unfold beVal beBytes; rw [List.reverse_reverse, leVal_leBytes]

theorem beBytes_beVal (b : Bytes) : beBytes b.length (beVal b) = b := by
  unfold beVal beBytes
  have := leBytes_leVal b.reverse
  rw [List.length_reverse] at this
  rw [this, List.reverse_reverse]

theorem beBytes_zero (w : Nat) : beBytes w 0 = List.replicate w 0 := by
  have h : leBytes w 0 = List.replicate w 0 := by
    induction w with
    | zero => rfl
    | succ n ih => rw [leBytes, ih]; rfl
  rw [beBytes, h, List.reverse_replicate]

theorem beBytes_inj {w a b : Nat} (ha : a < 256 ^ w) (hb : b < 256 ^ w) (h : beBytes w a = beBytes w b) : a = b := by
  have := congrArg beVal h
  rwa [beVal_beBytes, beVal_beBytes, Nat.mod_eq_of_lt ha, Nat.mod_eq_of_lt hb] at this

theorem beVal_lt (b : Bytes) : beVal b < 256 ^ b.length := by
  have := leVal_lt b.reverse
  rwa [List.length_reverse] at this

/-! ## Differing at a position of both -/

/-- The lists differ, and at the first difference the byte of the first is smaller. -/
def Before (u v : Bytes) : Prop := ∃ p c d s t, u = p ++ c :: s ∧ v = p ++ d :: t ∧ c < d

theorem Before.append {u v : Bytes} (h : Before u v) (x y : Bytes) : Before (u ++ x) (v ++ y) := by
  obtain ⟨p, c, d, s, t, rfl, rfl, h⟩ := h
  exact ⟨p, c, d, s ++ x, t ++ y, by simp, by simp, h⟩

theorem Before.prepend {u v : Bytes} (p : Bytes) (h : Before u v) : Before (p ++ u) (p ++ v) := by
  obtain ⟨q, c, d, s, t, rfl, rfl, h⟩ := h
  exact ⟨p ++ q, c, d, s, t, by simp, by simp, h⟩

theorem Before.cons {u v : Bytes} (c : UInt8) (h : Before u v) : Before (c :: u) (c :: v) := h.prepend [c]

theorem Before.head {c d : UInt8} (h : c < d) (u v : Bytes) : Before (c :: u) (d :: v) := ⟨[], c, d, u, v, rfl, rfl, h⟩

theorem Before.lt {u v : Bytes} (h : Before u v) : u < v := by
  obtain ⟨p, c, d, s, t, rfl, rfl, h⟩ := h
  induction p with
  | nil => exact List.Lex.rel h
  | cons x p ih => exact List.Lex.cons ih

theorem Before.ne {u v : Bytes} (h : Before u v) : u ≠ v := by
  rintro rfl
  exact List.lt_irrefl u h.lt

theorem Before.not_prefix {u v : Bytes} (h : Before u v) : ¬ u <+: v ∧ ¬ v <+: u := by
  obtain ⟨p, c, d, s, t, rfl, rfl, h⟩ := h
  rw [List.prefix_append_right_inj, List.prefix_append_right_inj, List.cons_prefix_cons, List.cons_prefix_cons]
  constructor <;> (rintro ⟨rfl, -⟩; exact absurd h (by simp))

theorem Before.asymm {u v : Bytes} (h : Before u v) : ¬ Before v u := fun h' => List.lt_asymm h.lt h'.lt

/-- The byte order of big-endian numbers. -/
theorem beBytes_before : ∀ {w a b : Nat}, a < 256 ^ w → b < 256 ^ w → a < b → Before (beBytes w a) (beBytes w b)
  | 0, a, b, ha, hb, h => by simp at ha hb; omega
  | w + 1, a, b, ha, hb, h => by
    rw [Nat.add_comm w 1, beBytes_append, beBytes_append]
    have hp : 0 < 256 ^ w := Nat.pow_pos (by decide)
    have h1 : a / 256 ^ w < 256 := Nat.div_lt_of_lt_mul (by rwa [Nat.mul_comm, Nat.mul_comm, ← Nat.pow_succ])
    have h2 : b / 256 ^ w < 256 := Nat.div_lt_of_lt_mul (by rwa [Nat.mul_comm, Nat.mul_comm, ← Nat.pow_succ])
    have e1 : ∀ n, n < 256 → beBytes 1 n = [UInt8.ofNat n] := by
      intro n hn
      simp [beBytes, leBytes, Nat.mod_eq_of_lt hn]
    rw [e1 _ h1, e1 _ h2]
    have hle : a / 256 ^ w ≤ b / 256 ^ w := Nat.div_le_div_right (Nat.le_of_lt h)
    rcases Nat.lt_or_eq_of_le hle with hlt | heq
    · refine .head ?_ _ _
      rw [UInt8.lt_iff_toNat_lt, uint8_toNat_ofNat_lt h1, uint8_toNat_ofNat_lt h2]
      exact hlt
    · rw [heq]
      refine .cons _ ?_
      rw [← beBytes_mod w a, ← beBytes_mod w b]
      refine beBytes_before (Nat.mod_lt _ hp) (Nat.mod_lt _ hp) ?_
      have := Nat.div_add_mod a (256 ^ w)
      have := Nat.div_add_mod b (256 ^ w)
      rw [heq] at *
      omega

end Abieos
