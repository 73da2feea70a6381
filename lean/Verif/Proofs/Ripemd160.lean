import Verif.Spec.Ripemd160
import Verif.Model.Ripemd160
import Verif.Proofs.Bytes
/-! The compression function of the model is that of the paper. -/
namespace Abieos
open Spec Ripemd

/-- the five variables as the list kept by the code -/
def rmdList (v : RmdVars) : List UInt32 := [v.a, v.b, v.c, v.d, v.e]

def rmdVars (l : Line) : RmdVars := ⟨l.A, l.B, l.C, l.D, l.E⟩

theorem rol_eq {s : Nat} (h0 : 0 < s) (h : s < 32) (x : UInt32) : rol (UInt32.ofNat s) x = rmdRotl s x := by
  apply UInt32.toNat_inj.1
  unfold rol rmdRotl
  have hx := x.toNat_lt
  have hs : (UInt32.ofNat s).toNat = s := by rw [UInt32.toNat_ofNat']; exact Nat.mod_eq_of_lt (by omega)
  have hs' : ((32 : UInt32) - UInt32.ofNat s).toNat = 32 - s := by
    rw [UInt32.toNat_sub_of_le]
    · rw [hs]; rfl
    · rw [UInt32.le_iff_toNat_le, hs]; show s ≤ 32; omega
  rw [UInt32.toNat_or, UInt32.toNat_shiftLeft, UInt32.toNat_shiftRight, hs, hs', UInt32.toNat_ofNat']
  rw [Nat.mod_eq_of_lt h, Nat.mod_eq_of_lt (by omega : 32 - s < 32), Nat.shiftLeft_eq, Nat.shiftRight_eq_div_pow]
  have e : x.toNat * 2 ^ s % 2 ^ 32 = 2 ^ s * (x.toNat % 2 ^ (32 - s)) := by
    have : (2:Nat) ^ 32 = 2 ^ s * 2 ^ (32 - s) := by rw [← Nat.pow_add]; congr 1; omega
    rw [this, Nat.mul_comm x.toNat, Nat.mul_mod_mul_left]
  have hd : x.toNat / 2 ^ (32 - s) < 2 ^ s := by
    rw [Nat.div_lt_iff_lt_mul (Nat.two_pow_pos _), ← Nat.pow_add]
    have : s + (32 - s) = 32 := by omega
    rw [this]; exact hx
  rw [e, ← Nat.two_pow_add_eq_or_of_lt hd]
  have hlt : 2 ^ s * (x.toNat % 2 ^ (32 - s)) + x.toNat / 2 ^ (32 - s) < 2 ^ 32 := by
    have h1 : x.toNat % 2 ^ (32 - s) + 1 ≤ 2 ^ (32 - s) := Nat.mod_lt _ (Nat.two_pow_pos _)
    have h2 := Nat.mul_le_mul_left (2 ^ s) h1
    rw [← Nat.pow_add, Nat.mul_add] at h2
    have : s + (32 - s) = 32 := by omega
    rw [this] at h2
    omega
  rw [Nat.mod_eq_of_lt hlt]

theorem step_eq {F : UInt32 → UInt32 → UInt32 → UInt32} {k x : UInt32} {s : Nat} (h0 : 0 < s) (h : s < 32) (l : Line) :
    rmdVars (step F k l (UInt32.ofNat s) x) = rmdStep F k x s (rmdVars l) := by
  simp only [step, rmdStep, rmdVars, rol_eq h0 h]
  have := rol_eq (s := 10) (by decide) (by decide) l.C
  simp only [show (UInt32.ofNat 10) = (10 : UInt32) from rfl] at this
  rw [this]

theorem line_eq {F : UInt32 → UInt32 → UInt32 → UInt32} {k : UInt32} {X : List UInt32} (L : List (Nat × Nat)) :
    (∀ p ∈ L, 0 < p.1 ∧ p.1 < 32) → ∀ l : Line,
      rmdVars (line F k X (L.map fun p => UInt32.ofNat p.1) (L.map (·.2)) l) = L.foldl (fun v p => rmdStep F k (X.getD p.2 0) p.1 v) (rmdVars l) := by
  induction L with
  | nil => intro _ l; rfl
  | cons p L ih =>
    intro h l
    have hp := h p (by simp)
    simp only [List.map_cons, List.foldl_cons]
    rw [line, ih (fun q hq => h q (by simp [hq])), step_eq hp.1 hp.2]

/-- shift and word of each step of round `k` -/
def leftSteps (k : Nat) : List (Nat × Nat) := (List.range 16).map fun i => (rmdShift k (rmdWordLeft (16 * k + i)), rmdWordLeft (16 * k + i))
def rightSteps (k : Nat) : List (Nat × Nat) := (List.range 16).map fun i => (rmdShift k (rmdWordRight (16 * k + i)), rmdWordRight (16 * k + i))

theorem leftSteps_table : ∀ k < 5, SL.getD k [] = (leftSteps k).map (fun p => UInt32.ofNat p.1) ∧ RL.getD k [] = (leftSteps k).map (·.2) ∧
    ∀ p ∈ leftSteps k, 0 < p.1 ∧ p.1 < 32 := by decide +kernel

theorem rightSteps_table : ∀ k < 5, SR.getD k [] = (rightSteps k).map (fun p => UInt32.ofNat p.1) ∧ RR.getD k [] = (rightSteps k).map (·.2) ∧
    ∀ p ∈ rightSteps k, 0 < p.1 ∧ p.1 < 32 := by decide +kernel

theorem line_left {F : UInt32 → UInt32 → UInt32 → UInt32} {k : UInt32} {X : List UInt32} {i : Nat} (h : i < 5) (l : Line) :
    rmdVars (line F k X (SL.getD i []) (RL.getD i []) l) = (leftSteps i).foldl (fun v p => rmdStep F k (X.getD p.2 0) p.1 v) (rmdVars l) := by
  obtain ⟨h1, h2, h3⟩ := leftSteps_table i h
  rw [h1, h2, line_eq _ h3]

theorem line_right {F : UInt32 → UInt32 → UInt32 → UInt32} {k : UInt32} {X : List UInt32} {i : Nat} (h : i < 5) (l : Line) :
    rmdVars (line F k X (SR.getD i []) (RR.getD i []) l) = (rightSteps i).foldl (fun v p => rmdStep F k (X.getD p.2 0) p.1 v) (rmdVars l) := by
  obtain ⟨h1, h2, h3⟩ := rightSteps_table i h
  rw [h1, h2, line_eq _ h3]

theorem range80 : List.range 80 = (List.range 5).flatMap fun k => (List.range 16).map fun i => 16 * k + i := by decide

theorem fold80 (g : RmdVars → Nat → RmdVars) (v : RmdVars) :
    (List.range 80).foldl g v = (List.range 5).foldl (fun v k => (List.range 16).foldl (fun v i => g v (16 * k + i)) v) v := by
  rw [range80, List.foldl_flatMap]
  simp only [List.foldl_map]

theorem foldl_congr_mem {α β : Type} {f g : β → α → β} {l : List α} (h : ∀ b, ∀ a ∈ l, f b a = g b a) (b : β) : l.foldl f b = l.foldl g b := by
  induction l generalizing b with
  | nil => rfl
  | cons a l ih => rw [List.foldl_cons, List.foldl_cons, h b a (by simp), ih fun b a ha => h b a (by simp [ha])]

theorem div16 {k i : Nat} (h : i ∈ List.range 16) : (16 * k + i) / 16 = k := by have := List.mem_range.1 h; omega

theorem rmdLeft_eq (X : List UInt32) (v : RmdVars) :
    rmdLeft X v = (List.range 5).foldl (fun v k => (leftSteps k).foldl (fun v p => rmdStep (rmdF k) (rmdKLeft k) (X.getD p.2 0) p.1 v) v) v := by
  unfold rmdLeft leftSteps
  rw [fold80]
  refine foldl_congr_mem (fun b k _ => ?_) _
  rw [List.foldl_map]
  refine foldl_congr_mem (fun b i hi => ?_) _
  rw [div16 hi]

theorem rmdRight_eq (X : List UInt32) (v : RmdVars) :
    rmdRight X v = (List.range 5).foldl (fun v k => (rightSteps k).foldl (fun v p => rmdStep (rmdF (4 - k)) (rmdKRight k) (X.getD p.2 0) p.1 v) v) v := by
  unfold rmdRight rightSteps
  rw [fold80]
  refine foldl_congr_mem (fun b k _ => ?_) _
  rw [List.foldl_map]
  refine foldl_congr_mem (fun b i hi => ?_) _
  rw [div16 hi]

theorem range5 : List.range 5 = [0, 1, 2, 3, 4] := by decide

theorem rounds_eq (X : List UInt32) (l r : Line) :
    rmdVars (rounds X l r).1 = rmdLeft X (rmdVars l) ∧ rmdVars (rounds X l r).2 = rmdRight X (rmdVars r) := by
  rw [rmdLeft_eq, rmdRight_eq, range5]
  constructor
  · simp only [rounds, List.foldl_cons, List.foldl_nil]
    rw [line_left (by decide), line_left (by decide), line_left (by decide), line_left (by decide), line_left (by decide)]
    rfl
  · simp only [rounds, List.foldl_cons, List.foldl_nil]
    rw [line_right (by decide), line_right (by decide), line_right (by decide), line_right (by decide), line_right (by decide)]
    rfl

theorem word_eq (a b c d : UInt8) : (a.toUInt32 ||| (b.toUInt32 <<< 8) ||| (c.toUInt32 <<< 16) ||| (d.toUInt32 <<< 24)) =
    UInt32.ofNat (a.toNat + 256 * b.toNat + 256 ^ 2 * c.toNat + 256 ^ 3 * d.toNat) := by
  apply UInt32.toNat_inj.1
  have ha := a.toNat_lt; have hb := b.toNat_lt; have hc := c.toNat_lt; have hd := d.toNat_lt
  have e8 : (b.toUInt32 <<< 8).toNat = 2 ^ 8 * b.toNat := by
    rw [UInt32.toNat_shiftLeft, UInt8.toNat_toUInt32, Nat.shiftLeft_eq]; show b.toNat * 2 ^ 8 % 2 ^ 32 = _; omega
  have e16 : (c.toUInt32 <<< 16).toNat = 2 ^ 16 * c.toNat := by
    rw [UInt32.toNat_shiftLeft, UInt8.toNat_toUInt32, Nat.shiftLeft_eq]; show c.toNat * 2 ^ 16 % 2 ^ 32 = _; omega
  have e24 : (d.toUInt32 <<< 24).toNat = 2 ^ 24 * d.toNat := by
    rw [UInt32.toNat_shiftLeft, UInt8.toNat_toUInt32, Nat.shiftLeft_eq]; show d.toNat * 2 ^ 24 % 2 ^ 32 = _; omega
  rw [UInt32.toNat_or, UInt32.toNat_or, UInt32.toNat_or, e8, e16, e24, UInt8.toNat_toUInt32, UInt32.toNat_ofNat']
  rw [Nat.or_comm a.toNat, ← Nat.two_pow_add_eq_or_of_lt (by omega)]
  rw [Nat.or_comm _ (2 ^ 16 * c.toNat), ← Nat.two_pow_add_eq_or_of_lt (by omega)]
  rw [Nat.or_comm _ (2 ^ 24 * d.toNat), ← Nat.two_pow_add_eq_or_of_lt (by omega)]
  omega

theorem words_eq : ∀ b : Bytes, words b = rmdWords b
  | a :: b :: c :: d :: s => by rw [words, rmdWords, word_eq, words_eq s]
  | [] => rfl
  | [_] => rfl
  | [_, _] => rfl
  | [_, _, _] => rfl

/-- the compression function of the code is that of the paper -/
theorem compress_eq (v : RmdVars) (block : Bytes) : compress (rmdList v) block = rmdList (rmdCompress v block) := by
  obtain ⟨hl, hr⟩ := rounds_eq (words block) ⟨v.a, v.b, v.c, v.d, v.e⟩ ⟨v.a, v.b, v.c, v.d, v.e⟩
  rw [words_eq] at hl hr
  have e : rmdVars ⟨v.a, v.b, v.c, v.d, v.e⟩ = v := rfl
  rw [e] at hl hr
  simp only [compress, rmdList, rmdCompress, words_eq]
  rw [← hl, ← hr]
  rfl

end Abieos
