import Verif.Proofs.GrisuValue
import Verif.Proofs.Decimal
import Verif.Spec.Double
/-
The text of the digits: `emit_digits`.
-/
namespace Abieos
open Spec

theorem numberValue_json {t : Bytes} {x : ℚ} (h : NumberValue t x) : JsonNumber t := by
  obtain ⟨neg, int, fd, frac, exp, e, rfl, h1, h2, h3, h4, -⟩ := h
  refine ⟨_, int, frac, exp, rfl, by cases neg <;> simp, h1, h2, ?_, ?_⟩
  · rcases h3 with ⟨-, rfl⟩ | ⟨hd, rfl⟩
    · exact .inl rfl
    · exact .inr ⟨_, hd, rfl⟩
  · rcases h4 with ⟨rfl, -⟩ | ⟨E, sg, d, a, b, c, rfl, -⟩
    · exact .inl rfl
    · exact .inr ⟨E, sg, d, a, b, c, rfl⟩

/-- The characters of a positive number. -/
def text10 (D : Nat) : Bytes := (repr10 D).reverse.map UInt8.ofNat

theorem text10_facts : ∀ (n D : Nat), D < 10 ^ n → D ≠ 0 → (∀ c ∈ text10 D, IsDigit c) ∧ decVal (text10 D) = D ∧ text10 D ≠ [] ∧ (text10 D).head? ≠ some 48
  | 0, D, h, h0 => by simp at h; omega
  | n + 1, D, h, h0 => by
    have hD : D = 10 * (D / 10) + D % 10 := (Nat.div_add_mod D 10).symm
    have hm : D % 10 < 10 := Nat.mod_lt _ (by decide)
    have hrep : repr10 D = (D % 10 + 48) :: repr10 (D / 10) := by
      conv_lhs => rw [hD]
      exact repr10_cons hm (by omega)
    have ht : text10 D = text10 (D / 10) ++ [UInt8.ofNat (D % 10 + 48)] := by
      unfold text10; rw [hrep]; simp
    have hc : (UInt8.ofNat (D % 10 + 48)).toNat = D % 10 + 48 := by
      rw [UInt8.toNat_ofNat']; omega
    by_cases hz : D / 10 = 0
    · have h1 : text10 (D / 10) = [] := by rw [hz]; unfold text10; rw [repr10_eq_nil.2 rfl]; rfl
      rw [ht, h1]
      refine ⟨by simp [IsDigit, hc]; omega, ?_, by simp, ?_⟩
      · rw [decVal_snoc, hc]; simp [decVal, decFrom]; omega
      · simp only [List.nil_append, List.head?_cons, ne_eq, Option.some.injEq]
        intro h
        have := congrArg UInt8.toNat h
        rw [hc] at this
        simp at this
        omega
    · obtain ⟨g1, g2, g3, g4⟩ := text10_facts n (D / 10) (by rw [pow_succ] at h; omega) hz
      rw [ht]
      refine ⟨?_, ?_, by simp, ?_⟩
      · intro c hcm
        rcases List.mem_append.1 hcm with h | h
        · exact g1 c h
        · rw [List.mem_singleton.1 h]
          unfold IsDigit; rw [hc]; omega
      · rw [decVal_snoc, g2, hc]; omega
      · rw [List.head?_append_of_ne_nil _ g3]; exact g4

theorem text10_length {D k : Nat} : (text10 D).length ≤ k ↔ D < 10 ^ k := by
  unfold text10; rw [List.length_map, List.length_reverse, repr10_length]

theorem decVal_zeros (s : Bytes) (n : Nat) : decVal (s ++ List.replicate n 48) = decVal s * 10 ^ n := by
  induction n with
  | zero => simp
  | succ n ih =>
    rw [List.replicate_succ', ← List.append_assoc, decVal_snoc, ih, pow_succ]
    simp [Nat.mul_assoc]

theorem decVal_lead (s : Bytes) (n : Nat) : decVal (List.replicate n 48 ++ s) = decVal s := by
  induction n with
  | zero => rfl
  | succ n ih =>
    rw [List.replicate_succ, List.cons_append, decVal, decFrom]
    rw [show 0 * 10 + digitVal 48 = 0 by rw [digitVal_eq]; rfl]
    exact ih

theorem emitExp_ok : ∀ i : Fin 1000, (emitExp i ≠ [] ∧ ∀ c ∈ emitExp i, IsDigit c) := by decide +kernel

def expVal (i : Nat) : Nat := (emitExp i).foldl (fun m c => m * 10 + (c.toNat - 48)) 0

theorem expVal_ok : ∀ i : Fin 1000, expVal i = i := by decide +kernel

theorem decFrom_foldl (s : Bytes) : ∀ m, decFrom m s = s.foldl (fun m c => m * 10 + (c.toNat - 48)) m := by
  induction s with
  | nil => intro m; rfl
  | cons c s ih => intro m; rw [decFrom, ih, digitVal_eq]; rfl

theorem emitExp_val {i : Nat} (h : i < 1000) : Digits (emitExp i) ∧ decVal (emitExp i) = i := by
  refine ⟨emitExp_ok ⟨i, h⟩, ?_⟩
  rw [decVal, decFrom_foldl]
  exact expVal_ok ⟨i, h⟩

/-- `emit_digits` writes the number. -/
theorem emitDigits_value {D : Nat} {K : Int} (neg : Bool) (h0 : D ≠ 0) (h17 : D < 10 ^ 17) (hK : -900 < K) (hK' : K < 900) :
    NumberValue ((if neg then [45] else []) ++ emitDigits (text10 D) K neg) ((if neg then -1 else 1) * (D * 10 ^ K)) := by
  obtain ⟨g1, g2, g3, g4⟩ := text10_facts 17 D h17 h0
  have hlen : (text10 D).length ≤ 17 := text10_length.2 h17
  generalize text10 D = s at *
  have hlen1 : 1 ≤ s.length := by cases s with | nil => simp at g3 | cons c s => simp
  have hmin : min s.length (if neg = true then 17 else 18) = s.length := by split <;> omega
  unfold emitDigits
  simp only [hmin]
  by_cases hc : 0 ≤ K ∧ (K + (s.length : Int) - 1).natAbs < s.length + 7
  · rw [if_pos hc]
    refine ⟨neg, s ++ List.replicate K.toNat 48, [], [], [], 0, by simp, ⟨by simp [g3], ?_⟩, ?_, .inl ⟨rfl, rfl⟩, .inl ⟨rfl, rfl⟩, ?_⟩
    · intro c hcm
      rcases List.mem_append.1 hcm with h | h
      · exact g1 c h
      · rw [List.eq_of_mem_replicate h]; decide
    · rw [List.head?_append_of_ne_nil _ g3]; intro h; exact absurd h g4
    · congr 1
      rw [List.append_nil, decVal_zeros, g2]
      simp only [List.length_nil]
      have : (10 : ℚ) ^ K = 10 ^ K.toNat := by rw [← zpow_natCast]; congr 1; omega
      rw [this]; push_cast; simp
  · rw [if_neg hc]
    by_cases hc2 : K < 0 ∧ (K > -7 ∨ (K + (s.length : Int) - 1).natAbs < 4)
    · rw [if_pos hc2]
      by_cases hnd : s.length ≤ K.natAbs
      · rw [if_pos hnd]
        refine ⟨neg, [48], List.replicate (K.natAbs - s.length) 48 ++ s, 46 :: (List.replicate (K.natAbs - s.length) 48 ++ s), [], 0, by simp, ⟨by simp, by simp; decide⟩, by simp,
          .inr ⟨⟨by simp [g3], ?_⟩, rfl⟩, .inl ⟨rfl, rfl⟩, ?_⟩
        · intro c hcm
          rcases List.mem_append.1 hcm with h | h
          · rw [List.eq_of_mem_replicate h]; decide
          · exact g1 c h
        · congr 1
          have e1 : [48] ++ (List.replicate (K.natAbs - s.length) 48 ++ s) = List.replicate (K.natAbs - s.length + 1) 48 ++ s := by
            rw [List.replicate_succ]; rfl
          rw [e1, decVal_lead, g2]
          congr 2
          simp; omega
      · rw [if_neg hnd]
        refine ⟨neg, s.take (s.length - K.natAbs), s.drop (s.length - K.natAbs), 46 :: s.drop (s.length - K.natAbs), [], 0, by simp, ⟨?_, ?_⟩, ?_,
          .inr ⟨⟨?_, ?_⟩, rfl⟩, .inl ⟨rfl, rfl⟩, ?_⟩
        · intro h
          have := congrArg List.length h
          simp at this; omega
        · exact fun c h => g1 c (List.mem_of_mem_take h)
        · intro h
          exfalso
          apply g4
          rw [← h]
          cases s with
          | nil => simp at g3
          | cons c s =>
            obtain ⟨q, hq⟩ : ∃ q, (c :: s).length - K.natAbs = q + 1 := ⟨(c :: s).length - K.natAbs - 1, by omega⟩
            rw [hq]; rfl
        · intro h
          have := congrArg List.length h
          simp at this; omega
        · exact fun c h => g1 c (List.mem_of_mem_drop h)
        · congr 1
          rw [List.take_append_drop, g2]
          congr 2
          simp; omega
    · rw [if_neg hc2]
      have hexp : (K + s.length - 1).natAbs < 1000 := by omega
      obtain ⟨x1, x2⟩ := emitExp_val hexp
      obtain ⟨c, s', rfl⟩ : ∃ c s', s = c :: s' := by cases s with | nil => simp at g3 | cons c s => exact ⟨c, s, rfl⟩
      refine ⟨neg, [c], s', (if s' = [] then [] else 46 :: s'), 101 :: ((if K + ((c :: s').length : Nat) - 1 < 0 then [45] else [43]) ++ emitExp (K + ((c :: s').length : Nat) - 1).natAbs), K + ((c :: s').length : Nat) - 1, ?_, ?_, by simp, ?_, .inr ⟨101, _, _, .inl rfl, ?_, x1, rfl, ?_⟩, ?_⟩
      · congr 1
        cases s' with
        | nil => simp
        | cons c' s' => simp
      · exact ⟨by simp, by simpa using g1 c (by simp)⟩
      · cases s' with
        | nil => exact .inl ⟨rfl, rfl⟩
        | cons c' s' => exact .inr ⟨⟨by simp, fun c h => g1 c (by simp [h])⟩, by simp⟩
      · split <;> simp
      · rw [x2]
        by_cases hneg : K + ((c :: s').length : Nat) - 1 < 0
        · rw [if_pos hneg, if_pos rfl]; omega
        · rw [if_neg hneg, if_neg (by decide)]; omega
      · congr 1
        rw [show [c] ++ s' = c :: s' from rfl, g2]
        congr 2
        simp only [List.length_cons]
        push_cast; omega

end Abieos
