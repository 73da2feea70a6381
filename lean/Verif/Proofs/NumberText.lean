import Verif.Spec.JsonNumber
import Verif.Proofs.ReadText
import Verif.Proofs.Decimal
/-! A JSON number is read as its own text. -/
namespace Abieos
open Spec Reader

/-- the rest does not go on with a digit -/
def NoDigit (r : Bytes) : Prop := ∀ c, r.head? = some c → ¬ IsDigit c

theorem digits_read {d r : Bytes} (hd : ∀ c ∈ d, IsDigit c) (hr : NoDigit r) : digits (d ++ r) = (d, r) := by
  induction d with
  | nil =>
    cases r with
    | nil => rfl
    | cons c r =>
      rw [List.nil_append, digits, if_neg]
      rw [isDigit_iff]; exact hr c rfl
  | cons c d ih =>
    rw [List.cons_append, digits, if_pos ((isDigit_iff c).2 (hd c (by simp))), ih fun x hx => hd x (by simp [hx])]

theorem noDigit_delim {r : Bytes} (h : Delim r) : NoDigit r := by
  intro c hc hd
  rcases h c hc with rfl | rfl | rfl | rfl | rfl | rfl | rfl <;> revert hd <;> decide

theorem noDigit_cons {c : UInt8} {r : Bytes} (h : ¬ IsDigit c) : NoDigit (c :: r) := by
  intro d hd; simp at hd; subst hd; exact h

theorem digit_ne {c : UInt8} (h : IsDigit c) : c ≠ 45 ∧ c ≠ 43 ∧ c ≠ 34 ∧ c ≠ 110 ∧ c ≠ 116 ∧ c ≠ 102 ∧ c ≠ 91 ∧ c ≠ 123 ∧
    ¬ (c = 32 ∨ c = 9 ∨ c = 10 ∨ c = 13) ∧ c ≠ 0 := by
  revert c; apply forall_uint8; decide +kernel

theorem number_read {t r : Bytes} (h : JsonNumber t) (hr : Delim r) : number (t ++ r) = some (t, r) := by
  obtain ⟨sign, int, frac, exp, rfl, hs, ⟨hi0, hi⟩, hz, hf, he⟩ := h
  have hE : ∀ x, exp = x → NoDigit (exp ++ r) := by
    rintro x -
    rcases he with rfl | ⟨e, sg, d, h, -, -, rfl⟩
    · exact noDigit_delim hr
    · exact noDigit_cons (by rcases h with rfl | rfl <;> decide)
  have hF : NoDigit (frac ++ (exp ++ r)) := by
    rcases hf with rfl | ⟨d, -, rfl⟩
    · exact hE _ rfl
    · exact noDigit_cons (by decide)
  have hsp : signPart ((sign ++ (int ++ (frac ++ exp))) ++ r) = (sign, int ++ (frac ++ (exp ++ r))) := by
    rcases hs with rfl | rfl
    · cases int with
      | nil => exact absurd rfl hi0
      | cons c int =>
        simp only [List.nil_append, List.cons_append, List.append_assoc]
        rw [signPart, if_neg (digit_ne (hi c (by simp))).1]
    · simp only [List.cons_append, List.nil_append, List.append_assoc]
      rw [signPart, if_pos rfl]
  have hfp : fracPart (frac ++ (exp ++ r)) = some (frac, exp ++ r) := by
    rcases hf with rfl | ⟨d, ⟨hd0, hd⟩, rfl⟩
    · rcases he with rfl | ⟨e, sg, d, h, -, -, rfl⟩
      · cases r with
        | nil => rfl
        | cons c r =>
          simp only [List.nil_append]
          rw [fracPart, if_neg]
          rintro rfl
          rcases hr 46 rfl with h | h | h | h | h | h | h <;> simp at h
      · simp only [List.nil_append, List.cons_append]
        rw [fracPart, if_neg (by rcases h with rfl | rfl <;> decide)]
    · rw [List.cons_append, fracPart, if_pos rfl, digits_read hd (hE _ rfl), if_neg hd0]
  have hep : expPart (exp ++ r) = some (exp, r) := by
    rcases he with rfl | ⟨e, sg, d, h, hsg, ⟨hd0, hd⟩, rfl⟩
    · cases r with
      | nil => rfl
      | cons c r =>
        simp only [List.nil_append]
        rw [expPart, if_neg]
        rcases hr c rfl with rfl | rfl | rfl | rfl | rfl | rfl | rfl <;> simp
    · rw [List.cons_append, expPart, if_pos h]
      have hes : expSign (sg ++ d ++ r) = (sg, d ++ r) := by
        rcases hsg with rfl | rfl | rfl
        · cases d with
          | nil => exact absurd rfl hd0
          | cons c d =>
            have := digit_ne (hd c (by simp))
            simp only [List.nil_append, List.cons_append]
            rw [expSign, if_neg (by rintro (h | h); exact this.2.1 h; exact this.1 h)]
        · simp [expSign]
        · simp [expSign]
      rw [hes, digits_read hd (noDigit_delim hr), if_neg hd0]
  unfold number
  rw [hsp]
  simp only [digits_read hi hF]
  rw [if_neg, hfp]
  · simp only [hep, List.append_assoc]
  · rintro (h | ⟨h1, h2⟩)
    · exact hi0 h
    · exact h2 (hz h1)

theorem jsonNumber_head {t : Bytes} (h : JsonNumber t) : ∃ c s, t = c :: s ∧ (c = 45 ∨ IsDigit c) := by
  obtain ⟨sign, int, frac, exp, rfl, hs, ⟨hi0, hi⟩, -⟩ := h
  rcases hs with rfl | rfl
  · cases int with
    | nil => exact absurd rfl hi0
    | cons c int => exact ⟨c, _, rfl, .inr (hi c (by simp))⟩
  · exact ⟨45, _, rfl, .inl rfl⟩

theorem jsonNumber_chars {t : Bytes} (h : JsonNumber t) : ∀ c ∈ t, c ≠ 0 ∧ c ≠ 34 ∧ c.toNat < 128 := by
  have hd : ∀ c : UInt8, IsDigit c → c ≠ 0 ∧ c ≠ 34 ∧ c.toNat < 128 := by apply forall_uint8; decide +kernel
  obtain ⟨sign, int, frac, exp, rfl, hs, ⟨-, hi⟩, -, hf, he⟩ := h
  simp only [List.mem_append]
  rintro c (hc | hc | hc | hc)
  · rcases hs with rfl | rfl
    · simp at hc
    · simp at hc; subst hc; decide
  · exact hd c (hi c hc)
  · rcases hf with rfl | ⟨d, ⟨-, h⟩, rfl⟩
    · simp at hc
    · rcases List.mem_cons.1 hc with rfl | hc
      · decide
      · exact hd c (h c hc)
  · rcases he with rfl | ⟨e, sg, d, h1, hsg, ⟨-, h⟩, rfl⟩
    · simp at hc
    · simp only [List.mem_cons, List.mem_append] at hc
      rcases hc with rfl | hc | hc
      · rcases h1 with rfl | rfl <;> decide
      · rcases hsg with rfl | rfl | rfl
        · simp at hc
        · simp at hc; subst hc; decide
        · simp at hc; subst hc; decide
      · exact hd c (h c hc)

theorem reads_number {t : Bytes} (h : JsonNumber t) : Reads t (.str t) := by
  obtain ⟨c, s, rfl, hc⟩ := jsonNumber_head h
  refine ⟨by simp, fun d hd => (jsonNumber_chars h d hd).1, ?_⟩
  intro r hr n hn
  obtain ⟨n, rfl⟩ : ∃ m, n = m + 1 := ⟨n - 1, by omega⟩
  have hnum := number_read h hr
  have hne : c ≠ 34 ∧ c ≠ 110 ∧ c ≠ 116 ∧ c ≠ 102 ∧ c ≠ 91 ∧ c ≠ 123 ∧ ¬ (c = 32 ∨ c = 9 ∨ c = 10 ∨ c = 13) := by
    rcases hc with rfl | hc
    · decide
    · have := digit_ne hc; tauto
  rw [value, List.cons_append, skipWs_cons hne.2.2.2.2.2.2]
  rw [List.cons_append] at hnum
  obtain ⟨h1, h2, h3, h4, h5, h6, -⟩ := hne
  split <;> simp_all

theorem isInt_jsonNumber {t : Bytes} {neg : Bool} {n : Nat} (ht : t = (if neg then [45] else []) ++ (decRev n).reverse) : JsonNumber t := by
  refine ⟨_, (decRev n).reverse, [], [], by rw [ht, List.append_nil, List.append_nil], by cases neg <;> simp, ⟨by simp [decRev_ne_nil], fun c hc => decRev_isDigit n c (by simpa using hc)⟩,
    ?_, .inl rfl, .inl rfl⟩
  intro h
  rw [List.head?_reverse] at h
  by_cases h0 : n = 0
  · subst h0; rw [decRev]; simp
  · exact absurd h (decRev_getLast n h0)

end Abieos
