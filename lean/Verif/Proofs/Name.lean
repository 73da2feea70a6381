import Verif.Model.Name
import Verif.Proofs.Bytes
import Mathlib.Tactic.Ring
import Mathlib.Data.List.Lex
/-! Helper lemmas for names. -/
namespace Abieos

theorem charDigit_lt (c : UInt8) : charToNameDigit c < 32 := by
  revert c; apply forall_uint8; decide +kernel

/-- Arithmetic form of the contribution of the characters from index `i` on. -/
def nameTail : Nat → Bytes → Nat
  | _, [] => 0
  | i, c :: s => if i < 12 then charToNameDigit c * 2 ^ (64 - 5 * (i + 1)) + nameTail (i + 1) s else charToNameDigit c % 16

theorem nameTail_lt : ∀ s i, i ≤ 12 → nameTail i s < 2 ^ (64 - 5 * i)
  | [], i, _ => by simp [nameTail]
  | c :: s, i, hi => by
    rw [nameTail]
    split
    · rename_i h
      have := nameTail_lt s (i + 1) (by omega)
      have hd := charDigit_lt c
      have hp : 2 ^ (64 - 5 * i) = 32 * 2 ^ (64 - 5 * (i + 1)) := by
        rw [show 64 - 5 * i = 5 + (64 - 5 * (i + 1)) by omega, Nat.pow_add]
      have : charToNameDigit c * 2 ^ (64 - 5 * (i + 1)) ≤ 31 * 2 ^ (64 - 5 * (i + 1)) :=
        Nat.mul_le_mul_right _ (by omega)
      omega
    · have : i = 12 := by omega
      subst this
      simp; omega

theorem and_1f (n : Nat) : n &&& 0x1f = n % 32 := Nat.and_two_pow_sub_one_eq_mod n 5
theorem and_0f (n : Nat) : n &&& 0x0f = n % 16 := Nat.and_two_pow_sub_one_eq_mod n 4

theorem stringToNameLoop_eq : ∀ s i a, i ≤ 12 →
    stringToNameLoop i (2 ^ (64 - 5 * i) * a) s = 2 ^ (64 - 5 * i) * a + nameTail i s
  | [], i, a, _ => by simp [stringToNameLoop, nameTail]
  | c :: s, i, a, hi => by
    rw [stringToNameLoop, nameTail]
    have hd := charDigit_lt c
    have hp : ∀ h : i < 12, 2 ^ (64 - 5 * i) = 32 * 2 ^ (64 - 5 * (i + 1)) := by
      intro h
      rw [show 64 - 5 * i = 5 + (64 - 5 * (i + 1)) by omega, Nat.pow_add]
    split
    · rename_i h
      rw [and_1f, Nat.mod_eq_of_lt hd, Nat.shiftLeft_eq]
      have hlt : charToNameDigit c * 2 ^ (64 - 5 * (i + 1)) < 2 ^ (64 - 5 * i) := by
        rw [hp h]; exact Nat.mul_lt_mul_of_pos_right hd (Nat.two_pow_pos _)
      rw [← Nat.two_pow_add_eq_or_of_lt hlt, hp h]
      have := stringToNameLoop_eq s (i + 1) (32 * a + charToNameDigit c) (by omega)
      rw [show 32 * 2 ^ (64 - 5 * (i + 1)) * a + charToNameDigit c * 2 ^ (64 - 5 * (i + 1)) =
        2 ^ (64 - 5 * (i + 1)) * (32 * a + charToNameDigit c) by ring, this]
      ring
    · have : i = 12 := by omega
      subst this
      rw [and_0f, ← Nat.two_pow_add_eq_or_of_lt (i := 64 - 5 * 12) (by norm_num; omega)]

theorem stringToName_eq (s : Bytes) : stringToName s = nameTail 0 s := by
  have := stringToNameLoop_eq s 0 0 (by omega)
  simpa [stringToName] using this

theorem stringToName_lt (s : Bytes) : stringToName s < 2 ^ 64 := by
  rw [stringToName_eq]; exact nameTail_lt s 0 (by omega)

/-! ### characters -/

theorem charmap_digit (n : Nat) (h : n < 32) : charToNameDigit (nameCharmap.getD n 0) = n := by
  have : ∀ n : Fin 32, charToNameDigit (nameCharmap.getD n.val 0) = n.val := by decide +kernel
  exact this ⟨n, h⟩

/-- a character a name may contain -/
def NameChar (c : UInt8) : Prop := c = 46 ∨ (49 ≤ c ∧ c ≤ 53) ∨ (97 ≤ c ∧ c ≤ 122)
instance (c : UInt8) : Decidable (NameChar c) := by unfold NameChar; infer_instance

theorem charmap_valid (n : Nat) (h : n < 32) : NameChar (nameCharmap.getD n 0) := by
  have : ∀ n : Fin 32, NameChar (nameCharmap.getD n.val 0) := by decide +kernel
  exact this ⟨n, h⟩

theorem charmap_of_digit (c : UInt8) : NameChar c → nameCharmap.getD (charToNameDigit c) 0 = c := by
  revert c; apply forall_uint8; decide +kernel

theorem digit_lt_iff {c d : UInt8} (hc : NameChar c) (hd : NameChar d) :
    charToNameDigit c < charToNameDigit d ↔ c < d := by
  have key : ∀ m n : Fin 32, (m.val < n.val ↔ nameCharmap.getD m.val 0 < nameCharmap.getD n.val 0) := by decide +kernel
  have := key ⟨_, charDigit_lt c⟩ ⟨_, charDigit_lt d⟩
  simpa only [charmap_of_digit c hc, charmap_of_digit d hd] using this

theorem digit_eq_iff {c d : UInt8} (hc : NameChar c) (hd : NameChar d) :
    charToNameDigit c = charToNameDigit d ↔ c = d := by
  constructor
  · intro h; rw [← charmap_of_digit c hc, h, charmap_of_digit d hd]
  · intro h; rw [h]

theorem nameChar_ge {c : UInt8} : NameChar c → 46 ≤ c := by
  revert c; apply forall_uint8; decide +kernel

/-- valid characters from index `i` on, 13th with a 4-bit digit -/
def NameFrom : Nat → Bytes → Prop
  | _, [] => True
  | i, c :: s => NameChar c ∧ (12 ≤ i → charToNameDigit c < 16) ∧ NameFrom (i + 1) s

/-- order on equal-length padded texts is numeric order -/
theorem nameTail_lt_iff : ∀ p q i, i + p.length = 13 → p.length = q.length → NameFrom i p → NameFrom i q →
    (nameTail i p < nameTail i q ↔ p < q)
  | [], [], i, _, _, _, _ => by simp [nameTail]
  | c :: p, d :: q, i, hl, hpq, ⟨hc, hc13, hp⟩, ⟨hd, hd13, hq⟩ => by
    rw [List.cons_lt_cons_iff, ← digit_lt_iff hc hd, ← digit_eq_iff hc hd]
    simp only [nameTail]
    simp only [List.length_cons] at hl hpq
    split
    · rename_i h
      have ih := nameTail_lt_iff p q (i + 1) (by omega) (by omega) hp hq
      rw [← ih]
      have h1 := nameTail_lt p (i + 1) (by omega)
      have h2 := nameTail_lt q (i + 1) (by omega)
      generalize charToNameDigit c = x at *
      generalize charToNameDigit d = y at *
      generalize 2 ^ (64 - 5 * (i + 1)) = B at *
      rcases Nat.lt_trichotomy x y with h | h | h
      · have : (x + 1) * B ≤ y * B := Nat.mul_le_mul_right _ h
        have e : (x + 1) * B = x * B + B := by ring
        constructor
        · intro; exact Or.inl h
        · intro; omega
      · subst h; constructor
        · intro hh; right; exact ⟨rfl, by omega⟩
        · rintro (hh | ⟨_, hh⟩) <;> omega
      · have : (y + 1) * B ≤ x * B := Nat.mul_le_mul_right _ h
        have e : (y + 1) * B = y * B + B := by ring
        constructor
        · intro hh; exfalso; omega
        · rintro (hh | ⟨hh, _⟩) <;> omega
    · rename_i h
      have : i = 12 := by omega
      subst this
      have hp0 : p = [] := List.eq_nil_of_length_eq_zero (by omega)
      have hq0 : q = [] := List.eq_nil_of_length_eq_zero (by omega)
      subst hp0; subst hq0
      have := hc13 (by omega)
      have := hd13 (by omega)
      simp; omega

/-! ### trimming -/

theorem trimDots_nil : trimDots [] = [] := rfl

theorem trimDots_cons (c : UInt8) (s : Bytes) :
    trimDots (c :: s) = if trimDots s = [] ∧ c = 46 then [] else c :: trimDots s := by
  unfold trimDots
  rw [List.reverse_cons, List.dropWhile_append]
  by_cases h : (List.dropWhile (fun x => x == 46) s.reverse) = []
  · by_cases hc : c = 46
    · simp [h, hc]
    · simp [h, hc]
  · simp [h]

theorem trimDots_replicate : ∀ s : Bytes, ∃ n, s = trimDots s ++ List.replicate n 46
  | [] => ⟨0, rfl⟩
  | c :: s => by
    obtain ⟨n, hn⟩ := trimDots_replicate s
    rw [trimDots_cons]
    split
    · rename_i h
      refine ⟨n + 1, ?_⟩
      rw [h.1] at hn
      rw [hn, h.2]; simp [List.replicate_succ]
    · exact ⟨n, by rw [List.cons_append, ← hn]⟩

theorem nameTail_append_dots : ∀ s i n, nameTail i (s ++ List.replicate n 46) = nameTail i s
  | [], i, n => by
    have : ∀ n i, nameTail i (List.replicate n 46) = 0 := by
      intro n
      induction n with
      | zero => intro i; rfl
      | succ n ih =>
        intro i
        rw [List.replicate_succ, nameTail, ih]
        have : charToNameDigit 46 = 0 := by decide
        simp [this]
    simp [this, nameTail]
  | c :: s, i, n => by
    rw [List.cons_append, nameTail, nameTail, nameTail_append_dots s (i + 1) n]

theorem nameTail_trimDots (s : Bytes) (i : Nat) : nameTail i (trimDots s) = nameTail i s := by
  obtain ⟨n, hn⟩ := trimDots_replicate s
  conv_rhs => rw [hn]
  rw [nameTail_append_dots]

theorem trimDots_append_dots : ∀ s n, trimDots (s ++ List.replicate n 46) = trimDots s
  | [], n => by
    induction n with
    | zero => rfl
    | succ n ih => rw [List.nil_append] at ih ⊢; rw [List.replicate_succ, trimDots_cons, ih]; simp [trimDots_nil]
  | c :: s, n => by
    rw [List.cons_append, trimDots_cons, trimDots_append_dots s n, ← trimDots_cons]

theorem trimDots_lt_iff : ∀ p q : Bytes, p.length = q.length → (∀ c ∈ p, 46 ≤ c) → (∀ c ∈ q, 46 ≤ c) →
    (trimDots p < trimDots q ↔ p < q)
  | [], [], _, _, _ => by simp [trimDots_nil]
  | c :: p, d :: q, hl, hp, hq => by
    have ih := trimDots_lt_iff p q (by simpa using hl) (fun x hx => hp x (by simp [hx])) (fun x hx => hq x (by simp [hx]))
    have hc := hp c (by simp)
    have hd := hq d (by simp)
    rw [trimDots_cons, trimDots_cons, List.cons_lt_cons_iff, ← ih]
    by_cases h1 : trimDots p = [] ∧ c = 46
    · by_cases h2 : trimDots q = [] ∧ d = 46
      · simp [h1, h2]
      · rw [if_pos h1, if_neg h2]
        simp only [h1.1, h1.2, List.nil_lt_cons, true_iff]
        by_cases hdd : d = 46
        · right
          refine ⟨hdd.symm, ?_⟩
          have : trimDots q ≠ [] := fun h => h2 ⟨h, hdd⟩
          cases hh : trimDots q with
          | nil => exact absurd hh this
          | cons a l => simp
        · left
          exact UInt8.lt_of_le_of_ne hd (Ne.symm hdd)
    · rw [if_neg h1]
      by_cases h2 : trimDots q = [] ∧ d = 46
      · rw [if_pos h2]
        simp only [h2.1, h2.2, List.not_lt_nil, and_false, or_false, false_iff]
        intro h
        exact absurd (UInt8.lt_of_le_of_lt hc h) (by decide)
      · rw [if_neg h2, List.cons_lt_cons_iff]

/-! ### the 13 characters of a name value -/

def nameChars (v : Nat) : Bytes := nameToStringLoop 13 true v []

theorem nameToStringLoop_append : ∀ n t v acc, nameToStringLoop n t v acc = nameToStringLoop n t v [] ++ acc
  | 0, _, _, _ => rfl
  | n + 1, t, v, acc => by
    rw [nameToStringLoop, nameToStringLoop_append n]
    conv_rhs => rw [nameToStringLoop, nameToStringLoop_append n]
    simp

theorem nameToStringLoop_length : ∀ n t v, (nameToStringLoop n t v []).length = n
  | 0, _, _ => rfl
  | n + 1, t, v => by
    rw [nameToStringLoop, nameToStringLoop_append, List.length_append, nameToStringLoop_length n]; rfl

theorem nameFrom_append : ∀ a b i, NameFrom i (a ++ b) ↔ NameFrom i a ∧ NameFrom (i + a.length) b
  | [], b, i => by simp [NameFrom]
  | c :: a, b, i => by
    simp only [List.cons_append, NameFrom, List.length_cons, nameFrom_append a b (i + 1)]
    rw [show i + 1 + a.length = i + (a.length + 1) by ring]
    tauto

theorem nameTail_append12 : ∀ a i e, i + a.length = 12 → nameTail i (a ++ [e]) = nameTail i a + charToNameDigit e % 16
  | [], i, e, h => by
    have : i = 12 := by simpa using h
    subst this; simp [nameTail]
  | c :: a, i, e, h => by
    simp only [List.length_cons] at h
    simp only [List.cons_append, nameTail, show i < 12 by omega, if_true]
    rw [nameTail_append12 a (i + 1) e (by omega)]; ring

theorem nameTail_snoc : ∀ a i e, i + a.length < 12 →
    nameTail i (a ++ [e]) = nameTail i a + charToNameDigit e * 2 ^ (64 - 5 * (i + a.length + 1))
  | [], i, e, h => by
    have : i < 12 := by simpa using h
    simp [nameTail, this]
  | c :: a, i, e, h => by
    simp only [List.length_cons] at h
    simp only [List.cons_append, nameTail, show i < 12 by omega, if_true]
    rw [nameTail_snoc a (i + 1) e (by omega), List.length_cons]
    rw [show i + 1 + a.length + 1 = i + (a.length + 1) + 1 by ring]; ring

theorem loop_false : ∀ n v, n ≤ 12 → v < 2 ^ (5 * n) →
    NameFrom 0 (nameToStringLoop n false v []) ∧ nameTail 0 (nameToStringLoop n false v []) = v * 2 ^ (64 - 5 * n)
  | 0, v, _, hv => by
    have : v = 0 := by simpa using hv
    simp [nameToStringLoop, NameFrom, nameTail, this]
  | n + 1, v, hn, hv => by
    have e : v >>> 5 = v / 32 := by simp [Nat.shiftRight_eq_div_pow]
    have hv' : v / 32 < 2 ^ (5 * n) := by
      rw [show 5 * (n + 1) = 5 * n + 5 by ring, Nat.pow_add] at hv
      omega
    obtain ⟨h1, h2⟩ := loop_false n (v / 32) (by omega) hv'
    have hlen := nameToStringLoop_length n false (v / 32)
    rw [nameToStringLoop, nameToStringLoop_append]
    simp only [Bool.false_eq_true, if_false, e, and_1f]
    have hm : v % 32 < 32 := Nat.mod_lt _ (by decide)
    constructor
    · rw [nameFrom_append]
      refine ⟨h1, charmap_valid _ hm, ?_, trivial⟩
      intro h; omega
    · rw [nameTail_snoc _ _ _ (by omega), h2, charmap_digit _ hm, hlen]
      rw [show 64 - 5 * n = 5 + (64 - 5 * (n + 1)) by omega, Nat.pow_add, show 0 + n + 1 = n + 1 by ring]
      have : v = 32 * (v / 32) + v % 32 := (Nat.div_add_mod v 32).symm
      conv_rhs => rw [this]
      ring

theorem nameChars_spec (v : Nat) (hv : v < 2 ^ 64) :
    NameFrom 0 (nameChars v) ∧ nameTail 0 (nameChars v) = v ∧ (nameChars v).length = 13 := by
  refine ⟨?_, ?_, nameToStringLoop_length _ _ _⟩
  all_goals
    have e : v >>> 4 = v / 16 := by simp [Nat.shiftRight_eq_div_pow]
    obtain ⟨h1, h2⟩ := loop_false 12 (v / 16) (by omega) (by norm_num; omega)
    have hlen := nameToStringLoop_length 12 false (v / 16)
    have hm : v % 16 < 16 := Nat.mod_lt _ (by decide)
    rw [nameChars, nameToStringLoop, nameToStringLoop_append]
    simp only [if_true, e, and_0f]
  · rw [nameFrom_append]
    refine ⟨h1, charmap_valid _ (by omega), ?_, trivial⟩
    intro _; rw [charmap_digit _ (by omega)]; omega
  · rw [nameTail_append12 _ _ _ (by omega), h2, charmap_digit _ (by omega)]
    norm_num; omega

theorem nameFrom_ge : ∀ s i, NameFrom i s → ∀ c ∈ s, 46 ≤ c
  | [], _, _, _, h => by simp at h
  | d :: s, i, ⟨h1, _, h3⟩, c, hc => by
    rcases List.mem_cons.1 hc with rfl | hc
    · exact nameChar_ge h1
    · exact nameFrom_ge s _ h3 c hc

theorem nameTail_inj {p q : Bytes} (hp : p.length = 13) (hq : q.length = 13) (h1 : NameFrom 0 p) (h2 : NameFrom 0 q)
    (h : nameTail 0 p = nameTail 0 q) : p = q := by
  have a := nameTail_lt_iff p q 0 (by omega) (by omega) h1 h2
  have b := nameTail_lt_iff q p 0 (by omega) (by omega) h2 h1
  rw [h] at a b
  have a' : ¬ p < q := fun x => absurd (a.2 x) (by omega)
  have b' : ¬ q < p := fun x => absurd (b.2 x) (by omega)
  have : Std.Antisymm (fun a b : UInt8 => ¬ a < b) := ⟨fun a b h1 h2 => UInt8.le_antisymm (UInt8.not_lt.1 h2) (UInt8.not_lt.1 h1)⟩
  exact List.le_antisymm b' a'

theorem nameFrom_dots (n i : Nat) : NameFrom i (List.replicate n 46) := by
  induction n generalizing i with
  | zero => trivial
  | succ n ih =>
    rw [List.replicate_succ]
    exact ⟨by decide, fun _ => by decide, ih _⟩

/-! ### strict conversion -/

theorem strictDigit (c : UInt8) : charToNameDigitStrict c = if NameChar c then some (charToNameDigit c) else none := by
  revert c; apply forall_uint8; decide +kernel

theorem strictLoop_ok : ∀ s i name v, i ≤ 12 → (stringToNameStrictLoop i name s = .ok v ↔
    (i + s.length ≤ 13 ∧ NameFrom i s ∧ v = stringToNameLoop i name s))
  | [], i, name, v, hi => by
    have : i ≤ 13 := by omega
    simp [stringToNameStrictLoop, NameFrom, stringToNameLoop, eq_comm, this]
  | c :: s, i, name, v, hi => by
    simp only [stringToNameStrictLoop, stringToNameLoop, strictDigit, NameFrom, List.length_cons]
    by_cases hc : NameChar c
    · simp only [hc, if_true]
      by_cases h : i < 12
      · simp only [h, if_true]
        rw [strictLoop_ok s (i + 1) _ v (by omega)]
        constructor
        · rintro ⟨h1, h2, h3⟩; exact ⟨by omega, ⟨trivial, by intro; omega, h2⟩, h3⟩
        · rintro ⟨h1, ⟨_, _, h2⟩, h3⟩; exact ⟨by omega, h2, h3⟩
      · have : i = 12 := by omega
        subst this
        simp only [and_0f]
        have hm : (charToNameDigit c ≠ charToNameDigit c % 16) ↔ ¬ charToNameDigit c < 16 := by omega
        simp only [hm]
        by_cases h16 : charToNameDigit c < 16
        · have e : charToNameDigit c % 16 = charToNameDigit c := Nat.mod_eq_of_lt h16
          cases s with
          | nil => simp [h16, NameFrom, eq_comm, e]
          | cons d s => simp [h16]; omega
        · simp [h16]
    · simp only [hc, if_false]
      split <;> simp

end Abieos
