import Mathlib.Data.List.Induction
import Verif.Props.Name
/-!
**C46.** Length, prefix and suffix of names.
-/
namespace Abieos
open Spec

theorem nameTail_split : ∀ a b i, i + a.length ≤ 12 → nameTail i (a ++ b) = nameTail i a + nameTail (i + a.length) b
  | [], b, i, _ => by simp [nameTail]
  | c :: a, b, i, h => by
    simp only [List.length_cons] at h
    simp only [List.cons_append, nameTail, show i < 12 by omega, if_true, List.length_cons]
    rw [nameTail_split a b (i + 1) (by omega), show i + 1 + a.length = i + (a.length + 1) by omega]
    omega

theorem nameTail_dvd : ∀ a i, i + a.length ≤ 12 → 2 ^ (64 - 5 * (i + a.length)) ∣ nameTail i a
  | [], i, _ => by simp [nameTail]
  | c :: a, i, h => by
    simp only [List.length_cons] at h
    simp only [nameTail, show i < 12 by omega, if_true, List.length_cons]
    have := nameTail_dvd a (i + 1) (by omega)
    rw [show i + 1 + a.length = i + (a.length + 1) by omega] at this
    refine Nat.dvd_add ?_ this
    exact Nat.dvd_mul_left_of_dvd (Nat.pow_dvd_pow 2 (by omega)) _

theorem nameTail_div (a b : Bytes) (h : a.length ≤ 12) :
    nameTail 0 (a ++ b) / 2 ^ (64 - 5 * a.length) = nameTail 0 a / 2 ^ (64 - 5 * a.length) ∧
    nameTail 0 (a ++ b) % 2 ^ (64 - 5 * a.length) = nameTail a.length b := by
  have h1 := nameTail_split a b 0 (by omega)
  have h2 := nameTail_dvd a 0 (by omega)
  rw [Nat.zero_add] at h1 h2
  obtain ⟨k, hk⟩ := h2
  have h3 := nameTail_lt b a.length h
  rw [h1, hk]
  have hp : 0 < 2 ^ (64 - 5 * a.length) := Nat.pow_pos (by decide)
  constructor
  · rw [Nat.mul_add_div hp, Nat.div_eq_of_lt h3, Nat.mul_div_cancel_left _ hp, Nat.add_zero]
  · rw [Nat.mul_add_mod, Nat.mod_eq_of_lt h3]

theorem name_digit (a b : Bytes) (c : UInt8) (h : a.length < 12) : nameTail 0 (a ++ c :: b) >>> (59 - 5 * a.length) % 32 = charToNameDigit c := by
  have h1 := (nameTail_div (a ++ [c]) b (by simp; omega)).1
  rw [List.append_assoc, List.singleton_append, List.length_append, List.length_singleton] at h1
  have hsh : 59 - 5 * a.length = 64 - 5 * (a.length + 1) := by omega
  rw [hsh, Nat.shiftRight_eq_div_pow, h1, nameTail_snoc a 0 c (by omega), Nat.zero_add]
  obtain ⟨k, hk⟩ := nameTail_dvd a 0 (by omega)
  have hp : 0 < 2 ^ (64 - 5 * (a.length + 1)) := Nat.pow_pos (by decide)
  rw [hk, Nat.zero_add, show 64 - 5 * a.length = (64 - 5 * (a.length + 1)) + 5 by omega, Nat.pow_add, Nat.mul_assoc, Nat.mul_add_div hp,
    Nat.mul_div_cancel _ hp, Nat.mul_add_mod, Nat.mod_eq_of_lt (charDigit_lt c)]

theorem name_digit13 (a : Bytes) (c : UInt8) (h : a.length = 12) : nameTail 0 (a ++ [c]) % 16 = charToNameDigit c % 16 := by
  have := (nameTail_div a [c] (by omega)).2
  rw [h] at this
  rw [show 16 = 2 ^ (64 - 5 * 12) from rfl, this]
  simp [nameTail]

theorem digit_zero {c : UInt8} (h : NameChar c) : charToNameDigit c = 0 ↔ c = 46 := by
  have := digit_eq_iff h (.inl rfl : NameChar 46)
  rw [← this]; rfl

theorem digit13_zero {c : UInt8} (h : NameChar c) (h2 : charToNameDigit c < 16) : charToNameDigit c % 16 = 0 ↔ c = 46 := by
  rw [Nat.mod_eq_of_lt h2, digit_zero h]

/-- The thirteen characters of a name: its text and dots. -/
theorem name_chars {v : Nat} (hv : v < 2 ^ 64) : ∃ m, NameFrom 0 (nameToString v ++ List.replicate m 46) ∧ v = nameTail 0 (nameToString v ++ List.replicate m 46) ∧
    (nameToString v).length + m = 13 ∧ (nameToString v).getLast? ≠ some 46 := by
  obtain ⟨h1, h2, h3⟩ := nameChars_spec v hv
  obtain ⟨⟨m, hm⟩, hl⟩ := stripsDots_trim (nameChars v)
  have e : nameChars v = nameToString v ++ List.replicate m 46 := hm
  refine ⟨m, by rwa [← e], by rw [← e, h2], ?_, hl⟩
  rw [e, List.length_append, List.length_replicate] at h3
  exact h3

/-- The text of a name given by valid characters. -/
theorem nameToString_tail {s : Bytes} (h : NameFrom 0 s) (hl : s.length ≤ 13) : nameToString (nameTail 0 s) = trimDots s := by
  rw [← stringToName_eq]
  obtain ⟨v, hv⟩ := (c05_strict_accepts_iff s).2 ((validNameText_iff s).2 ⟨hl, h⟩)
  rw [c05_lenient_agrees s v hv]
  obtain ⟨-, ⟨n, hn⟩, h2⟩ := c04_text_roundtrip s v hv
  conv_rhs => rw [hn]
  show _ = trimDots (_ ++ List.replicate n 46)
  rw [trimDots_append_dots]
  obtain ⟨⟨k, hk⟩, h3⟩ := stripsDots_trim (nameToString v)
  cases k with
  | zero => simpa using hk
  | succ k =>
    exfalso
    apply h2
    rw [hk, List.replicate_succ', ← List.append_assoc, List.getLast?_concat]

/-! ## Length -/

theorem nameLength_go : ∀ (s a : Bytes) (i l : Nat), i + s.length = 13 → a.length = i → NameFrom 0 (a ++ s) →
    nameLength.go s.length i (nameTail 0 (a ++ s) * 2 ^ (5 * i) % 2 ^ 64) l = if trimDots s = [] then l else i + (trimDots s).length - 1
  | [], a, i, l, _, _, _ => by simp [nameLength.go, trimDots_nil]
  | c :: s, a, i, l, h, ha, hf => by
    simp only [List.length_cons] at h
    obtain ⟨hf1, hc, hc2, hf2⟩ := (nameFrom_append a (c :: s) 0).1 hf
    rw [List.length_cons, nameLength.go]
    have hstep : ((nameTail 0 (a ++ c :: s) * 2 ^ (5 * i) % 2 ^ 64) <<< 5) % 2 ^ 64 = nameTail 0 (a ++ [c] ++ s) * 2 ^ (5 * (i + 1)) % 2 ^ 64 := by
      rw [Nat.shiftLeft_eq, Nat.mod_mul_mod, Nat.mul_assoc, ← Nat.pow_add, List.append_assoc, List.singleton_append, Nat.mul_succ]
    have hbit : (nameTail 0 (a ++ c :: s) * 2 ^ (5 * i) % 2 ^ 64 &&& 0xF800000000000000 > 0) ↔ c ≠ 46 := by
      have e1 : ∀ x, x < 2 ^ 64 → (x &&& 0xF800000000000000 > 0 ↔ x / 2 ^ 59 ≠ 0) := by
        intro x hx
        have : x &&& 0xF800000000000000 = x / 2 ^ 59 * 2 ^ 59 := by
          apply Nat.eq_of_testBit_eq
          intro j
          rw [Nat.testBit_and, show (0xF800000000000000 : Nat) = (2 ^ 5 - 1) * 2 ^ 59 from rfl, ← Nat.shiftLeft_eq, ← Nat.shiftLeft_eq, ← Nat.shiftRight_eq_div_pow,
            Nat.testBit_shiftLeft, Nat.testBit_shiftLeft, Nat.testBit_shiftRight, Nat.testBit_two_pow_sub_one]
          by_cases hj : j ≥ 59
          · simp only [hj, decide_true, Bool.true_and, show 59 + (j - 59) = j by omega]
            by_cases hj2 : j - 59 < 5
            · simp [hj2]
            · rw [Nat.testBit_lt_two_pow (Nat.lt_of_lt_of_le hx (Nat.pow_le_pow_right (by decide) (show 64 ≤ j by omega)))]
              simp
          · simp [hj]
        rw [this]
        have := Nat.pow_pos (n := 59) (show 0 < 2 by decide)
        constructor
        · intro h; intro h'; rw [h'] at h; omega
        · intro h; exact Nat.mul_pos (Nat.pos_of_ne_zero h) this
      rw [e1 _ (Nat.mod_lt _ (by decide))]
      have h2 := (nameTail_div a (c :: s) (by omega)).2
      have e2 : nameTail 0 (a ++ c :: s) * 2 ^ (5 * i) % 2 ^ 64 = nameTail i (c :: s) * 2 ^ (5 * i) := by
        rw [← ha, ← h2, show (2 ^ 64 : Nat) = 2 ^ (64 - 5 * a.length) * 2 ^ (5 * a.length) by rw [← Nat.pow_add]; congr 1; omega, Nat.mul_mod_mul_right]
      rw [e2]
      by_cases hi : i < 12
      · have hlt := nameTail_lt s (i + 1) (by omega)
        have e3 : nameTail i (c :: s) * 2 ^ (5 * i) / 2 ^ 59 = charToNameDigit c := by
          rw [nameTail, if_pos hi, show (2 ^ 59 : Nat) = 2 ^ (64 - 5 * (i + 1)) * 2 ^ (5 * i) by rw [← Nat.pow_add]; congr 1; omega,
            Nat.mul_div_mul_right _ _ (Nat.pow_pos (by decide)), Nat.mul_comm (charToNameDigit c), Nat.mul_add_div (Nat.pow_pos (by decide)), Nat.div_eq_of_lt hlt, Nat.add_zero]
        rw [e3, Ne, digit_zero hc]
      · have hi : i = 12 := by omega
        subst hi
        have h16 := hc2 (by omega)
        rw [nameTail, if_neg hi]
        have e3 : charToNameDigit c % 16 * 2 ^ (5 * 12) / 2 ^ 59 = charToNameDigit c % 16 * 2 := by
          rw [show (2 : Nat) ^ (5 * 12) = 2 * 2 ^ 59 from rfl, ← Nat.mul_assoc, Nat.mul_div_cancel _ (by decide)]
        have hz := digit13_zero hc h16
        rw [e3, Ne, Ne, ← hz]
        omega
    rw [hstep, nameLength_go s (a ++ [c]) (i + 1) _ (by omega) (by simp [ha]) (by simpa using hf), trimDots_cons]
    by_cases hs : trimDots s = []
    · simp only [hs, if_true]
      by_cases h46 : c = 46
      · subst h46
        simp only [ne_eq, not_true, iff_false] at hbit
        rw [if_neg hbit]; simp
      · rw [if_pos (hbit.2 h46)]
        simp [h46]
    · simp only [hs, if_false]
      simp

/-- **C46, length.** `name::length` is the number of characters of the text. -/
theorem c46_length {v : Nat} (hv : v < 2 ^ 64) : nameLength v = (nameToString v).length := by
  obtain ⟨h1, h2, h3⟩ := nameChars_spec v hv
  unfold nameLength
  by_cases h0 : v = 0
  · subst h0; decide
  · rw [if_neg h0]
    have := nameLength_go (nameChars v) [] 0 0 (by omega) rfl (by simpa using h1)
    rw [List.nil_append, h2, h3, Nat.mul_zero, Nat.pow_zero, Nat.mul_one, Nat.mod_eq_of_lt hv] at this
    rw [this]
    have hne : trimDots (nameChars v) ≠ [] := by
      intro h
      have := nameTail_trimDots (nameChars v) 0
      rw [h, h2] at this
      exact h0 this.symm
    rw [if_neg hne]
    show 0 + (nameToString v).length - 1 + 1 = _
    have : (nameToString v).length ≠ 0 := fun h => hne (List.length_eq_zero_iff.1 h)
    omega

/-! ## Prefix -/

/-- the offset of the character at position `j` -/
def nameOffset (j : Nat) : Nat := if j = 12 then 0 else 59 - 5 * j

theorem namePrefix_char (a b : Bytes) (c : UInt8) (hl : a.length + b.length = 12) (hf : NameFrom 0 (a ++ c :: b)) :
    (nameTail 0 (a ++ c :: b) >>> nameOffset a.length) &&& (if nameOffset a.length = 0 then 0xf else 0x1f) = 0 ↔ c = 46 := by
  obtain ⟨-, hc, hc2, -⟩ := (nameFrom_append a (c :: b) 0).1 hf
  unfold nameOffset
  by_cases h : a.length = 12
  · have hb : b = [] := List.length_eq_zero_iff.1 (by omega)
    subst hb
    simp only [h, if_true]
    rw [Nat.shiftRight_zero, and_0f, name_digit13 a c h, digit13_zero hc (hc2 (by omega))]
  · rw [if_neg h, if_neg (by omega), and_1f, name_digit a b c (by omega), digit_zero hc]

theorem nameOffset_next (a : Bytes) (x : UInt8) (h : a.length < 12) :
    (if nameOffset (a ++ [x]).length = 0 then 4 else nameOffset (a ++ [x]).length + 5) = nameOffset a.length := by
  unfold nameOffset
  rw [List.length_append, List.length_singleton]
  by_cases h1 : a.length + 1 = 12
  · rw [if_pos h1]; simp only [if_true]; rw [if_neg (by omega)]; omega
  · rw [if_neg h1, if_neg (by omega), if_neg (by omega)]; omega

/-- one step of the loop over a character that is not the wanted dot -/
theorem namePrefixLoop_skip (a b : Bytes) (c : UInt8) (hl : a.length + b.length = 12) (hf : NameFrom 0 (a ++ c :: b)) (seen : Bool) (hs : c = 46 → seen = false) :
    namePrefixLoop (nameTail 0 (a ++ c :: b)) (a.length + 1) (nameOffset a.length) seen =
      if a = [] then nameTail 0 (a ++ c :: b) else namePrefixLoop (nameTail 0 (a ++ c :: b)) a.length (nameOffset (a.length - 1)) (seen || c != 46) := by
  have hc := namePrefix_char a b c hl hf
  rw [namePrefixLoop]
  have hnext : a ≠ [] → (if nameOffset a.length = 0 then 4 else nameOffset a.length + 5) = nameOffset (a.length - 1) := by
    intro ha
    rcases List.eq_nil_or_concat a with rfl | ⟨a', x, rfl⟩
    · exact absurd rfl ha
    · rw [List.concat_eq_append] at hl ⊢
      rw [nameOffset_next a' x (by simp at hl; omega)]; simp
  by_cases h46 : c = 46
  · have hz := hc.2 h46
    simp only [hz, if_true, hs h46, Bool.false_eq_true, if_false]
    by_cases ha : a = []
    · subst ha; simp [namePrefixLoop]
    · rw [if_neg ha, hnext ha]; simp [h46]
  · have hz : ¬ _ := fun h => h46 (hc.1 h)
    have hx : (c != 46) = true := by simpa using h46
    simp only [hz, if_false]
    by_cases ha : a = []
    · subst ha; simp [namePrefixLoop]
    · rw [if_neg ha, hnext ha, hx, Bool.or_true]

theorem namePrefixLoop_dots : ∀ (m : Nat) (a : Bytes), a ≠ [] → a.length + m = 13 → NameFrom 0 (a ++ List.replicate m 46) →
    namePrefixLoop (nameTail 0 (a ++ List.replicate m 46)) 13 0 false = namePrefixLoop (nameTail 0 (a ++ List.replicate m 46)) a.length (nameOffset (a.length - 1)) false
  | 0, a, _, hl, _ => by rw [show a.length = 13 by omega]; rfl
  | m + 1, a, ha, hl, hf => by
    have e : a ++ List.replicate (m + 1) 46 = (a ++ [46]) ++ List.replicate m 46 := by simp [List.replicate_succ]
    have e' : a ++ List.replicate (m + 1) 46 = a ++ 46 :: List.replicate m 46 := by simp [List.replicate_succ]
    have := namePrefixLoop_dots m (a ++ [46]) (by simp) (by simp; omega) (e ▸ hf)
    rw [e, this, ← e, e']
    rw [show (a ++ [(46 : UInt8)]).length = a.length + 1 by simp, Nat.add_sub_cancel, namePrefixLoop_skip a _ 46 (by simp; omega) (e' ▸ hf) false (fun _ => rfl), if_neg ha]
    rfl

theorem namePrefixLoop_nondots : ∀ (b a r : Bytes) (seen : Bool), a ≠ [] → a.length + b.length + r.length = 13 → NameFrom 0 (a ++ b ++ r) → 46 ∉ b →
    namePrefixLoop (nameTail 0 (a ++ b ++ r)) (a ++ b).length (nameOffset ((a ++ b).length - 1)) seen =
      namePrefixLoop (nameTail 0 (a ++ b ++ r)) a.length (nameOffset (a.length - 1)) (if b = [] then seen else true) := by
  intro b
  induction b using List.reverseRecOn with
  | nil => intro a r seen _ _ _ _; simp
  | append_singleton b x ih =>
    intro a r seen ha hl hf hb
    have e : a ++ (b ++ [x]) ++ r = (a ++ b) ++ x :: r := by simp
    have e2 : a ++ (b ++ [x]) ++ r = a ++ b ++ ([x] ++ r) := by simp
    have hne : a ++ b ≠ [] := by simp [ha]
    simp only [List.mem_append, not_or, List.mem_singleton] at hb
    have h1 := namePrefixLoop_skip (a ++ b) r x (by simp at hl ⊢; omega) (e ▸ hf) seen (fun h => absurd h.symm hb.2)
    rw [e, show (a ++ (b ++ [x])).length = (a ++ b).length + 1 by simp; omega, Nat.add_sub_cancel, h1, if_neg hne, ← e, e2,
      ih a ([x] ++ r) _ ha (by simp at hl ⊢; omega) (e2 ▸ hf) hb.1]
    have hx : (x != 46) = true := by simpa using fun h => hb.2 h.symm
    by_cases hbe : b = []
    · subst hbe; simp [hx]
    · simp [hbe]

/-- no dots but trailing ones -/
theorem namePrefix_whole (b : Bytes) (m : Nat) (hl : b.length + m = 13) (hf : NameFrom 0 (b ++ List.replicate m 46)) (hb : 46 ∉ b) :
    namePrefix (nameTail 0 (b ++ List.replicate m 46)) = nameTail 0 (b ++ List.replicate m 46) := by
  unfold namePrefix
  cases b with
  | nil =>
    have : m = 13 := by simpa using hl
    subst this
    have := namePrefixLoop_dots 12 [46] (by simp) (by simp) (by simpa [List.replicate_succ] using hf)
    have e : ([] : Bytes) ++ List.replicate 13 46 = [46] ++ List.replicate 12 46 := by simp [List.replicate_succ]
    rw [e, this]
    have := namePrefixLoop_skip [] (List.replicate 12 46) 46 (by simp) (by simpa [List.replicate_succ] using hf) false (fun _ => rfl)
    simp only [List.length_nil, List.nil_append, if_true] at this
    simpa using this
  | cons x b =>
    rw [namePrefixLoop_dots m (x :: b) (by simp) hl hf]
    have hx : x ≠ 46 := fun h => hb (by simp [h])
    have e : x :: b ++ List.replicate m 46 = [x] ++ b ++ List.replicate m 46 := by simp
    rw [e, show (x :: b).length = ([x] ++ b).length by simp,
      namePrefixLoop_nondots b [x] (List.replicate m 46) false (by simp) (by simp at hl ⊢; omega) (e ▸ hf) (fun h => hb (by simp [h]))]
    have := namePrefixLoop_skip [] (b ++ List.replicate m 46) x (by simp at hl ⊢; omega) (by simpa using hf) (if b = [] then false else true) (fun h => absurd h hx)
    simp only [List.length_nil, List.nil_append, if_true] at this
    simpa using this

/-- a last dot -/
theorem namePrefix_dot (a b : Bytes) (m : Nat) (hl : a.length + 1 + b.length + m = 13) (hf : NameFrom 0 (a ++ 46 :: (b ++ List.replicate m 46))) (hb : 46 ∉ b) (hbn : b ≠ []) :
    namePrefix (nameTail 0 (a ++ 46 :: (b ++ List.replicate m 46))) = nameTail 0 a := by
  unfold namePrefix
  have e : a ++ 46 :: (b ++ List.replicate m 46) = a ++ [46] ++ b ++ List.replicate m 46 := by simp
  have hla : a.length < 12 := by have := List.length_pos_iff.2 hbn; omega
  have h2 := namePrefix_char a (b ++ List.replicate m 46) 46 (by simp; omega) hf
  rw [e, namePrefixLoop_dots m (a ++ [46] ++ b) (by simp) (by simp; omega) (e ▸ hf),
    namePrefixLoop_nondots b (a ++ [46]) _ false (by simp) (by simp; omega) (e ▸ hf) hb, if_neg hbn, ← e]
  rw [show (a ++ [(46 : UInt8)]).length = a.length + 1 by simp, Nat.add_sub_cancel, namePrefixLoop]
  rw [if_pos (h2.2 rfl)]
  simp only [if_true]
  have h3 := (nameTail_div (a ++ [46]) (b ++ List.replicate m 46) (by simp; omega)).1
  rw [List.append_assoc, List.singleton_append, show (a ++ [(46 : UInt8)]).length = a.length + 1 by simp] at h3
  unfold nameOffset
  rw [if_neg (by omega), show 59 - 5 * a.length = 64 - 5 * (a.length + 1) by omega, Nat.shiftRight_eq_div_pow, h3, Nat.shiftLeft_eq]
  have hd := nameTail_dvd (a ++ [46]) 0 (by simp; omega)
  rw [Nat.zero_add, show (a ++ [(46 : UInt8)]).length = a.length + 1 by simp] at hd
  rw [Nat.div_mul_cancel hd]
  exact nameTail_append_dots a 0 1

/-! ## Suffix -/

/-- the loop of `suffix` over characters -/
def suffixRun : Bytes → Nat → Nat → Nat × Nat
  | [], last, tmp => (last, tmp)
  | c :: s, last, tmp => if c = 46 then suffixRun s last (5 * s.length + 4) else suffixRun s tmp tmp

theorem nameSuffixLoop_eq (e : UInt8) : ∀ (s a : Bytes) (last tmp : Nat), a.length + s.length = 12 → NameFrom 0 (a ++ s ++ [e]) →
    nameSuffixLoop (nameTail 0 (a ++ s ++ [e])) s.length last tmp = suffixRun s last tmp
  | [], a, last, tmp, _, _ => rfl
  | c :: s, a, last, tmp, hl, hf => by
    simp only [List.length_cons] at hl
    have e1 : a ++ c :: s ++ [e] = a ++ c :: (s ++ [e]) := by simp
    have e2 : a ++ c :: s ++ [e] = a ++ [c] ++ s ++ [e] := by simp
    obtain ⟨-, hc, -⟩ := (nameFrom_append a (c :: (s ++ [e])) 0).1 (e1 ▸ hf)
    have hd := name_digit a (s ++ [e]) c (by omega)
    rw [List.length_cons, nameSuffixLoop, suffixRun]
    rw [and_1f, show 5 * s.length + 4 = 59 - 5 * a.length by omega, e1, hd]
    simp only [digit_zero hc]
    rw [← e1, e2, nameSuffixLoop_eq e s (a ++ [c]) _ _ (by simp; omega) (e2 ▸ hf), nameSuffixLoop_eq e s (a ++ [c]) _ _ (by simp; omega) (e2 ▸ hf)]

theorem suffixRun_append : ∀ (a s : Bytes) (l t : Nat), ∃ l' t', suffixRun (a ++ s) l t = suffixRun s l' t'
  | [], s, l, t => ⟨l, t, rfl⟩
  | c :: a, s, l, t => by
    rw [List.cons_append, suffixRun]
    split
    · exact suffixRun_append a s _ _
    · exact suffixRun_append a s _ _

theorem suffixRun_nondots : ∀ (b s : Bytes) (l t : Nat), 46 ∉ b → suffixRun (b ++ s) l t = suffixRun s (if b = [] then l else t) t
  | [], s, l, t, _ => rfl
  | c :: b, s, l, t, h => by
    have hc : c ≠ 46 := fun h' => h (by simp [h'])
    rw [List.cons_append, suffixRun, if_neg hc, suffixRun_nondots b s t t (fun h' => h (by simp [h']))]
    simp

theorem suffixRun_dots : ∀ (n l t : Nat), (suffixRun (List.replicate n 46) l t).1 = l
  | 0, _, _ => rfl
  | n + 1, l, t => by rw [List.replicate_succ, suffixRun, if_pos rfl, suffixRun_dots]

/-- `nameSuffix` on thirteen characters -/
theorem nameSuffix_eq (p : Bytes) (e : UInt8) (hl : p.length = 12) (hf : NameFrom 0 (p ++ [e])) (last : Nat)
    (hlast : (if e ≠ 46 then (suffixRun p 0 0).2 else (suffixRun p 0 0).1) = last) :
    nameSuffix (nameTail 0 (p ++ [e])) = if last = 0 then nameTail 0 (p ++ [e]) else
      (((nameTail 0 (p ++ [e]) &&& ((1 <<< last) - 16)) <<< (64 - last)) % 2 ^ 64 + (charToNameDigit e <<< (64 - last - 1)) % 2 ^ 64) % 2 ^ 64 := by
  obtain ⟨-, hc, hc2, -⟩ := (nameFrom_append p [e] 0).1 hf
  have h16 : nameTail 0 (p ++ [e]) &&& 0xf = charToNameDigit e := by
    rw [and_0f, name_digit13 p e hl, Nat.mod_eq_of_lt (hc2 (by omega))]
  have hloop := nameSuffixLoop_eq e p [] 0 0 (by simpa using hl) (by simpa using hf)
  rw [hl, List.nil_append] at hloop
  unfold nameSuffix
  rw [hloop]
  simp only [h16]
  have : (if charToNameDigit e ≠ 0 then (suffixRun p 0 0).2 else (suffixRun p 0 0).1) = last := by
    rw [← hlast]
    simp only [ne_eq, digit_zero hc]
  rw [this]

theorem and_mask (v rb : Nat) (h : 4 ≤ rb) : v &&& ((1 <<< rb) - 16) = v % 2 ^ rb / 16 * 16 := by
  have e : (1 <<< rb) - 16 = (2 ^ (rb - 4) - 1) <<< 4 := by
    rw [Nat.shiftLeft_eq, Nat.shiftLeft_eq, Nat.one_mul, Nat.sub_mul, ← Nat.pow_add, show rb - 4 + 4 = rb by omega]
  rw [e, show v % 2 ^ rb / 16 * 16 = (v % 2 ^ rb) >>> 4 <<< 4 by rw [Nat.shiftLeft_eq, Nat.shiftRight_eq_div_pow]]
  apply Nat.eq_of_testBit_eq
  intro j
  rw [Nat.testBit_and, Nat.testBit_shiftLeft, Nat.testBit_shiftLeft, Nat.testBit_shiftRight, Nat.testBit_two_pow_sub_one, Nat.testBit_mod_two_pow]
  by_cases hj : j ≥ 4
  · simp only [hj, decide_true, Bool.true_and, show 4 + (j - 4) = j by omega]
    rw [Bool.and_comm]
    congr 1
    simp only [decide_eq_decide]
    omega
  · simp [hj]

theorem nameTail_shift : ∀ (b : Bytes) (e : UInt8) (i j : Nat), i + j + b.length = 12 → charToNameDigit e < 16 → 0 < j →
    nameTail i (b ++ [e]) = (nameTail (i + j) (b ++ [e]) - charToNameDigit e) * 2 ^ (5 * j) + charToNameDigit e * 2 ^ (5 * j - 1) ∧
      charToNameDigit e ≤ nameTail (i + j) (b ++ [e])
  | [], e, i, j, h, he, hj => by
    have hi : i < 12 := by simp at h; omega
    have h12 : i + j = 12 := by simpa using h
    rw [List.nil_append, h12]
    simp only [nameTail, hi, if_true, Nat.lt_irrefl, if_false]
    rw [Nat.mod_eq_of_lt he, Nat.sub_self, Nat.zero_mul, Nat.zero_add, Nat.add_zero]
    refine ⟨?_, Nat.le_refl _⟩
    congr 2
    omega
  | c :: b, e, i, j, h, he, hj => by
    simp only [List.length_cons] at h
    obtain ⟨h1, h2⟩ := nameTail_shift b e (i + 1) j (by omega) he hj
    rw [show i + 1 + j = i + j + 1 by omega] at h1 h2
    simp only [List.cons_append, nameTail, show i < 12 by omega, show i + j < 12 by omega, if_true]
    rw [h1]
    refine ⟨?_, by omega⟩
    rw [show charToNameDigit c * 2 ^ (64 - 5 * (i + j + 1)) + nameTail (i + j + 1) (b ++ [e]) - charToNameDigit e =
      charToNameDigit c * 2 ^ (64 - 5 * (i + j + 1)) + (nameTail (i + j + 1) (b ++ [e]) - charToNameDigit e) by omega, Nat.add_mul, Nat.mul_assoc,
      ← Nat.pow_add, show 64 - 5 * (i + j + 1) + 5 * j = 64 - 5 * (i + 1) by omega]
    omega

/-- a last dot -/
theorem nameSuffix_dot (a b : Bytes) (m : Nat) (hl : a.length + 1 + b.length + m = 13) (hf : NameFrom 0 (a ++ 46 :: (b ++ List.replicate m 46))) (hb : 46 ∉ b) (hbn : b ≠ []) :
    nameSuffix (nameTail 0 (a ++ 46 :: (b ++ List.replicate m 46))) = nameTail 0 b := by
  obtain ⟨p, e, hpe⟩ : ∃ p e, b ++ List.replicate m 46 = p ++ [e] := by
    rcases List.eq_nil_or_concat (b ++ List.replicate m 46) with h | ⟨p, e, h⟩
    · simp [hbn] at h
    · exact ⟨p, e, by rw [h, List.concat_eq_append]⟩
  have hlen : p.length + 1 = b.length + m := by
    have := congrArg List.length hpe
    simpa using this.symm
  have e1 : a ++ 46 :: (b ++ List.replicate m 46) = (a ++ 46 :: p) ++ [e] := by rw [hpe]; simp
  have hfe : NameFrom 0 (a ++ 46 :: p ++ [e]) := e1 ▸ hf
  obtain ⟨-, hc, hc2, -⟩ := (nameFrom_append (a ++ 46 :: p) [e] 0).1 hfe
  have he16 : charToNameDigit e < 16 := hc2 (by simp; omega)
  have hlast : (if e ≠ 46 then (suffixRun (a ++ 46 :: p) 0 0).2 else (suffixRun (a ++ 46 :: p) 0 0).1) = 5 * p.length + 4 := by
    obtain ⟨l', t', hr⟩ := suffixRun_append a (46 :: p) 0 0
    rw [hr, suffixRun, if_pos rfl]
    cases m with
    | zero =>
      rw [List.replicate_zero, List.append_nil] at hpe
      subst hpe
      simp only [List.mem_append, not_or, List.mem_singleton] at hb
      rw [if_pos (fun h => hb.2 h.symm)]
      have := suffixRun_nondots p [] l' (5 * p.length + 4) hb.1
      rw [List.append_nil] at this
      rw [this]; rfl
    | succ m =>
      rw [List.replicate_succ', ← List.append_assoc] at hpe
      obtain ⟨h1, h2⟩ := List.append_inj' hpe rfl
      cases h2
      rw [if_neg (by simp), ← h1, suffixRun_nondots b _ _ _ hb, suffixRun_dots, if_neg hbn, h1]
  rw [e1, nameSuffix_eq (a ++ 46 :: p) e (by simp; omega) hfe _ hlast, if_neg (by omega)]
  have hk : 5 * p.length + 4 = 64 - 5 * (a.length + 1) := by omega
  have hmod := (nameTail_div (a ++ [46]) (p ++ [e]) (by simp; omega)).2
  rw [show (a ++ [(46 : UInt8)]).length = a.length + 1 by simp, show a ++ [46] ++ (p ++ [e]) = a ++ 46 :: p ++ [e] by simp] at hmod
  obtain ⟨hs1, hs2⟩ := nameTail_shift p e 0 (a.length + 1) (by omega) he16 (by omega)
  rw [Nat.zero_add] at hs1 hs2
  have h13 : nameTail (a.length + 1) (p ++ [e]) % 16 = charToNameDigit e := by
    have := name_digit13 (a ++ 46 :: p) e (by simp; omega)
    rw [Nat.mod_eq_of_lt he16] at this
    rw [← hmod, ← this, show (16 : Nat) = 2 ^ 4 from rfl, Nat.mod_mod_of_dvd _ (Nat.pow_dvd_pow 2 (by omega))]
  rw [and_mask _ _ (by omega), hk, hmod]
  have e3 : nameTail (a.length + 1) (p ++ [e]) / 16 * 16 = nameTail (a.length + 1) (p ++ [e]) - charToNameDigit e := by omega
  have hlt := nameTail_lt (p ++ [e]) 0 (by omega)
  have e4 : 64 - (64 - 5 * (a.length + 1)) = 5 * (a.length + 1) := by omega
  rw [e3, e4, Nat.shiftLeft_eq, Nat.shiftLeft_eq]
  rw [hs1] at hlt
  rw [Nat.mod_eq_of_lt (a := (nameTail (a.length + 1) (p ++ [e]) - charToNameDigit e) * 2 ^ (5 * (a.length + 1))) (by omega),
    Nat.mod_eq_of_lt (a := charToNameDigit e * 2 ^ (5 * (a.length + 1) - 1)) (by omega), Nat.mod_eq_of_lt (by omega), ← hs1, ← hpe]
  exact nameTail_append_dots b 0 m

/-- no dots but trailing ones -/
theorem nameSuffix_whole (b : Bytes) (m : Nat) (hl : b.length + m = 13) (hf : NameFrom 0 (b ++ List.replicate m 46)) (hb : 46 ∉ b) :
    nameSuffix (nameTail 0 (b ++ List.replicate m 46)) = nameTail 0 (b ++ List.replicate m 46) := by
  obtain ⟨p, e, hpe⟩ : ∃ p e, b ++ List.replicate m 46 = p ++ [e] := by
    rcases List.eq_nil_or_concat (b ++ List.replicate m 46) with h | ⟨p, e, h⟩
    · have := congrArg List.length h
      simp at this; simp [this] at hl
    · exact ⟨p, e, by rw [h, List.concat_eq_append]⟩
  have hlen : p.length + 1 = b.length + m := by
    have := congrArg List.length hpe
    simpa using this.symm
  have hlast : (if e ≠ 46 then (suffixRun p 0 0).2 else (suffixRun p 0 0).1) = 0 := by
    cases m with
    | zero =>
      rw [List.replicate_zero, List.append_nil] at hpe
      subst hpe
      simp only [List.mem_append, not_or, List.mem_singleton] at hb
      rw [if_pos (fun h => hb.2 h.symm)]
      have := suffixRun_nondots p [] 0 0 hb.1
      rw [List.append_nil] at this
      rw [this]; rfl
    | succ m =>
      rw [List.replicate_succ', ← List.append_assoc] at hpe
      obtain ⟨h1, h2⟩ := List.append_inj' hpe rfl
      cases h2
      rw [if_neg (by simp), ← h1, suffixRun_nondots b _ _ _ hb, suffixRun_dots]
      split <;> rfl
  rw [hpe, nameSuffix_eq p e (by omega) (hpe ▸ hf) 0 hlast, if_pos rfl]

/-! ## Properties -/

/-- **C46, names without a dot**: both are the name itself. -/
theorem c46_no_dot {v : Nat} (hv : v < 2 ^ 64) (h : '.'.toUInt8 ∉ nameToString v) : nameSuffix v = v ∧ namePrefix v = v := by
  obtain ⟨m, h1, h2, h3, -⟩ := name_chars hv
  constructor
  · have := nameSuffix_whole _ m h3 h1 h
    rwa [← h2] at this
  · have := namePrefix_whole _ m h3 h1 h
    rwa [← h2] at this

/-- **C46, names with a dot.** If the text of the name is `a.b` with no dot in `b`, the suffix has the text `b`, and the prefix the text
`a` without the dots at its end. -/
theorem c46_parts {v : Nat} (hv : v < 2 ^ 64) {a b : Bytes} (ht : nameToString v = a ++ '.'.toUInt8 :: b) (hb : '.'.toUInt8 ∉ b) :
    nameToString (nameSuffix v) = b ∧ StripsDots a (nameToString (namePrefix v)) := by
  obtain ⟨m, h1, h2, h3, h4⟩ := name_chars hv
  change 46 ∉ b at hb
  change nameToString v = a ++ 46 :: b at ht
  have hbn : b ≠ [] := by
    rintro rfl
    rw [ht, List.getLast?_concat] at h4
    exact h4 rfl
  rw [ht] at h1 h2 h3
  have e : a ++ 46 :: b ++ List.replicate m 46 = a ++ 46 :: (b ++ List.replicate m 46) := by simp
  rw [e] at h1 h2
  have hl : a.length + 1 + b.length + m = 13 := by simp at h3; omega
  have hs := nameSuffix_dot a b m hl h1 hb hbn
  have hp := namePrefix_dot a b m hl h1 hb hbn
  rw [← h2] at hs hp
  rw [hs, hp]
  obtain ⟨fa, fd, -, fb⟩ := (nameFrom_append a _ 0).1 h1
  obtain ⟨fb, -⟩ := (nameFrom_append b _ _).1 fb
  have mono : ∀ (s : Bytes) (i j : Nat), j ≤ i → i + s.length ≤ 13 → j + s.length ≤ 12 → NameFrom i s → NameFrom j s := by
    intro s
    induction s with
    | nil => intro i j _ _ _ _; trivial
    | cons c s ih =>
      rintro i j h1 h2 h3 ⟨g1, g2, g3⟩
      simp only [List.length_cons] at h2 h3
      exact ⟨g1, fun h => absurd h (by omega), ih (i + 1) (j + 1) (by omega) (by omega) (by omega) g3⟩
  refine ⟨?_, ?_⟩
  · rw [nameToString_tail (mono b _ 0 (by omega) (by omega) (by omega) fb) (by omega)]
    obtain ⟨k, hk⟩ := trimDots_replicate b
    cases k with
    | zero => simpa using hk.symm
    | succ k => exact absurd (show 46 ∈ b by rw [hk]; simp) hb
  · rw [nameToString_tail fa (by omega)]
    exact stripsDots_trim a

/-- **C46, putting together.** If the character before the last dot is not a dot, prefix, dot and suffix give back the text. -/
theorem c46_rejoin {v : Nat} (hv : v < 2 ^ 64) {a b : Bytes} (ht : nameToString v = a ++ '.'.toUInt8 :: b) (hb : '.'.toUInt8 ∉ b)
    (ha : a.getLast? ≠ some '.'.toUInt8) : nameToString (namePrefix v) ++ '.'.toUInt8 :: nameToString (nameSuffix v) = nameToString v := by
  obtain ⟨h1, ⟨n, h2⟩, h3⟩ := c46_parts hv ht hb
  rw [h1, ht]
  cases n with
  | zero => rw [List.replicate_zero, List.append_nil] at h2; rw [← h2]
  | succ n =>
    rw [List.replicate_succ', ← List.append_assoc] at h2
    rw [h2, List.getLast?_concat] at ha
    exact absurd rfl ha

/-- Cases: `a..bc.x`, `.abc`, and a thirteenth character. -/
example : nameToString (nameSuffix (stringToName (str "a..bc.x"))) = str "x" ∧ nameToString (namePrefix (stringToName (str "a..bc.x"))) = str "a..bc" := by decide +kernel
example : nameToString (nameSuffix (stringToName (str ".abc"))) = str "abc" ∧ nameToString (namePrefix (stringToName (str ".abc"))) = [] := by decide +kernel
example : nameToString (nameSuffix (stringToName (str "abcdefghijk.j"))) = str "j" ∧ nameToString (nameSuffix (stringToName (str "abcdefghi...j"))) = str "j" ∧
    nameToString (namePrefix (stringToName (str "abcdefghi...j"))) = str "abcdefghi" := by decide +kernel

end Abieos
