import Verif.Model.Base58
import Verif.Proofs.Bytes
import Mathlib.Data.Nat.Digits.Lemmas
/-! # C13: base58 -/
namespace Abieos

/-! ## Specification -/

/-- A character of the base58 alphabet with its value: the digits and letters except 0, O, I and l, in ASCII order. -/
def Spec.base58Digit (c : UInt8) (d : Nat) : Prop := (str "123456789ABCDEFGHJKLMNPQRSTUVWXYZabcdefghijkmnopqrstuvwxyz")[d]? = some c

/-- The number that base 58 digits denote, most significant first. -/
def Spec.bigEndian (B : Nat) (digits : List Nat) : Nat := digits.foldl (fun n d => n * B + d) 0

open Spec

/-! ## Lemmas -/

theorem base58Map_char : ∀ i : Fin 58, base58Map (base58Char i.val) = some i.val ∧ base58Char i.val ≠ 0 ∧
    (base58Char i.val = 49 ↔ i.val = 0) := by
  unfold base58Map; decide +kernel

theorem base58Map_inv : ∀ c : UInt8, ∀ d, base58Map c = some d → c ≠ 0 → d < 58 ∧ base58Char d = c := by
  apply forall_uint8
  have : ∀ n : Fin 256, ((base58Map (UInt8.ofNat n.val)).all fun d =>
      decide (UInt8.ofNat n.val ≠ 0 → d < 58 ∧ base58Char d = UInt8.ofNat n.val)) = true := by
    unfold base58Map; decide +kernel
  intro n d hd hn
  have := this n
  rw [hd] at this
  simp only [Option.all_some, decide_eq_true_eq] at this
  exact this hn

theorem base58Map_zero : base58Map 0 = some 58 := by unfold base58Map; decide +kernel

theorem base58Map_none_iff (c : UInt8) : base58Map c = none ↔ c ≠ 0 ∧ ∀ d, ¬ base58Digit c d := by
  constructor
  · intro h
    refine ⟨?_, ?_⟩
    · rintro rfl; rw [base58Map_zero] at h; simp at h
    · intro d hd
      have hlt : d < 58 := by
        have := List.getElem?_eq_some_iff.1 hd
        exact this.1
      have : base58Char d = c := by
        unfold base58Char base58Chars
        rw [List.getD_eq_getElem?_getD, hd]; rfl
      have h2 := (base58Map_char ⟨d, hlt⟩).1
      simp only [this] at h2
      rw [h] at h2; simp at h2
  · rintro ⟨h0, h⟩
    cases hc : base58Map c with
    | none => rfl
    | some d =>
      obtain ⟨h1, h2⟩ := base58Map_inv c d hc h0
      refine absurd ?_ (h d)
      unfold base58Digit
      rw [← h2]
      unfold base58Char base58Chars
      have hl : d < (str "123456789ABCDEFGHJKLMNPQRSTUVWXYZabcdefghijkmnopqrstuvwxyz").length := h1
      rw [List.getD_eq_getElem?_getD, List.getElem?_eq_getElem hl]
      rfl

theorem mul58Add_spec : ∀ (a : Bytes) (c : Nat), c ≤ 58 →
    (mul58Add c a).1.length = a.length ∧ (mul58Add c a).2 ≤ 58 ∧
    leVal (mul58Add c a).1 + 256 ^ a.length * (mul58Add c a).2 = leVal a * 58 + c
  | [], c, hc => by simp [mul58Add, leVal, hc]
  | b :: s, c, hc => by
    have hb := b.toNat_lt
    have e : (b.toNat * 58 + c) >>> 8 = (b.toNat * 58 + c) / 256 := Nat.shiftRight_eq_div_pow _ 8
    obtain ⟨h1, h2, h3⟩ := mul58Add_spec s ((b.toNat * 58 + c) / 256) (by omega)
    simp only [mul58Add, e, List.length_cons, leVal, h1, true_and]
    refine ⟨h2, ?_⟩
    rw [show (UInt8.ofNat (b.toNat * 58 + c)).toNat = (b.toNat * 58 + c) % 256 by simp, Nat.pow_succ,
      show 256 ^ s.length * 256 * (mul58Add ((b.toNat * 58 + c) / 256) s).2 =
        256 * (256 ^ s.length * (mul58Add ((b.toNat * 58 + c) / 256) s).2) by ring]
    omega

/-- little-endian numbers without superfluous leading zero bytes -/
def Canon (a : Bytes) : Prop := a.getLast? ≠ some 0

theorem leVal_append' (s t : Bytes) : leVal (s ++ t) = leVal s + 256 ^ s.length * leVal t := by
  induction s with
  | nil => simp [leVal]
  | cons c s ih =>
    rw [List.cons_append, leVal, ih, leVal, List.length_cons, Nat.pow_succ]
    ring

theorem canon_ge {a : Bytes} (h : Canon a) (hne : a ≠ []) : 256 ^ (a.length - 1) ≤ leVal a := by
  obtain ⟨b, x, rfl⟩ : ∃ b x, a = b ++ [x] := ⟨a.dropLast, a.getLast hne, (List.dropLast_append_getLast hne).symm⟩
  have hx : x ≠ 0 := by rintro rfl; simp [Canon] at h
  have : x.toNat ≠ 0 := fun h0 => hx (uint8_ext h0)
  rw [leVal_append']
  simp only [List.length_append, List.length_singleton, Nat.add_sub_cancel, leVal]
  have : 256 ^ b.length * 1 ≤ 256 ^ b.length * (x.toNat + 256 * 0) := Nat.mul_le_mul_left _ (by omega)
  omega

/-- the canonical number is determined by its value -/
theorem canon_inj {a b : Bytes} (ha : Canon a) (hb : Canon b) (h : leVal a = leVal b) : a = b := by
  have hl : a.length = b.length := by
    have key : ∀ a b : Bytes, Canon a → leVal a = leVal b → a.length ≤ b.length := by
      intro a b ha h
      by_cases hne : a = []
      · simp [hne]
      · have h1 := canon_ge ha hne
        have h2 := leVal_lt b
        rw [h] at h1
        have h3 := (Nat.pow_lt_pow_iff_right (show 1 < 256 by decide)).1 (Nat.lt_of_le_of_lt h1 h2)
        omega
    exact Nat.le_antisymm (key a b ha h) (key b a hb h.symm)
  exact leVal_inj a b hl h

theorem canon_step {a : Bytes} {d : Nat} (ha : Canon a) (hd : d ≤ 58) :
    Canon (if (mul58Add d a).2 ≠ 0 then (mul58Add d a).1 ++ [UInt8.ofNat (mul58Add d a).2] else (mul58Add d a).1) ∧
    leVal (if (mul58Add d a).2 ≠ 0 then (mul58Add d a).1 ++ [UInt8.ofNat (mul58Add d a).2] else (mul58Add d a).1) = leVal a * 58 + d := by
  obtain ⟨h1, h2, h3⟩ := mul58Add_spec a d hd
  generalize mul58Add d a = r at *
  obtain ⟨r1, c⟩ := r
  simp only at *
  have hto : (UInt8.ofNat c).toNat = c := by simp; omega
  split
  · rename_i hc
    refine ⟨?_, ?_⟩
    · simp only [Canon, List.getLast?_append, List.getLast?_singleton, Option.some_or, ne_eq, Option.some.injEq]
      intro h
      apply hc
      rw [← hto, h]; rfl
    · rw [leVal_append', h1, leVal, leVal, hto]; simpa using h3
  · rename_i hc
    have hc : c = 0 := by omega
    subst hc
    refine ⟨?_, by simpa using h3⟩
    -- a non-canonical result would be too small
    intro hlast
    have hne : r1 ≠ [] := by rintro rfl; simp at hlast
    have hane : a ≠ [] := by rintro rfl; simp at h1; exact hne h1
    obtain ⟨b, x, rfl⟩ : ∃ b x, r1 = b ++ [x] := ⟨r1.dropLast, r1.getLast hne, (List.dropLast_append_getLast hne).symm⟩
    simp at hlast
    subst hlast
    have hv : leVal (b ++ [0]) = leVal b := by rw [leVal_append']; simp [leVal]
    have := leVal_lt b
    have h4 := canon_ge ha hane
    simp at h1 h3
    rw [hv] at h3
    have h5 : a.length - 1 = b.length := by omega
    rw [h5] at h4
    omega

/-- values of the characters -/
def digitVals (s : Bytes) : List Nat := s.map fun c => (base58Map c).getD 0

theorem base58Loop_spec : ∀ (s acc : Bytes), Canon acc → (∀ c ∈ s, base58Map c ≠ none) →
    ∃ r, base58Loop acc s = .ok r ∧ Canon r ∧ leVal r = (digitVals s).foldl (fun n d => n * 58 + d) (leVal acc)
  | [], acc, ha, _ => ⟨acc, rfl, ha, rfl⟩
  | c :: s, acc, ha, hs => by
    cases hc : base58Map c with
    | none => exact absurd hc (hs c (by simp))
    | some d =>
      have hd : d ≤ 58 := by
        by_cases h0 : c = 0
        · subst h0; rw [base58Map_zero] at hc; injection hc with hc; omega
        · exact Nat.le_of_lt (base58Map_inv c d hc h0).1
      obtain ⟨h1, h2⟩ := canon_step (d := d) ha hd
      obtain ⟨r, h3, h4, h5⟩ := base58Loop_spec s _ h1 (fun a ha => hs a (by simp [ha]))
      refine ⟨r, ?_, h4, ?_⟩
      · rw [base58Loop, hc]; exact h3
      · rw [h5, h2]; simp [digitVals, hc]

theorem base58Loop_ok_iff : ∀ (s acc r : Bytes), base58Loop acc s = .ok r → ∀ c ∈ s, base58Map c ≠ none
  | [], _, _, _ => by simp
  | c :: s, acc, r, h => by
    rw [base58Loop] at h
    cases hc : base58Map c with
    | none => rw [hc] at h; simp at h
    | some d =>
      rw [hc] at h
      have := base58Loop_ok_iff s _ r h
      intro a ha
      rcases List.mem_cons.1 ha with rfl | ha
      · rw [hc]; simp
      · exact this a ha

/-! ### encoding -/

/-- digits of the accumulator, least significant first -/
theorem mul256Add58_spec : ∀ (a : List Nat) (c : Nat), (∀ d ∈ a, d < 58) → c ≤ 255 →
    ∃ r : List Nat, (∀ d ∈ r, d < 58) ∧ r.length = a.length ∧ (mul256Add58 c (a.map base58Char)).1 = r.map base58Char ∧
      (mul256Add58 c (a.map base58Char)).2 ≤ 255 ∧
      Nat.ofDigits 58 r + 58 ^ a.length * (mul256Add58 c (a.map base58Char)).2 = Nat.ofDigits 58 a * 256 + c
  | [], c, _, hc => ⟨[], by simp, rfl, rfl, hc, by simp [mul256Add58]⟩
  | d :: s, c, hs, hc => by
    have hd : d < 58 := hs d (by simp)
    have hm := (base58Map_char ⟨d, hd⟩).1
    simp only at hm
    have e : (d <<< 8) = d * 256 := Nat.shiftLeft_eq d 8
    obtain ⟨r, h1, h2, h3, h4, h5⟩ := mul256Add58_spec s ((d * 256 + c) / 58) (fun x hx => hs x (by simp [hx])) (by omega)
    refine ⟨(d * 256 + c) % 58 :: r, ?_, by simp [h2], ?_, ?_, ?_⟩
    · intro x hx
      rcases List.mem_cons.1 hx with rfl | hx
      · exact Nat.mod_lt _ (by decide)
      · exact h1 x hx
    · simp only [List.map_cons, mul256Add58, hm, Option.getD_some, e, h3]
    · simp only [List.map_cons, mul256Add58, hm, Option.getD_some, e]; exact h4
    · simp only [List.map_cons, mul256Add58, hm, Option.getD_some, e, Nat.ofDigits_cons, List.length_cons, Nat.pow_succ]
      rw [show 58 ^ s.length * 58 * (mul256Add58 ((d * 256 + c) / 58) (s.map base58Char)).2 =
        58 * (58 ^ s.length * (mul256Add58 ((d * 256 + c) / 58) (s.map base58Char)).2) by ring]
      omega

theorem pushCarry58_spec (c : Nat) : pushCarry58 c = (Nat.digits 58 c).map base58Char := by
  induction c using Nat.strong_induction_on with
  | _ c ih =>
    rw [pushCarry58]
    split
    · rename_i h; subst h; simp
    · rename_i h
      rw [Nat.digits_def' (by decide) (by omega), ih (c / 58) (Nat.div_lt_self (by omega) (by decide))]
      rfl

theorem toBase58Loop_spec : ∀ (s : Bytes) (V : Nat),
    toBase58Loop ((Nat.digits 58 V).map base58Char) s =
      (Nat.digits 58 (s.foldl (fun n b => n * 256 + b.toNat) V)).map base58Char
  | [], V => rfl
  | b :: s, V => by
    rw [toBase58Loop, List.foldl_cons, ← toBase58Loop_spec s]
    have hb := b.toNat_lt
    obtain ⟨r, h1, h2, h3, h4, h5⟩ := mul256Add58_spec (Nat.digits 58 V) b.toNat (fun d hd => Nat.digits_lt_base (by decide) hd) (by omega)
    rw [Nat.ofDigits_digits] at h5
    congr 1
    rw [h3, pushCarry58_spec, ← List.map_append]
    congr 1
    generalize (mul256Add58 b.toNat ((Nat.digits 58 V).map base58Char)).2 = c at *
    rw [← h5, ← h2]
    rw [← Nat.digits_ofDigits 58 (by decide) (r ++ Nat.digits 58 c), Nat.ofDigits_append, Nat.ofDigits_digits]
    · intro l hl
      rcases List.mem_append.1 hl with hl | hl
      · exact h1 l hl
      · exact Nat.digits_lt_base (by decide) hl
    · intro hne
      by_cases hc : c = 0
      · subst hc
        simp only [Nat.digits_zero, List.append_nil] at hne ⊢
        intro hlast
        -- the value would be too small
        simp at h5
        have hVne : Nat.digits 58 V ≠ [] := by
          intro h0; rw [h0] at h2; simp at h2; exact hne h2
        obtain ⟨q, x, rfl⟩ : ∃ q x, r = q ++ [x] := ⟨r.dropLast, r.getLast hne, (List.dropLast_append_getLast hne).symm⟩
        simp at hlast
        subst hlast
        have hq : Nat.ofDigits 58 (q ++ [0]) = Nat.ofDigits 58 q := by rw [Nat.ofDigits_append]; simp
        rw [hq] at h5
        have hlt : Nat.ofDigits 58 q < 58 ^ q.length := Nat.ofDigits_lt_base_pow_length (by decide) (fun x hx => h1 x (by simp [hx]))
        have hlen : (Nat.digits 58 V).length = q.length + 1 := by rw [← h2]; simp
        have hV0 : V ≠ 0 := by rintro rfl; simp at hVne
        have hge : 58 ^ q.length ≤ V := by
          have := Nat.base_pow_length_digits_le 58 V (by decide) hV0
          rw [hlen, Nat.pow_succ] at this
          omega
        omega
      · have hne' : Nat.digits 58 c ≠ [] := Nat.digits_ne_nil_iff_ne_zero.2 hc
        rw [List.getLast_append_of_ne_nil _ hne']
        exact Nat.getLast_digit_ne_zero 58 hc

/-! ## Theorems -/

/-- the canonical little-endian bytes of a number -/
theorem foldl_bytes (s : Bytes) (V : Nat) : s.foldl (fun n b => n * 256 + b.toNat) V = leVal s.reverse + 256 ^ s.length * V := by
  induction s generalizing V with
  | nil => simp [leVal]
  | cons b s ih =>
    rw [List.foldl_cons, ih, List.reverse_cons, leVal_append', List.length_reverse, List.length_cons, Nat.pow_succ]
    simp [leVal]; ring

theorem foldl_digits (s : List Nat) (V : Nat) : s.foldl (fun n d => n * 58 + d) V = Nat.ofDigits 58 s.reverse + 58 ^ s.length * V := by
  induction s generalizing V with
  | nil => simp
  | cons b s ih =>
    rw [List.foldl_cons, ih, List.reverse_cons, Nat.ofDigits_append, List.length_reverse, List.length_cons, Nat.pow_succ]
    simp; ring

/-- split off the leading zero bytes -/
theorem zeros_split (b : Bytes) : ∃ z r, b = List.replicate z 0 ++ r ∧ r.head? ≠ some 0 ∧ leadingZeros b = List.replicate z 49 := by
  induction b with
  | nil => exact ⟨0, [], rfl, by simp, rfl⟩
  | cons x b ih =>
    by_cases hx : x = 0
    · obtain ⟨z, r, h1, h2, h3⟩ := ih
      exact ⟨z + 1, r, by rw [h1, hx]; rfl, h2, by rw [leadingZeros, if_neg (by simpa using hx), h3]; rfl⟩
    · exact ⟨0, x :: b, rfl, by simpa using hx, by rw [leadingZeros, if_pos hx]; rfl⟩

theorem ones_split (s : Bytes) : ∃ z r, s = List.replicate z 49 ++ r ∧ r.head? ≠ some 49 ∧ leadingOnes s = List.replicate z 0 := by
  induction s with
  | nil => exact ⟨0, [], rfl, by simp, rfl⟩
  | cons x s ih =>
    by_cases hx : x = 49
    · obtain ⟨z, r, h1, h2, h3⟩ := ih
      exact ⟨z + 1, r, by rw [h1, hx]; rfl, h2, by rw [leadingOnes, if_pos hx, h3]; rfl⟩
    · exact ⟨0, x :: s, rfl, by simpa using hx, by rw [leadingOnes, if_neg hx]; rfl⟩

theorem leadingOnes_replicate {z : Nat} {r : Bytes} (h : r.head? ≠ some 49) : leadingOnes (List.replicate z 49 ++ r) = List.replicate z 0 := by
  induction z with
  | zero =>
    cases r with
    | nil => rfl
    | cons c r =>
      have hc : ¬ c = 49 := by simpa using h
      simp [leadingOnes, hc]
  | succ z ih => rw [List.replicate_succ, List.cons_append, leadingOnes, if_pos rfl, ih]; rfl

theorem leadingZeros_replicate {z : Nat} {r : Bytes} (h : r.head? ≠ some 0) : leadingZeros (List.replicate z 0 ++ r) = List.replicate z 49 := by
  induction z with
  | zero =>
    cases r with
    | nil => rfl
    | cons c r =>
      have hc : ¬ c = 0 := by simpa using h
      simp [leadingZeros, hc]
  | succ z ih => rw [List.replicate_succ, List.cons_append, leadingZeros, if_neg (by simp), ih]; rfl

theorem foldl_zeros (z : Nat) (r : Bytes) : (List.replicate z (0:UInt8) ++ r).foldl (fun n (b : UInt8) => n * 256 + b.toNat) 0 =
    r.foldl (fun n b => n * 256 + b.toNat) 0 := by
  induction z with
  | zero => rfl
  | succ z ih => rw [List.replicate_succ, List.cons_append, List.foldl_cons]; simpa using ih

theorem toBase58_eq {z : Nat} {r : Bytes} (h : r.head? ≠ some 0) : toBase58 (List.replicate z 0 ++ r) =
    List.replicate z 49 ++ ((Nat.digits 58 (leVal r.reverse)).map base58Char).reverse := by
  unfold toBase58
  have := toBase58Loop_spec (List.replicate z 0 ++ r) 0
  simp only [Nat.digits_zero, List.map_nil] at this
  rw [this, foldl_zeros, foldl_bytes, leadingZeros_replicate h]
  simp

theorem digits_head {V : Nat} : ((Nat.digits 58 V).map base58Char).reverse.head? ≠ some 49 := by
  rw [List.head?_reverse, List.getLast?_map]
  by_cases hV : V = 0
  · simp [hV]
  · have hne : Nat.digits 58 V ≠ [] := Nat.digits_ne_nil_iff_ne_zero.2 hV
    rw [List.getLast?_eq_some_getLast hne]
    have h1 := Nat.getLast_digit_ne_zero 58 hV
    have h2 : (Nat.digits 58 V).getLast hne < 58 := Nat.digits_lt_base (by decide) (List.getLast_mem hne)
    simp only [Option.map_some, ne_eq, Option.some.injEq]
    intro h
    exact h1 ((base58Map_char ⟨_, h2⟩).2.2.1 h)

theorem digitVals_map {l : List Nat} (h : ∀ d ∈ l, d < 58) : digitVals (l.map base58Char) = l := by
  unfold digitVals
  rw [List.map_map]
  conv_rhs => rw [← List.map_id l]
  apply List.map_congr_left
  intro d hd
  have := (base58Map_char ⟨d, h d hd⟩).1
  simp only at this
  simp [this]

theorem fromBase58_eq {z : Nat} {r : Bytes} (h : r.head? ≠ some 49) (hs : ∀ c ∈ r, base58Map c ≠ none) :
    ∃ a, fromBase58 (List.replicate z 49 ++ r) = .ok (List.replicate z 0 ++ a.reverse) ∧ Canon a ∧
      leVal a = (digitVals r).foldl (fun n d => n * 58 + d) 0 := by
  have h1 : base58Map 49 = some 0 := (base58Map_char ⟨0, by decide⟩).1
  obtain ⟨a, h2, h3, h4⟩ := base58Loop_spec (List.replicate z 49 ++ r) [] (by simp [Canon]) (by
    intro c hc
    rcases List.mem_append.1 hc with hc | hc
    · rw [List.eq_of_mem_replicate hc, h1]; simp
    · exact hs c hc)
  refine ⟨a, ?_, h3, ?_⟩
  · unfold fromBase58
    rw [h2, bind_ok, leadingOnes_replicate h]
    simp
  · rw [h4]
    unfold digitVals
    rw [List.map_append, List.foldl_append, List.map_replicate, h1]
    congr 1
    simp only [Option.getD_some, leVal]
    clear h2 h3 h4 h hs
    induction z with
    | zero => rfl
    | succ z ih => rw [List.replicate_succ, List.foldl_cons]; simpa using ih

/-- Encoding and decoding gives back the bytes: every byte string, of any length. -/
theorem c13_roundtrip (b : Bytes) : fromBase58 (toBase58 b) = .ok b := by
  obtain ⟨z, r, rfl, hr, -⟩ := zeros_split b
  rw [toBase58_eq hr]
  obtain ⟨a, h1, h2, h3⟩ := fromBase58_eq (z := z) (r := ((Nat.digits 58 (leVal r.reverse)).map base58Char).reverse) digits_head (by
    intro c hc
    simp only [List.mem_reverse, List.mem_map] at hc
    obtain ⟨d, hd, rfl⟩ := hc
    have := (base58Map_char ⟨d, Nat.digits_lt_base (by decide) hd⟩).1
    simp only at this
    rw [this]; simp)
  rw [h1]
  congr 2
  have h4 : leVal a = leVal r.reverse := by
    rw [h3, ← List.map_reverse, digitVals_map (fun d hd => Nat.digits_lt_base (by decide) (List.mem_reverse.1 hd)), foldl_digits]
    simp [Nat.ofDigits_digits]
  have h5 : Canon r.reverse := by unfold Canon; rw [List.getLast?_reverse]; exact hr
  rw [canon_inj h2 h5 h4, List.reverse_reverse]

/-- The texts accepted are those whose characters are all in the alphabet (or NUL). -/
theorem c13_accepts (s : Bytes) : (∃ b, fromBase58 s = .ok b) ↔ ∀ c ∈ s, c = 0 ∨ ∃ d, base58Digit c d := by
  have hmap : ∀ c, (c = 0 ∨ ∃ d, base58Digit c d) ↔ base58Map c ≠ none := by
    intro c
    rw [ne_eq, base58Map_none_iff]
    by_cases h : c = 0 <;> simp [h]
  simp only [hmap]
  constructor
  · rintro ⟨b, h⟩
    unfold fromBase58 at h
    obtain ⟨a, h1, -⟩ := bind_eq_ok.1 h
    exact base58Loop_ok_iff s [] a h1
  · intro h
    obtain ⟨r, h1, -⟩ := base58Loop_spec s [] (by simp [Canon]) h
    exact ⟨_, by unfold fromBase58; rw [h1, bind_ok]⟩

/-- A text over the alphabet that is decoded is encoded again to itself, including its leading `1`s. -/
theorem c13_text_roundtrip {s b : Bytes} (h : fromBase58 s = .ok b) (h0 : 0 ∉ s) : toBase58 b = s := by
  obtain ⟨z, r, rfl, hr, -⟩ := ones_split s
  have hs : ∀ c ∈ r, base58Map c ≠ none := by
    unfold fromBase58 at h
    obtain ⟨a, h1, -⟩ := bind_eq_ok.1 h
    exact fun c hc => base58Loop_ok_iff _ [] a h1 c (by simp [hc])
  obtain ⟨a, h1, h2, h3⟩ := fromBase58_eq (z := z) hr hs
  rw [h1] at h
  injection h with h
  subst h
  have ha : a.reverse.head? ≠ some 0 := by rw [List.head?_reverse]; exact h2
  rw [toBase58_eq ha, List.reverse_reverse]
  congr 1
  have hval : ∀ c ∈ r, (base58Map c).getD 0 < 58 ∧ base58Char ((base58Map c).getD 0) = c := by
    intro c hc
    cases hm : base58Map c with
    | none => exact absurd hm (hs c hc)
    | some d => exact base58Map_inv c d hm (by rintro rfl; exact h0 (by simp [hc]))
  have h4 : Nat.digits 58 (leVal a) = (digitVals r).reverse := by
    rw [h3, foldl_digits, Nat.mul_zero, Nat.add_zero]
    apply Nat.digits_ofDigits 58 (by decide)
    · intro d hd
      simp only [digitVals, List.mem_reverse, List.mem_map] at hd
      obtain ⟨c, hc, rfl⟩ := hd
      exact (hval c hc).1
    · intro hne
      rw [List.getLast_reverse]
      cases r with
      | nil => simp [digitVals] at hne
      | cons c r =>
        simp only [digitVals, List.map_cons, List.head_cons]
        intro hz
        obtain ⟨-, hc⟩ := hval c (by simp)
        rw [hz] at hc
        apply hr
        rw [← hc]; rfl
  rw [h4, List.map_reverse, List.reverse_reverse]
  unfold digitVals
  rw [List.map_map]
  conv_rhs => rw [← List.map_id r]
  apply List.map_congr_left
  intro c hc
  exact (hval c hc).2

theorem fromBase58_val {s b : Bytes} (h : fromBase58 s = .ok b) : leVal b.reverse = bigEndian 58 (digitVals s) := by
  unfold fromBase58 at h
  obtain ⟨a, h1, h2⟩ := bind_eq_ok.1 h
  injection h2 with h2
  subst h2
  obtain ⟨r, h3, -, h5⟩ := base58Loop_spec s [] (by simp [Canon]) (base58Loop_ok_iff s [] a h1)
  rw [h1] at h3
  injection h3 with h3
  subst h3
  rw [List.reverse_reverse, leVal_append']
  obtain ⟨z, r, -, -, hz⟩ := ones_split s
  rw [hz, leVal_zero, h5]
  simp [bigEndian, leVal]

theorem base58Digit_map {c : UInt8} {d : Nat} (hd : base58Digit c d) : base58Map c = some d := by
  have hlt : d < 58 := (List.getElem?_eq_some_iff.1 hd).1
  have : base58Char d = c := by
    unfold base58Char base58Chars
    rw [List.getD_eq_getElem?_getD, hd]; rfl
  rw [← this]
  exact (base58Map_char ⟨d, hlt⟩).1

/-- The bytes of a text over the alphabet: one zero byte for each leading `1`, then, with a first byte that is not zero (or no bytes if
it is zero), the number that the digits denote in base 58, both big-endian. -/
theorem c13_value {s b : Bytes} {ds : List Nat} (hs : List.Forall₂ base58Digit s ds) (h : fromBase58 s = .ok b) :
    bigEndian 256 (b.map UInt8.toNat) = bigEndian 58 ds ∧
    ∃ z rest r, s = List.replicate z 49 ++ rest ∧ rest.head? ≠ some 49 ∧ b = List.replicate z 0 ++ r ∧ r.head? ≠ some 0 := by
  constructor
  · have h1 := fromBase58_val h
    have h2 : digitVals s = ds := by
      clear h h1
      induction hs with
      | nil => rfl
      | cons hd _ ih => simp only [digitVals, List.map_cons, base58Digit_map hd, Option.getD_some] at *; rw [ih]
    rw [h2] at h1
    rw [← h1]
    have := foldl_bytes b 0
    rw [Nat.mul_zero, Nat.add_zero] at this
    rw [← this]
    unfold bigEndian
    rw [List.foldl_map]
  · obtain ⟨z, r, rfl, hr, -⟩ := ones_split s
    have hs' : ∀ c ∈ r, base58Map c ≠ none := by
      unfold fromBase58 at h
      obtain ⟨a, h1, -⟩ := bind_eq_ok.1 h
      exact fun c hc => base58Loop_ok_iff _ [] a h1 c (by simp [hc])
    obtain ⟨a, h1, h2, h3⟩ := fromBase58_eq (z := z) hr hs'
    rw [h1] at h
    injection h with h
    exact ⟨z, r, a.reverse, rfl, hr, h.symm, by rw [List.head?_reverse]; exact h2⟩

example : fromBase58 (str "116h8cQN") = .ok [0, 0, 0xde, 0xad, 0xbe, 0xef] := by
  unfold fromBase58
  decide +kernel

example : toBase58 [0, 0, 0xde, 0xad, 0xbe, 0xef] = str "116h8cQN" :=
  c13_text_roundtrip (by unfold fromBase58; decide +kernel) (by decide)

/-- NUL characters are accepted, with the value 58: distinct texts then decode to the same bytes. -/
example : fromBase58 [0] = .ok [58] ∧ fromBase58 (str "21") = .ok [58] := by
  have : fromBase58 [0] = .ok [58] ∧ fromBase58 (str "21") = .ok [58] := by
    unfold fromBase58
    decide +kernel
  exact this

end Abieos
