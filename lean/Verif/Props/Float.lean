import Verif.Proofs.FloatNearest
/-
C48, C49: the JSON text of floating point numbers.
-/
namespace Abieos
open Spec

theorem exp_range {bits : Nat} (hf : Spec.Finite bits) : -1074 ≤ (buildFp bits).exp ∧ (buildFp bits).exp ≤ 971 ∧ (buildFp bits).frac < 2 ^ 53 := by
  unfold Spec.Finite at hf
  have hm' : bits / 2 ^ 52 % 2 ^ 11 < 2 ^ 11 := Nat.mod_lt _ (by decide)
  have hm : bits % 2 ^ 52 < 2 ^ 52 := Nat.mod_lt _ (by decide)
  unfold buildFp hiddenbit
  simp only
  split <;> simp only <;> omega

/-- A number between the midpoints of a double and with at most 17 digits has an exponent of at most three digits. -/
theorem decimal_exp_range {bits D : Nat} {K : Int} (hf : Spec.Finite bits) (h0 : bits % 2 ^ 63 ≠ 0) (hD : 0 < D) (hD' : D < 10 ^ 17)
    (hl : ((buildFp bits).frac * 2 ^ lShift (buildFp bits) - 1 : ℚ) * 2 ^ ((buildFp bits).exp - lShift (buildFp bits)) < D * 10 ^ K)
    (hu : (D * 10 ^ K : ℚ) < (2 * (buildFp bits).frac + 1) * 2 ^ ((buildFp bits).exp - 1)) : -900 < K ∧ K < 900 := by
  obtain ⟨e1, e2, e3⟩ := exp_range hf
  obtain ⟨j, hN, -, -⟩ := buildFp_normal h0 hf
  have hpos := hN.pos
  have hls : lShift (buildFp bits) = 1 ∨ lShift (buildFp bits) = 2 := by unfold lShift; split <;> simp
  generalize buildFp bits = fp at *
  have h10 : (0 : ℚ) < 10 ^ K := by positivity
  have hDq : (1 : ℚ) ≤ D := by exact_mod_cast hD
  have hDq' : (D : ℚ) < 2 ^ 57 := by
    have : D < 2 ^ 57 := lt_of_lt_of_le hD' (by norm_num)
    exact_mod_cast this
  have h8 : ∀ k : Int, (8 : ℚ) ^ k = 2 ^ (3 * k) := by
    intro k
    rw [zpow_mul]; norm_num
  constructor
  · by_contra hc
    have hK : K ≤ -900 := by omega
    have h1 : (10 : ℚ) ^ K ≤ 2 ^ (-2700 : Int) := by
      have : (10 : ℚ) ^ K ≤ 8 ^ K := by
        obtain ⟨m, rfl⟩ : ∃ m : Int, K = -m := ⟨-K, by omega⟩
        rw [zpow_neg, zpow_neg]
        exact inv_anti₀ (by positivity) (zpow_le_zpow_left₀ (by omega) (by norm_num) (by norm_num))
      rw [h8] at this
      exact le_trans this (zpow_le_zpow_right₀ (by norm_num) (by omega))
    have h2 : (2 : ℚ) ^ (-1076 : Int) ≤ (fp.frac * 2 ^ lShift fp - 1 : ℚ) * 2 ^ (fp.exp - lShift fp) := by
      have ha : (1 : ℚ) ≤ fp.frac * 2 ^ lShift fp - 1 := by
        have : 2 ≤ fp.frac * 2 ^ lShift fp := by
          rcases hls with h | h <;> rw [h] <;> omega
        have : (2 : ℚ) ≤ fp.frac * 2 ^ lShift fp := by exact_mod_cast this
        linarith
      have hb : (2 : ℚ) ^ (-1076 : Int) ≤ 2 ^ (fp.exp - lShift fp) := zpow_le_zpow_right₀ (by norm_num) (by omega)
      calc (2 : ℚ) ^ (-1076 : Int) = 1 * 2 ^ (-1076 : Int) := by ring
        _ ≤ _ := mul_le_mul ha hb (by positivity) (by linarith)
    have h3 : (D * 10 ^ K : ℚ) ≤ 2 ^ 57 * 2 ^ (-2700 : Int) := mul_le_mul (le_of_lt hDq') h1 (le_of_lt h10) (by positivity)
    have h4 : (2 : ℚ) ^ 57 * 2 ^ (-2700 : Int) = 2 ^ (-2643 : Int) := by
      rw [← zpow_natCast, ← zpow_add₀ (by norm_num)]; norm_num
    have h5 : (2 : ℚ) ^ (-2643 : Int) < 2 ^ (-1076 : Int) := zpow_lt_zpow_right₀ (by norm_num) (by norm_num)
    linarith
  · by_contra hc
    have h1 : (2 : ℚ) ^ (2700 : Int) ≤ 10 ^ K := by
      have : (8 : ℚ) ^ K ≤ 10 ^ K := zpow_le_zpow_left₀ (by omega) (by norm_num) (by norm_num)
      rw [h8] at this
      exact le_trans (zpow_le_zpow_right₀ (by norm_num) (by omega)) this
    have h2 : (2 * fp.frac + 1 : ℚ) * 2 ^ (fp.exp - 1) ≤ 2 ^ (54 : Int) * 2 ^ (970 : Int) := by
      refine mul_le_mul ?_ (zpow_le_zpow_right₀ (by norm_num) (by omega)) (by positivity) (by positivity)
      have : (2 * fp.frac + 1 : Nat) ≤ 2 ^ 54 := by omega
      have : (2 * fp.frac + 1 : ℚ) ≤ 2 ^ 54 := by exact_mod_cast this
      exact_mod_cast this
    have h4 : (2 : ℚ) ^ (54 : Int) * 2 ^ (970 : Int) = 2 ^ (1024 : Int) := by
      rw [← zpow_add₀ (by norm_num)]; norm_num
    have h5 : (2 : ℚ) ^ (1024 : Int) < 2 ^ (2700 : Int) := zpow_lt_zpow_right₀ (by norm_num) (by norm_num)
    have h6 : (1 : ℚ) * 10 ^ K ≤ D * 10 ^ K := mul_le_mul_of_nonneg_right hDq (le_of_lt h10)
    rw [one_mul] at h6
    rw [h4] at h2
    exact lt_irrefl _ (lt_of_lt_of_le h5 (le_trans h1 (le_trans h6 (le_trans (le_of_lt hu) h2))))

/-- How long the text can be: a plain integer has at most 24 digits. -/
theorem emitDigits_length {s : Bytes} {K : Int} {neg : Bool} (h1 : 1 ≤ s.length) (h17 : s.length ≤ 17) (hK : -900 < K) (hK' : K < 900) :
    (emitDigits s K neg).length ≤ 23 ∨ (s.length = 17 ∧ K = 7 ∧ (emitDigits s K neg).length = 24) := by
  have hmin : min s.length (if neg = true then 17 else 18) = s.length := by split <;> omega
  unfold emitDigits
  simp only [hmin]
  by_cases hc : 0 ≤ K ∧ (K + (s.length : Int) - 1).natAbs < s.length + 7
  · rw [if_pos hc]
    simp only [List.length_append, List.length_replicate]
    omega
  · rw [if_neg hc]
    by_cases hc2 : K < 0 ∧ (K > -7 ∨ (K + (s.length : Int) - 1).natAbs < 4)
    · rw [if_pos hc2]
      by_cases hnd : s.length ≤ K.natAbs
      · rw [if_pos hnd]; simp; omega
      · rw [if_neg hnd]; simp; omega
    · rw [if_neg hc2]
      left
      have he : ∀ i : Fin 1000, (emitExp i).length ≤ 3 := by decide +kernel
      have he' := he ⟨(K + (s.length : Int) - 1).natAbs, by omega⟩
      simp only at he'
      have h3 : (if K + (s.length : Int) - 1 < 0 then ([45] : Bytes) else [43]).length = 1 := by split <;> rfl
      have h4 : (if s.length > 1 then (46 : UInt8) :: List.take (s.length - 1) (List.drop 1 s) else []).length ≤ s.length := by
        split
        · simp; omega
        · simp
      simp only [List.length_append, List.length_take, h3]
      simp only [List.length_cons, List.length_nil]
      omega

/-- The text of a magnitude begins with a digit. -/
theorem emitDigits_head {D : Nat} {K : Int} {neg : Bool} (hD : 0 < D) (hD' : D < 10 ^ 17) :
    ∃ c, (emitDigits (text10 D) K neg).head? = some c ∧ IsDigit c := by
  obtain ⟨g1, -, g3, -⟩ := text10_facts 17 D hD' (by omega)
  generalize text10 D = s at *
  cases s with
  | nil => exact absurd rfl g3
  | cons c s =>
    have hc := g1 c (List.mem_cons_self ..)
    unfold emitDigits
    simp only
    split
    · exact ⟨c, rfl, hc⟩
    · split
      · split
        · exact ⟨48, rfl, by decide⟩
        · rename_i h
          obtain ⟨m, hm⟩ : ∃ m, (c :: s).length - K.natAbs = m + 1 := ⟨(c :: s).length - K.natAbs - 1, by omega⟩
          rw [hm]
          exact ⟨c, rfl, hc⟩
      · exact ⟨c, rfl, hc⟩

/-- `fpconv_dtoa` on a finite double: a number text, whose value is nearest to the double; at most 24 characters, or exactly 25. -/
theorem fpconvDtoa_ok {bits : Nat} (hf : Spec.Finite bits) : ∃ t x, fpconvDtoa bits = .ok t ∧ NumberValue t x ∧ Nearest bits x ∧
    (t.head? = some 45 ↔ bits / 2 ^ 63 % 2 = 1) ∧
    (t.length ≤ 24 ∨ (t.length = 25 ∧ bits / 2 ^ 63 % 2 = 1 ∧ -10 ^ 24 < x ∧ x ≤ -10 ^ 23)) := by
  unfold fpconvDtoa
  simp only
  by_cases h0 : bits % 2 ^ 63 = 0
  · rw [if_pos h0]
    refine ⟨_, 0, rfl, ⟨decide (bits / 2 ^ 63 % 2 = 1), [48], [], [], [], 0, ?_, ⟨by simp, by simp; decide⟩, by simp, .inl ⟨rfl, rfl⟩, .inl ⟨rfl, rfl⟩, ?_⟩, ?_, ?_, .inl ?_⟩
    · simp
    · simp [decVal, decFrom, digitVal_eq]
    · intro b _ _ hne
      have : doubleValue bits = 0 := by unfold doubleValue; rw [h0, magnitude_zero, mul_zero]
      rw [this] at hne ⊢
      simp only [sub_zero, abs_zero, zero_sub, abs_neg]
      exact abs_pos.2 hne
    · split <;> simp_all
    · split <;> simp
  · rw [if_neg h0]
    obtain ⟨D, K, hg, hD, hD', hl, hu⟩ := grisu2_ok h0 hf
    obtain ⟨hK, hK'⟩ := decimal_exp_range hf h0 hD hD' hl hu
    rw [hg, bind_ok]
    have hne : D ≠ 0 := by omega
    have hv := emitDigits_value (decide (bits / 2 ^ 63 % 2 = 1)) hne hD' hK hK'
    have hn := nearest_of_midpoints h0 hl hu
    simp only [decide_eq_true_eq] at hv
    refine ⟨_, _, by simp only [decide_eq_true_eq]; rfl, hv, hn, ?_, ?_⟩
    · by_cases hs : bits / 2 ^ 63 % 2 = 1
      · rw [if_pos hs]; exact ⟨fun _ => hs, fun _ => rfl⟩
      · rw [if_neg hs]
        refine ⟨fun h => ?_, fun h => absurd h hs⟩
        obtain ⟨c, hc, hd⟩ := emitDigits_head (K := K) (neg := decide (bits / 2 ^ 63 % 2 = 1)) hD hD'
        rw [List.nil_append] at h
        rw [hc] at h
        rw [Option.some.inj h] at hd
        exact absurd hd (by decide)
    · have hlen := emitDigits_length (s := text10 D) (K := K) (neg := decide (bits / 2 ^ 63 % 2 = 1))
        (by have := (text10_facts 17 D hD' hne).2.2.1
            cases h : text10 D with
            | nil => exact absurd h this
            | cons c s => simp)
        (text10_length.2 hD') hK hK'
      by_cases hs : bits / 2 ^ 63 % 2 = 1
      · rw [if_pos hs, if_pos hs]
        rcases hlen with h | ⟨h17, rfl, h⟩
        · left; rw [List.length_append]; simp only [List.length_cons, List.length_nil]; omega
        · right
          refine ⟨by rw [List.length_append, h]; rfl, hs, ?_, ?_⟩
          · have : (D : ℚ) < 10 ^ 17 := by exact_mod_cast hD'
            clear * - this
            generalize (D : ℚ) = q at this ⊢
            norm_num at this ⊢; linarith
          · have h16 : 10 ^ 16 ≤ D := by
              by_contra hc
              have := text10_length (D := D) (k := 16) |>.2 (by omega)
              omega
            have : (10 ^ 16 : ℚ) ≤ D := by exact_mod_cast h16
            clear * - this
            generalize (D : ℚ) = q at this ⊢
            norm_num at this ⊢; linarith
      · rw [if_neg hs]
        left
        rw [List.nil_append]
        omega

theorem span_unique {p : UInt8 → Prop} : ∀ {a b x y : Bytes}, (∀ c ∈ a, p c) → (∀ c ∈ b, p c) → (∀ c, x.head? = some c → ¬ p c) →
    (∀ c, y.head? = some c → ¬ p c) → a ++ x = b ++ y → a = b ∧ x = y
  | [], [], _, _, _, _, _, _, h => ⟨rfl, h⟩
  | [], c :: b, x, y, _, hb, hx, _, h => by
    rw [List.nil_append, List.cons_append] at h
    exact absurd (hb c (List.mem_cons_self ..)) (hx c (by rw [h]; rfl))
  | c :: a, [], x, y, ha, _, _, hy, h => by
    rw [List.nil_append, List.cons_append] at h
    exact absurd (ha c (List.mem_cons_self ..)) (hy c (by rw [← h]; rfl))
  | c :: a, d :: b, x, y, ha, hb, hx, hy, h => by
    rw [List.cons_append, List.cons_append] at h
    have h' := List.cons.inj h
    have h'' := span_unique (fun e he => ha e (List.mem_cons_of_mem _ he)) (fun e he => hb e (List.mem_cons_of_mem _ he)) hx hy h'.2
    exact ⟨by rw [h'.1, h''.1], h''.2⟩

/-- A text has one value. -/
theorem numberValue_unique {t : Bytes} {x y : ℚ} (hx : NumberValue t x) (hy : NumberValue t y) : x = y := by
  obtain ⟨neg, int, fd, frac, exp, e, rfl, h1, -, h3, h4, rfl⟩ := hx
  obtain ⟨neg', int', fd', frac', exp', e', h0, k1, -, k3, k4, rfl⟩ := hy
  have d45 : ∀ {i : Bytes} {r : Bytes}, Digits i → (i ++ r).head? ≠ some 45 := by
    intro i r hi h
    cases i with
    | nil => exact hi.1 rfl
    | cons c i =>
      have := hi.2 c (List.mem_cons_self ..)
      rw [List.cons_append, List.head?_cons] at h
      rw [Option.some.inj h] at this
      revert this; decide
  have hneg : neg = neg' := by
    cases neg <;> cases neg' <;> simp only [if_true, if_false, List.nil_append, Bool.false_eq_true] at h0 <;> try rfl
    · exact absurd (by rw [h0]; rfl) (d45 h1 (r := frac ++ exp))
    · exact absurd (by rw [← h0]; rfl) (d45 k1 (r := frac' ++ exp'))
  subst hneg
  have h0' := List.append_cancel_left h0
  clear h0
  have hexp : ∀ {exp : Bytes} {e : Int}, ((exp = [] ∧ e = 0) ∨ ∃ E sg d, (E = 101 ∨ E = 69) ∧ (sg = [] ∨ sg = [43] ∨ sg = [45]) ∧ Digits d ∧ exp = E :: (sg ++ d) ∧
      e = if sg = [45] then -(decVal d : Int) else decVal d) → ∀ c, exp.head? = some c → c = 101 ∨ c = 69 := by
    rintro exp e (⟨rfl, -⟩ | ⟨E, sg, d, hE, -, -, rfl, -⟩) c hc
    · cases hc
    · cases hc; exact hE
  have hrest : ∀ {fd frac exp : Bytes} {e : Int}, ((fd = [] ∧ frac = []) ∨ (Digits fd ∧ frac = 46 :: fd)) → (∀ c, exp.head? = some c → c = 101 ∨ c = 69) →
      ∀ c, (frac ++ exp).head? = some c → ¬ IsDigit c := by
    rintro fd frac exp e (⟨-, rfl⟩ | ⟨-, rfl⟩) he c hc
    · rcases he c hc with rfl | rfl <;> decide
    · cases hc; decide
  have nd : ∀ {exp : Bytes}, (∀ c, exp.head? = some c → c = 101 ∨ c = 69) → ∀ c, exp.head? = some c → ¬ IsDigit c := by
    intro exp he c hc
    rcases he c hc with rfl | rfl <;> decide
  have hi := span_unique h1.2 k1.2 (hrest (e := 0) h3 (hexp h4)) (hrest (e := 0) k3 (hexp k4)) h0'
  clear h0'
  obtain ⟨rfl, h0⟩ := hi
  have hfe : fd = fd' ∧ exp = exp' := by
    rcases h3 with ⟨rfl, rfl⟩ | ⟨hd, rfl⟩ <;> rcases k3 with ⟨rfl, rfl⟩ | ⟨kd, rfl⟩
    · exact ⟨rfl, h0⟩
    · rcases hexp h4 46 (by rw [List.nil_append] at h0; rw [h0]; rfl) with h | h <;> cases h
    · rcases hexp k4 46 (by rw [List.nil_append] at h0; rw [← h0]; rfl) with h | h <;> cases h
    · exact span_unique hd.2 kd.2 (nd (hexp h4)) (nd (hexp k4)) (List.cons.inj h0).2
  obtain ⟨rfl, rfl⟩ := hfe
  have he : e = e' := by
    rcases h4 with ⟨rfl, rfl⟩ | ⟨E, sg, d, hE, hsg, hd, rfl, rfl⟩ <;> rcases k4 with ⟨h, rfl⟩ | ⟨E', sg', d', hE', hsg', hd', h, rfl⟩
    · rfl
    · cases h
    · cases h
    · have h := (List.cons.inj h).2
      have key : sg = sg' ∧ d = d' := by
        have hs : ∀ {s : Bytes}, (s = [] ∨ s = [43] ∨ s = [45]) → ∀ c ∈ s, ¬ IsDigit c := by
          rintro s (rfl | rfl | rfl) c hc
          · cases hc
          · rw [List.mem_singleton.1 hc]; decide
          · rw [List.mem_singleton.1 hc]; decide
        have hh : ∀ {d : Bytes}, Digits d → ∀ c, d.head? = some c → ¬ ¬ IsDigit c := by
          intro d hd c hc
          cases d with
          | nil => cases hc
          | cons a d => cases hc; exact not_not.2 (hd.2 _ (List.mem_cons_self ..))
        exact span_unique (p := fun c => ¬ IsDigit c) (hs hsg) (hs hsg') (hh hd) (hh hd') h
      rw [key.1, key.2]
  rw [he]

/-- **C48.** The text printed for a finite double is a JSON number whose exact decimal value is nearer to that double than to any other
finite double: a reader that rounds to nearest gets the double back. The sign of zero is kept. -/
theorem c48_print_nearest {bits : Nat} (hf : Spec.Finite bits) {t : Bytes} (h : fpToJson bits = .ok t) :
    ∃ x, NumberValue t x ∧ Nearest bits x ∧ (t.head? = some 45 ↔ bits / 2 ^ 63 % 2 = 1) := by
  obtain ⟨t', x, h1, h2, h3, h4, -⟩ := fpconvDtoa_ok hf
  unfold fpToJson at h
  rw [if_neg hf, h1, bind_ok] at h
  split at h
  · cases h; exact ⟨x, h2, h3, h4⟩
  · cases h

/-- **C48.** The texts printed for infinities and for what is not a number. -/
theorem c48_print_special {bits : Nat} (hf : ¬ Spec.Finite bits) :
    fpToJson bits = .ok (if bits % 2 ^ 52 ≠ 0 then str "\"NaN\"" else if bits / 2 ^ 63 % 2 = 1 then str "\"-Infinity\"" else str "\"Infinity\"") := by
  unfold Spec.Finite at hf
  unfold fpToJson
  rw [if_pos (not_not.1 hf)]
  by_cases h : bits % 2 ^ 52 = 0
  · rw [if_pos h, if_neg (not_not.2 h)]
  · rw [if_neg h, if_pos h]

/-- **C48.** Printing two doubles of different values gives different texts. -/
theorem c48_print_injective {a b : Nat} (ha : a < 2 ^ 64) (hb : b < 2 ^ 64) (hfa : Spec.Finite a) (hfb : Spec.Finite b) {t : Bytes}
    (h1 : fpToJson a = .ok t) (h2 : fpToJson b = .ok t) : doubleValue a = doubleValue b := by
  obtain ⟨x, hx, hn, -⟩ := c48_print_nearest hfa h1
  obtain ⟨y, hy, hm, -⟩ := c48_print_nearest hfb h2
  obtain rfl := numberValue_unique hx hy
  by_contra hne
  exact absurd (hn b hb hfb (Ne.symm hne)) (not_lt.2 (le_of_lt (hm a ha hfa hne)))

/-- **C49.** Printing a double writes at most 24 characters, except for a negative number of exactly 24 digits. -/
theorem c49_print_length {bits : Nat} (hf : Spec.Finite bits) :
    (∃ t, fpToJson bits = .ok t ∧ t.length ≤ 24) ∨ (fpToJson bits = .error .ub ∧ ∃ x, Nearest bits x ∧ -10 ^ 24 < x ∧ x ≤ -10 ^ 23) := by
  obtain ⟨t, x, h1, h2, h3, h4, h5⟩ := fpconvDtoa_ok hf
  unfold fpToJson
  rw [if_neg hf, h1, bind_ok]
  rcases h5 with h | ⟨h, -, h6, h7⟩
  · left; rw [if_pos h]; exact ⟨t, rfl, h⟩
  · right; rw [if_neg (by omega)]; exact ⟨rfl, x, h3, h6, h7⟩

/-- **C49.** The exception is met: printing `-123456789012345670000000` (bits `0xC4BA249CB1098E0C`) writes 25 characters to the buffer of 24. -/
theorem c49_print_overflow : fpToJson 14175683025761771628 = .error .ub := by decide +kernel

/-- A double of ordinary size is printed. -/
example : fpToJson 0x400921FB54442D18 = .ok (str "3.141592653589793") := by decide +kernel
example : fpToJson 1 = .ok (str "5e-324") := by decide +kernel
example : Spec.Finite 0x400921FB54442D18 := by unfold Spec.Finite; decide

end Abieos
