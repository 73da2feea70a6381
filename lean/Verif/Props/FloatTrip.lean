import Verif.Proofs.FloatTrip
import Verif.Props.RoundTrip
import Verif.Props.Example
/-
C59: floating point numbers through binary, text and binary, if the C library rounds correctly.
-/
namespace Abieos
open Spec

theorem printsTo_number {strto : Bytes → Option Nat} {d bits : Nat} {t : Bytes} {x : ℚ} (h : fpToJson d = .ok t) (hx : NumberValue t x)
    (hs : strto t = some bits) : PrintsTo strto d bits :=
  have hj := numberValue_json hx
  ⟨t, t, h, reads_number hj, (by rintro rfl; obtain ⟨c, s, h, -⟩ := jsonNumber_head hj; cases h), hs⟩

theorem printsTo_word {strto : Bytes → Option Nat} {d bits : Nat} {s : Bytes} (h : fpToJson d = .ok (34 :: (s ++ [34])))
    (hw : s = str "NaN" ∨ s = str "Infinity" ∨ s = str "-Infinity") (hs : strto s = some bits) : PrintsTo strto d bits :=
  ⟨_, s, h, by rcases hw with rfl | rfl | rfl <;> exact reads_plain (by decide), by rcases hw with rfl | rfl | rfl <;> decide, hs⟩

theorem number_zero : NumberValue (str "0") 0 :=
  ⟨false, str "0", [], [], [], 0, by decide, ⟨by decide, by decide⟩, by decide, .inl ⟨rfl, rfl⟩, .inl ⟨rfl, rfl⟩, by
    rw [show decVal (str "0" ++ []) = 0 by decide +kernel]; simp⟩
theorem number_zero_neg : NumberValue (str "-0") 0 :=
  ⟨true, str "0", [], [], [], 0, by decide, ⟨by decide, by decide⟩, by decide, .inl ⟨rfl, rfl⟩, .inl ⟨rfl, rfl⟩, by
    rw [show decVal (str "0" ++ []) = 0 by decide +kernel]; simp⟩

theorem double_kept {strto : Bytes → Option Nat} (hF : RoundsDouble strto) {bits : Nat} (hb : bits < 2 ^ 64) (hk : KeptDouble bits) {t : Bytes}
    (h : fpToJson bits = .ok t) : PrintsTo strto bits bits := by
  rcases hk with h0 | ⟨hf, hm⟩ | hi | rfl
  · rcases (by omega : bits = 0 ∨ bits = 2 ^ 63) with rfl | rfl
    · exact printsTo_number (t := str "0") (by decide +kernel) number_zero (hF.zero _ number_zero)
    · exact printsTo_number (t := str "-0") (by decide +kernel) number_zero_neg (hF.zero _ number_zero_neg)
  · obtain ⟨x, hx, hn, hs⟩ := c48_print_nearest hf h
    obtain ⟨r1, r2⟩ := double_range hb hf hm h hx hn
    exact printsTo_number h hx (hF.normal t x bits hx r1 r2 hb hf hs hn)
  · rcases (by omega : bits = 2047 * 2 ^ 52 ∨ bits = 2 ^ 63 + 2047 * 2 ^ 52) with rfl | rfl
    · exact printsTo_word (s := str "Infinity") (by decide +kernel) (.inr (.inl rfl)) hF.infinity
    · exact printsTo_word (s := str "-Infinity") (by decide +kernel) (.inr (.inr rfl)) hF.minusInfinity
  · exact printsTo_word (s := str "NaN") (by decide +kernel) (.inl rfl) hF.nan

theorem float_kept {strto : Bytes → Option Nat} (hF : RoundsFloat strto) {bits : Nat} (hb : bits < 2 ^ 32) (hk : KeptFloat bits) {t : Bytes}
    (h : fpToJson (widenFloat bits) = .ok t) : PrintsTo strto (widenFloat bits) bits := by
  rcases hk with h0 | ⟨hf, hm⟩ | hi | rfl
  · rcases (by omega : bits = 0 ∨ bits = 2 ^ 31) with rfl | rfl
    · exact printsTo_number (t := str "0") (by decide +kernel) number_zero (hF.zero _ number_zero)
    · exact printsTo_number (t := str "-0") (by decide +kernel) number_zero_neg (hF.zero _ number_zero_neg)
  · obtain ⟨w1, w2, w3, w4⟩ := c48_widen hf
    obtain ⟨x, hx, hn, hs⟩ := c48_print_nearest w2 h
    have hn' : Nearest32 bits x := fun b _ hb' hne => by
      obtain ⟨v1, v2, v3, v4⟩ := c48_widen hb'
      have := hn _ v1 v2 (by rw [v3, w3]; exact hne)
      rwa [v3, w3] at this
    obtain ⟨r1, r2⟩ := float_range hb hf hm h hx hn'
    exact printsTo_number h hx (hF.normal t x bits hx r1 r2 hb hf (by rw [hs, w4]) hn')
  · rcases (by omega : bits = 255 * 2 ^ 23 ∨ bits = 2 ^ 31 + 255 * 2 ^ 23) with rfl | rfl
    · exact printsTo_word (s := str "Infinity") (by decide +kernel) (.inr (.inl rfl)) hF.infinity
    · exact printsTo_word (s := str "-Infinity") (by decide +kernel) (.inr (.inr rfl)) hF.minusInfinity
  · exact printsTo_word (s := str "NaN") (by decide +kernel) (.inl rfl) hF.nan

theorem fpToJson_defined {bits : Nat} (h : ¬ LongDouble bits) : ∃ t, fpToJson bits = .ok t := by
  by_cases hf : Spec.Finite bits
  · rcases c49_print_length hf with ⟨t, ht, -⟩ | ⟨-, hx⟩
    · exact ⟨t, ht⟩
    · exact absurd ⟨hf, hx⟩ h
  · exact ⟨_, c48_print_special hf⟩

/-- What is kept according to `KeptScalar` is lossless. -/
theorem lossless_of_kept {F : Floats} (hF : RoundsCorrectly F) {k : Builtin} {s : Scalar} {b : Bytes} (h : (builtins F).toBin k s = .ok b)
    (hk : KeptScalar k b) : Lossless F k b := by
  have h : builtinToBin F k s = .ok b := h
  cases k <;> first | exact trivial | exact hk | skip
  case float32 =>
    cases s with
    | bool c => cases h
    | str s =>
      obtain ⟨v, hv, rfl⟩ := encFloat_ok h
      have hlt := hF.bits.strtof _ _ hv
      obtain ⟨k1, k2⟩ := hk
      rw [leVal_leBytes, Nat.mod_eq_of_lt (show v < 256 ^ 4 from hlt)] at k1 k2
      change PrintsTo _ _ _
      rw [leVal_leBytes, Nat.mod_eq_of_lt (show v < 256 ^ 4 from hlt)]
      obtain ⟨t, ht⟩ : ∃ t, fpToJson (widenFloat v) = .ok t := by
        by_cases hf : Finite32 v
        · exact fpToJson_defined fun hl => k2 ⟨_, (c48_widen hf).2.2.1.symm, hl⟩
        · exact ⟨_, c48_print_special (c48_widen_special hf).1⟩
      exact float_kept hF.float hlt k1 ht
  case float64 =>
    cases s with
    | bool c => cases h
    | str s =>
      obtain ⟨v, hv, rfl⟩ := encFloat_ok h
      have hlt := hF.bits.strtod _ _ hv
      obtain ⟨k1, k2⟩ := hk
      rw [leVal_leBytes, Nat.mod_eq_of_lt (show v < 256 ^ 8 from hlt)] at k1 k2
      change PrintsTo _ _ _
      rw [leVal_leBytes, Nat.mod_eq_of_lt (show v < 256 ^ 8 from hlt)]
      obtain ⟨t, ht⟩ := fpToJson_defined k2
      exact double_kept hF.double hlt k1 ht

/-- Reading a `float64` from eight bytes. -/
theorem fromBin_float64 {F : Floats} {a t r : Bytes} (ha : a.length = 8) :
    (builtins F).fromBin .float64 (a ++ r) = .ok (t, r) ↔ fpToJson (leVal a) = .ok t := by
  show decFloat 8 id (a ++ r) = _ ↔ _
  unfold decFloat
  rw [readBytes_append 8 _ _ ha, bind_ok]
  simp only [id]
  cases fpToJson (leVal a) with
  | error e => constructor <;> intro h <;> cases h
  | ok u => constructor <;> intro h <;> cases h <;> rfl

/-- Reading a `float32` from four bytes. -/
theorem fromBin_float32 {F : Floats} {a t r : Bytes} (ha : a.length = 4) :
    (builtins F).fromBin .float32 (a ++ r) = .ok (t, r) ↔ fpToJson (widenFloat (leVal a)) = .ok t := by
  show decFloat 4 widenFloat (a ++ r) = _ ↔ _
  unfold decFloat
  rw [readBytes_append 4 _ _ ha, bind_ok]
  simp only
  cases fpToJson (widenFloat (leVal a)) with
  | error e => constructor <;> intro h <;> cases h
  | ok u => constructor <;> intro h <;> cases h <;> rfl

section
variable {F : Floats} {T : Table}

/-- **C59.** A double that is zero, normal, infinite or the usual NaN, in binary: unless its text has 25 characters, it is printed, and
the text, read as JSON, is converted to the same eight bytes. -/
theorem c59_double (hF : RoundsCorrectly F) {a : Bytes} (ha : a.length = 8) (hk : KeptDouble (leVal a)) (hl : ¬ LongDouble (leVal a)) :
    ∃ t s, (∀ r, (builtins F).fromBin .float64 (a ++ r) = .ok (t, r)) ∧ Reads t (ofScalar s) ∧ (builtins F).toBin .float64 s = .ok a := by
  have hlt := leVal_lt a
  rw [ha] at hlt
  obtain ⟨t, ht⟩ := fpToJson_defined hl
  obtain ⟨t', s, h1, h2, h3, h4⟩ := double_kept hF.double hlt hk ht
  refine ⟨t', .str s, fun r => (fromBin_float64 ha).2 h1, h2, ?_⟩
  show encFloat F.strtod 8 s = _
  unfold encFloat
  rw [if_neg h3, h4, ← ha]
  show Except.ok (leBytes a.length (leVal a)) = _
  rw [leBytes_leVal]

/-- **C59.** The same for a float: zero, normal and not the smallest normal one, infinite or the usual NaN. -/
theorem c59_float (hF : RoundsCorrectly F) {a : Bytes} (ha : a.length = 4) (hk : KeptFloat (leVal a))
    (hl : ¬ ∃ bits, floatValue (leVal a) = doubleValue bits ∧ LongDouble bits) :
    ∃ t s, (∀ r, (builtins F).fromBin .float32 (a ++ r) = .ok (t, r)) ∧ Reads t (ofScalar s) ∧ (builtins F).toBin .float32 s = .ok a := by
  have hlt := leVal_lt a
  rw [ha] at hlt
  obtain ⟨t, ht⟩ : ∃ t, fpToJson (widenFloat (leVal a)) = .ok t := by
    by_cases hf : Finite32 (leVal a)
    · exact fpToJson_defined fun h => hl ⟨_, (c48_widen hf).2.2.1.symm, h⟩
    · exact ⟨_, c48_print_special (c48_widen_special hf).1⟩
  obtain ⟨t', s, h1, h2, h3, h4⟩ := float_kept hF.float hlt hk ht
  refine ⟨t', .str s, fun r => (fromBin_float32 ha).2 h1, h2, ?_⟩
  show encFloat F.strtof 4 s = _
  unfold encFloat
  rw [if_neg h3, h4, ← ha]
  show Except.ok (leBytes a.length (leVal a)) = _
  rw [leBytes_leVal]

/-- **C59.** JSON to binary to JSON to binary (C27) with floating point numbers: no condition on the texts of the numbers, only on the
numbers they are rounded to. -/
theorem c59_json_bin_json (wf : T.WF) (reg : Regular T) (hF : RoundsCorrectly F) {ty : Ptr} (hty : T.Valid ty) {v : JVal} {b : Bytes}
    (h : (JsonToBin T (builtins F) ty v (.ok b) ∧ v.height ≤ maxStack) ∨ JsonToBinReorderable T (builtins F) ty v (.ok b))
    (hu : DocUtf8 v)
    (hk : ∀ a ty' k s c, Occurs T true ty v a ty' (ofScalar s) → T.get ty' = some (.builtin k) → (builtins F).toBin k s = .ok c → KeptScalar k c) :
    ∃ t v', BinToJson T (builtins F) ty b (.ok (t, [])) ∧ Reads t v' ∧ JsonToBin T (builtins F) ty v' (.ok b) ∧
      (levels v ≤ maxStack → JsonToBinReorderable T (builtins F) ty v' (.ok b)) :=
  c27_json_bin_json wf reg hF.bits hty h hu fun a ty' k s c ho ht hb => lossless_of_kept hF hb (hk a ty' k s c ho ht hb)

/-- **C59.** Binary to JSON to binary (C28) with floating point numbers: a number in the document is taken back if it is the text of a
number that is kept. -/
theorem c59_bin_json_bin (wf : T.WF) (reg : Regular T) (hF : RoundsCorrectly F) {ty : Ptr} (hty : T.Valid ty) {bin t : Bytes}
    (h : BinToJson T (builtins F) ty bin (.ok (t, []))) : ∃ v, Reads t v ∧
      ((∀ a ty' k s, Occurs T true ty v a ty' (ofScalar s) → T.get ty' = some (.builtin k) →
        match k with
        | .float64 => ∃ a t, a.length = 8 ∧ KeptDouble (leVal a) ∧ (builtins F).fromBin .float64 a = .ok (t, []) ∧ Reads t (ofScalar s)
        | .float32 => ∃ a t, a.length = 4 ∧ KeptFloat (leVal a) ∧ (builtins F).fromBin .float32 a = .ok (t, []) ∧ Reads t (ofScalar s)
        | k => TakesBack F k s) →
      ∃ b, JsonToBin T (builtins F) ty v (.ok b) ∧ BinToJson T (builtins F) ty b (.ok (t, [])) ∧
        (levels v ≤ maxStack → JsonToBinReorderable T (builtins F) ty v (.ok b))) := by
  obtain ⟨v, h1, h2⟩ := c28_bin_json_bin wf reg hF.bits hty h
  refine ⟨v, h1, fun hk => h2 fun a ty' k s ho ht => ?_⟩
  have := hk a ty' k s ho ht
  cases k <;> first | exact this | skip
  case float64 =>
    obtain ⟨c, u, hc, hkc, hd, hr⟩ := this
    have hlt := leVal_lt c
    rw [hc] at hlt
    rw [← List.append_nil c, fromBin_float64 hc] at hd
    obtain ⟨u', s', g1, g2, -, g4⟩ := double_kept hF.double hlt hkc hd
    rw [hd] at g1
    cases g1
    cases s with
    | bool x => cases hr.unique g2
    | str s => cases hr.unique g2; exact ⟨_, u, g4, hd, g2⟩
  case float32 =>
    obtain ⟨c, u, hc, hkc, hd, hr⟩ := this
    have hlt := leVal_lt c
    rw [hc] at hlt
    rw [← List.append_nil c, fromBin_float32 hc] at hd
    obtain ⟨u', s', g1, g2, -, g4⟩ := float_kept hF.float hlt hkc hd
    rw [hd] at g1
    cases g1
    cases s with
    | bool x => cases hr.unique g2
    | str s => cases hr.unique g2; exact ⟨_, u, g4, hd, g2⟩

end

/-! ## There is such a C library -/

theorem doubleValue_inj {a b : Nat} (ha : a < 2 ^ 64) (hb : b < 2 ^ 64) (hs : a / 2 ^ 63 % 2 = b / 2 ^ 63 % 2) (h : doubleValue a = doubleValue b) : a = b := by
  unfold doubleValue at h
  rw [hs] at h
  have hm : magnitude (a % 2 ^ 63) = magnitude (b % 2 ^ 63) := mul_left_cancel₀ (by split <;> norm_num) h
  rcases Nat.lt_trichotomy (a % 2 ^ 63) (b % 2 ^ 63) with k | k | k
  · exact absurd hm (ne_of_lt (magnitude_lt k))
  · omega
  · exact absurd hm (ne_of_gt (magnitude_lt k))

theorem floatValue_inj {a b : Nat} (ha : a < 2 ^ 32) (hb : b < 2 ^ 32) (hs : a / 2 ^ 31 % 2 = b / 2 ^ 31 % 2) (h : floatValue a = floatValue b) : a = b := by
  unfold floatValue at h
  rw [hs] at h
  have hm : magnitude32 (a % 2 ^ 31) = magnitude32 (b % 2 ^ 31) := mul_left_cancel₀ (by split <;> norm_num) h
  rcases Nat.lt_trichotomy (a % 2 ^ 31) (b % 2 ^ 31) with k | k | k
  · exact absurd hm (ne_of_lt (magnitude32_lt k))
  · omega
  · exact absurd hm (ne_of_gt (magnitude32_lt k))

/-- Words are not numbers. -/
theorem not_number_word {s : Bytes} {x : ℚ} (hw : s = str "NaN" ∨ s = str "Infinity" ∨ s = str "-Infinity") : ¬ NumberValue s x := by
  intro h
  obtain ⟨-, k2, k3, k4⟩ := jsonNumber_quote (numberValue_json h)
  rcases hw with rfl | rfl | rfl
  · exact k2 (by decide)
  · exact k3 (by decide)
  · exact k4 73 (by decide) (by decide) rfl

/-- what `RoundsDouble` asks for `t` -/
inductive WantDouble (t : Bytes) : Nat → Prop
  | zero : NumberValue t 0 → WantDouble t (if t.head? = some 45 then 2 ^ 63 else 0)
  | normal {x : ℚ} {bits : Nat} : NumberValue t x → 2 ^ (-1022 : Int) ≤ |x| → bits < 2 ^ 64 → Spec.Finite bits →
      (t.head? = some 45 ↔ bits / 2 ^ 63 % 2 = 1) → Nearest bits x → WantDouble t bits
  | infinity : t = str "Infinity" → WantDouble t (2047 * 2 ^ 52)
  | minusInfinity : t = str "-Infinity" → WantDouble t (2 ^ 63 + 2047 * 2 ^ 52)
  | nan : t = str "NaN" → WantDouble t (2047 * 2 ^ 52 + 2 ^ 51)

/-- what `RoundsFloat` asks for `t` -/
inductive WantFloat (t : Bytes) : Nat → Prop
  | zero : NumberValue t 0 → WantFloat t (if t.head? = some 45 then 2 ^ 31 else 0)
  | normal {x : ℚ} {bits : Nat} : NumberValue t x → 2 ^ (-126 : Int) ≤ |x| → bits < 2 ^ 32 → Finite32 bits →
      (t.head? = some 45 ↔ bits / 2 ^ 31 % 2 = 1) → Nearest32 bits x → WantFloat t bits
  | infinity : t = str "Infinity" → WantFloat t (255 * 2 ^ 23)
  | minusInfinity : t = str "-Infinity" → WantFloat t (2 ^ 31 + 255 * 2 ^ 23)
  | nan : t = str "NaN" → WantFloat t (255 * 2 ^ 23 + 2 ^ 22)

theorem not_small {x : ℚ} {e : Int} (h : 2 ^ e ≤ |x|) : x ≠ 0 := by
  rintro rfl
  rw [abs_zero] at h
  exact absurd h (not_le.2 (by positivity))

theorem wantDouble_unique {t : Bytes} {a b : Nat} (ha : WantDouble t a) (hb : WantDouble t b) : a = b := by
  cases ha with
  | zero h => cases hb with
    | zero _ => rfl
    | normal h1 h2 => exact absurd (numberValue_unique h1 h) (not_small h2)
    | infinity h1 => exact absurd h (not_number_word (.inr (.inl h1)))
    | minusInfinity h1 => exact absurd h (not_number_word (.inr (.inr h1)))
    | nan h1 => exact absurd h (not_number_word (.inl h1))
  | normal h g2 g3 g4 g5 g6 => cases hb with
    | zero h1 => exact absurd (numberValue_unique h h1) (not_small g2)
    | normal h1 h2 h3 h4 h5 h6 =>
      obtain rfl := numberValue_unique h h1
      refine doubleValue_inj g3 h3 ?_ ?_
      · have := g5.symm.trans h5; omega
      · by_contra hne
        exact absurd (g6 _ h3 h4 (Ne.symm hne)) (not_lt.2 (le_of_lt (h6 _ g3 g4 hne)))
    | infinity h1 => exact absurd h (not_number_word (.inr (.inl h1)))
    | minusInfinity h1 => exact absurd h (not_number_word (.inr (.inr h1)))
    | nan h1 => exact absurd h (not_number_word (.inl h1))
  | infinity h => cases hb with
    | zero h1 => exact absurd h1 (not_number_word (.inr (.inl h)))
    | normal h1 => exact absurd h1 (not_number_word (.inr (.inl h)))
    | infinity _ => rfl
    | minusInfinity h1 => exact absurd (h.symm.trans h1) (by decide)
    | nan h1 => exact absurd (h.symm.trans h1) (by decide)
  | minusInfinity h => cases hb with
    | zero h1 => exact absurd h1 (not_number_word (.inr (.inr h)))
    | normal h1 => exact absurd h1 (not_number_word (.inr (.inr h)))
    | infinity h1 => exact absurd (h.symm.trans h1) (by decide)
    | minusInfinity _ => rfl
    | nan h1 => exact absurd (h.symm.trans h1) (by decide)
  | nan h => cases hb with
    | zero h1 => exact absurd h1 (not_number_word (.inl h))
    | normal h1 => exact absurd h1 (not_number_word (.inl h))
    | infinity h1 => exact absurd (h.symm.trans h1) (by decide)
    | minusInfinity h1 => exact absurd (h.symm.trans h1) (by decide)
    | nan _ => rfl

theorem wantFloat_unique {t : Bytes} {a b : Nat} (ha : WantFloat t a) (hb : WantFloat t b) : a = b := by
  cases ha with
  | zero h => cases hb with
    | zero _ => rfl
    | normal h1 h2 => exact absurd (numberValue_unique h1 h) (not_small h2)
    | infinity h1 => exact absurd h (not_number_word (.inr (.inl h1)))
    | minusInfinity h1 => exact absurd h (not_number_word (.inr (.inr h1)))
    | nan h1 => exact absurd h (not_number_word (.inl h1))
  | normal h g2 g3 g4 g5 g6 => cases hb with
    | zero h1 => exact absurd (numberValue_unique h h1) (not_small g2)
    | normal h1 h2 h3 h4 h5 h6 =>
      obtain rfl := numberValue_unique h h1
      refine floatValue_inj g3 h3 ?_ ?_
      · have := g5.symm.trans h5; omega
      · by_contra hne
        exact absurd (g6 _ h3 h4 (Ne.symm hne)) (not_lt.2 (le_of_lt (h6 _ g3 g4 hne)))
    | infinity h1 => exact absurd h (not_number_word (.inr (.inl h1)))
    | minusInfinity h1 => exact absurd h (not_number_word (.inr (.inr h1)))
    | nan h1 => exact absurd h (not_number_word (.inl h1))
  | infinity h => cases hb with
    | zero h1 => exact absurd h1 (not_number_word (.inr (.inl h)))
    | normal h1 => exact absurd h1 (not_number_word (.inr (.inl h)))
    | infinity _ => rfl
    | minusInfinity h1 => exact absurd (h.symm.trans h1) (by decide)
    | nan h1 => exact absurd (h.symm.trans h1) (by decide)
  | minusInfinity h => cases hb with
    | zero h1 => exact absurd h1 (not_number_word (.inr (.inr h)))
    | normal h1 => exact absurd h1 (not_number_word (.inr (.inr h)))
    | infinity h1 => exact absurd (h.symm.trans h1) (by decide)
    | minusInfinity _ => rfl
    | nan h1 => exact absurd (h.symm.trans h1) (by decide)
  | nan h => cases hb with
    | zero h1 => exact absurd h1 (not_number_word (.inl h))
    | normal h1 => exact absurd h1 (not_number_word (.inl h))
    | infinity h1 => exact absurd (h.symm.trans h1) (by decide)
    | minusInfinity h1 => exact absurd (h.symm.trans h1) (by decide)
    | nan _ => rfl

open Classical in
/-- the function that does what `p` asks -/
noncomputable def answer (p : Bytes → Nat → Prop) (t : Bytes) : Option Nat := if h : ∃ n, p t n then some h.choose else none

theorem answer_eq {p : Bytes → Nat → Prop} (hu : ∀ {t a b}, p t a → p t b → a = b) {t : Bytes} {n : Nat} (h : p t n) : answer p t = some n := by
  have he : ∃ n, p t n := ⟨n, h⟩
  unfold answer
  rw [dif_pos he, hu he.choose_spec h]

theorem answer_some {p : Bytes → Nat → Prop} {t : Bytes} {n : Nat} (h : answer p t = some n) : p t n := by
  unfold answer at h
  split at h
  · rename_i he; cases h; exact he.choose_spec
  · cases h

/-- The hypothesis of the theorems above can be met: a C library that does what is asked and refuses everything else. -/
noncomputable def exactFloats : Floats := ⟨answer WantFloat, answer WantDouble⟩

theorem exactFloats_rounds : RoundsCorrectly exactFloats where
  bits := {
    strtof := fun s v h => by
      have := answer_some h
      cases this <;> first | omega | (split <;> omega)
    strtod := fun s v h => by
      have := answer_some h
      cases this <;> first | omega | (split <;> omega) }
  float := {
    zero := fun t h => answer_eq (p := WantFloat) wantFloat_unique (.zero h)
    normal := fun t x bits h h2 _ h3 h4 h5 h6 => answer_eq (p := WantFloat) wantFloat_unique (.normal h h2 h3 h4 h5 h6)
    infinity := answer_eq (p := WantFloat) wantFloat_unique (.infinity rfl)
    minusInfinity := answer_eq (p := WantFloat) wantFloat_unique (.minusInfinity rfl)
    nan := answer_eq (p := WantFloat) wantFloat_unique (.nan rfl) }
  double := {
    zero := fun t h => answer_eq (p := WantDouble) wantDouble_unique (.zero h)
    normal := fun t x bits h h2 _ h3 h4 h5 h6 => answer_eq (p := WantDouble) wantDouble_unique (.normal h h2 h3 h4 h5 h6)
    infinity := answer_eq (p := WantDouble) wantDouble_unique (.infinity rfl)
    minusInfinity := answer_eq (p := WantDouble) wantDouble_unique (.minusInfinity rfl)
    nan := answer_eq (p := WantDouble) wantDouble_unique (.nan rfl) }

/-! ## Cases -/

/-- 0.1 as a double, -2.5 as a float, and the negative zero are kept. -/
example : KeptDouble 0x3FB999999999999A ∧ KeptFloat 0xC0200000 ∧ KeptDouble (2 ^ 63) := by
  refine ⟨.inr (.inl ⟨by unfold Spec.Finite; decide, ?_⟩), .inr (.inl ⟨by unfold Finite32; decide, ?_⟩), .inl (by decide)⟩
  · rw [doubleValue_pos (by decide), abs_of_nonneg (magnitude_nonneg _), ← magnitude_min]
    exact magnitude_le (by decide)
  · rw [show 0xC0200000 = 2 ^ 31 + 0x40200000 by decide, floatValue_neg (by decide), abs_neg, abs_of_nonneg (magnitude32_nonneg _), ← magnitude32_min]
    exact magnitude32_lt (by decide)

/-- 0.1 is not a double with a long text. -/
theorem tenth_short : ¬ LongDouble 0x3FB999999999999A := by
  rintro ⟨-, x, hn, -, hx⟩
  have hp : 0 < magnitude 0x3FB999999999999A := by rw [← magnitude_zero]; exact magnitude_lt (by decide)
  have h0 := doubleValue_pos (show 0 < 2 ^ 63 by decide)
  have h1 := doubleValue_pos (show 0x3FB999999999999A < 2 ^ 63 by decide)
  rw [magnitude_zero] at h0
  have := hn 0 (by decide) (by unfold Spec.Finite; decide) (by rw [h0, h1]; exact ne_of_lt hp)
  rw [h0, h1] at this
  have := nearer_above hp this
  have : (0 : ℚ) < 10 ^ 23 := by positivity
  linarith

theorem tenth_kept : KeptDouble 0x3FB999999999999A := by
  refine .inr (.inl ⟨by unfold Spec.Finite; decide, ?_⟩)
  rw [doubleValue_pos (by decide), abs_of_nonneg (magnitude_nonneg _), ← magnitude_min]
  exact magnitude_le (by decide)

/-- The bytes of 0.1, there and back. -/
example : ∃ t s, (∀ r, (builtins exactFloats).fromBin .float64 ([0x9A, 0x99, 0x99, 0x99, 0x99, 0x99, 0xB9, 0x3F] ++ r) = .ok (t, r)) ∧
    Reads t (ofScalar s) ∧ (builtins exactFloats).toBin .float64 s = .ok [0x9A, 0x99, 0x99, 0x99, 0x99, 0x99, 0xB9, 0x3F] := by
  have e : leVal [0x9A, 0x99, 0x99, 0x99, 0x99, 0x99, 0xB9, 0x3F] = 0x3FB999999999999A := by decide
  exact c59_double exactFloats_rounds rfl (by rw [e]; exact tenth_kept) (by rw [e]; exact tenth_short)

/-- the library reads "0.1" as that double -/
theorem exact_tenth : exactFloats.strtod (str "0.1") = some 0x3FB999999999999A := by
  obtain ⟨t, s, h1, h2, -, h4⟩ := double_kept exactFloats_rounds.double (by decide) tenth_kept (t := str "0.1") (by decide +kernel)
  rw [show fpToJson 0x3FB999999999999A = .ok (str "0.1") by decide +kernel] at h1
  cases h1
  have := h2.unique (reads_number (t := str "0.1") ⟨[], str "0", 46 :: str "1", [], by decide, .inl rfl, ⟨by decide, by decide⟩, by decide,
    .inr ⟨str "1", ⟨by decide, by decide⟩, rfl⟩, .inl rfl⟩)
  cases this
  exact h4

/-- An array type over doubles. -/
def doubles : Table := [(str "float64", .builtin .float64), (str "float64[]", .array (str "float64"))]

theorem doubles_wf : doubles.WF := Table.wf_of_wfB (by decide)

/-- `["0.1"]` to binary, to JSON and to binary again: the hypotheses of `c59_json_bin_json` are met. -/
example : ∃ t v', BinToJson doubles (builtins exactFloats) (str "float64[]") [1, 0x9A, 0x99, 0x99, 0x99, 0x99, 0x99, 0xB9, 0x3F] (.ok (t, [])) ∧
    Reads t v' ∧ JsonToBin doubles (builtins exactFloats) (str "float64[]") v' (.ok [1, 0x9A, 0x99, 0x99, 0x99, 0x99, 0x99, 0xB9, 0x3F]) := by
  have hb : (builtins exactFloats).toBin .float64 (.str (str "0.1")) = .ok [0x9A, 0x99, 0x99, 0x99, 0x99, 0x99, 0xB9, 0x3F] := by
    show encFloat exactFloats.strtod 8 (str "0.1") = _
    unfold encFloat
    rw [if_neg (by decide), exact_tenth]
    decide
  have hty : doubles.Valid (str "float64[]") := ⟨_, rfl, rfl⟩
  have hs : ∀ a ty' k s, Occurs doubles true (str "float64[]") (.arr [.str (str "0.1")]) a ty' (ofScalar s) → doubles.get ty' = some (.builtin k) →
      k = .float64 ∧ s = .str (str "0.1") := by
    intro a ty' k s ho hk
    have := Example.checkScalars_sound (P := fun k s => k == .float64 && s == .str (str "0.1")) (n := 5) ho (by decide +kernel) k s rfl hk
    simpa using this
  obtain ⟨t, v', h1, h2, h3, -⟩ := c59_json_bin_json doubles_wf (Table.regular_of_regularB (by decide)) exactFloats_rounds hty
    (v := .arr [.str (str "0.1")]) (b := [1, 0x9A, 0x99, 0x99, 0x99, 0x99, 0x99, 0xB9, 0x3F]) (.inl ⟨by
      rw [jsonToBin_iff doubles_wf hty _ 21 (by decide)]
      have g1 : doubles.get (str "float64[]") = some (.array (str "float64")) := rfl
      have g2 : doubles.get (str "float64") = some (.builtin .float64) := rfl
      have i1 : incInt (-1) = .ok 0 := rfl
      have i2 : incInt 0 = .ok 1 := rfl
      have hl : leafEnc (builtins exactFloats) .float64 (.str (str "0.1")) = .ok [0x9A, 0x99, 0x99, 0x99, 0x99, 0x99, 0xB9, 0x3F] := hb
      rw [encO, g1]
      simp only [encOElems, i1, i2, bind_ok]
      rw [encO, g2]
      simp only [hl, bind_ok]
      decide +kernel, by decide⟩) ⟨utf8_ascii (by decide), trivial⟩ (fun a ty' k s c ho hk hc => by
      obtain ⟨rfl, rfl⟩ := hs a ty' k s ho hk
      rw [hb] at hc
      cases hc
      have e : leVal [0x9A, 0x99, 0x99, 0x99, 0x99, 0x99, 0xB9, 0x3F] = 0x3FB999999999999A := by decide
      exact ⟨by rw [e]; exact tenth_kept, by rw [e]; exact tenth_short⟩)
  exact ⟨t, v', h1, h2, h3⟩

end Abieos
