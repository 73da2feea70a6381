import Verif.Spec.KeyOrder
import Verif.Props.FixedBytes
import Verif.Proofs.StaticBin
/-
The bytes `to_key` writes, and their order.
-/
namespace Abieos
open Spec

/-! ## What is written -/

/-- the writer writes these bytes to every stream that has room for them -/
def Writes (f : KeyWriter) (b : Bytes) : Prop :=
  ∀ (σ : Type) (w : Writer σ) (ok : Bytes → σ → Prop) (step : Bytes → σ → σ), Lawful w ok step → ∀ s, ok b s → f σ w s = .ok (step b s)

theorem Writes.write (b : Bytes) : Writes (fun _ w s => w b s) b := fun _ _ _ _ hw s h => hw.write b s h

theorem Writes.pure : Writes (fun _ _ s => .ok s) [] := fun _ _ _ _ hw s _ => by rw [hw.nil]

theorem Writes.bind {f g : KeyWriter} {a b : Bytes} (h1 : Writes f a) (h2 : Writes g b) : Writes (fun σ w s => f σ w s >>= g σ w) (a ++ b) := by
  intro σ w ok step hw s h
  obtain ⟨ha, hb⟩ := hw.okAppend _ _ _ h
  beta_reduce
  rw [h1 _ _ _ _ hw s ha, bind_ok, h2 _ _ _ _ hw _ hb, hw.append]

theorem convertToKey_of {t : KTy} {v : KVal} {k : Bytes} (h : Writes (toKey t v) k) (bin : Bytes) : convertToKey t v bin = .ok (bin ++ k) := by
  unfold convertToKey
  rw [h _ _ _ _ lawful_size 0 trivial, bind_ok, h _ _ _ _ lawful_fixed _ (by simp), bind_ok]
  simp

/-! ## keys as bytes -/

def varuintFirst (obj : Nat) : UInt8 :=
  UInt8.ofNat ((2 ^ 32 - 1 - (0xff >>> (varuintKeyBytes obj - 1))) ||| (if varuintKeyBytes obj = 5 then 0 else obj >>> ((varuintKeyBytes obj - 1) * 8)))

def varuintKeyOf (obj : Nat) : Bytes := varuintFirst obj :: beBytes (varuintKeyBytes obj - 1) obj

def charKey (c : UInt8) : Bytes := if c = 0 then [0, 1] else [c]

def optKeyOf (isByte : Bool) : Option Bytes → Bytes
  | none => if isByte then [0, 0] else [0]
  | some k => if isByte then k.flatMap charKey else 1 :: k

mutual
def keyOf : KTy → KVal → Bytes
  | .uint n, .nat x => intKey n x 0
  | .sint n, .int x => intKey n x (-(2 ^ (8 * n - 1)))
  | .bool, .flag b => [if b then 1 else 0]
  | .float, .bits x => intKey 4 (floatToKey 32 x) 0
  | .double, .bits x => intKey 8 (floatToKey 64 x) 0
  | .varuint32, .nat x => varuintKeyOf x
  | .str, .bytes b => b.flatMap charKey ++ [0, 0]
  | .fixed size word, .words l => fixedToBytes size word l
  | .seq t, .list l => l.flatMap (fun v => optKeyOf t.isByte (some (keyOf t v))) ++ optKeyOf t.isByte none
  | .arr _ t, .list l => l.flatMap (keyOf t)
  | .opt t, .none => optKeyOf t.isByte none
  | .opt t, .some v => optKeyOf t.isByte (some (keyOf t v))
  | .variant ts, .alt i v => varuintKeyOf i ++ keyOfAlt ts i v
  | .struct ts, .list l => keyOfFields ts l
  | _, _ => []
def keyOfAlt : List KTy → Nat → KVal → Bytes
  | [], _, _ => []
  | t :: _, 0, v => keyOf t v
  | _ :: ts, i + 1, v => keyOfAlt ts i v
def keyOfFields : List KTy → List KVal → Bytes
  | t :: ts, v :: vs => keyOf t v ++ keyOfFields ts vs
  | _, _ => []
end

/-! ## shapes of values -/

theorem isKey_uint {n : Nat} {v : KVal} (h : IsKey (.uint n) v) : ∃ x, v = .nat x ∧ 0 < n ∧ x < 256 ^ n := by
  cases v <;> simp_all [IsKey]
theorem isKey_sint {n : Nat} {v : KVal} (h : IsKey (.sint n) v) : ∃ x, v = .int x ∧ 0 < n ∧ -(2 ^ (8 * n - 1)) ≤ x ∧ x < 2 ^ (8 * n - 1) := by
  cases v <;> simp_all [IsKey]
theorem isKey_bool {v : KVal} (h : IsKey .bool v) : ∃ x, v = .flag x := by cases v <;> simp_all [IsKey]
theorem isKey_float {v : KVal} (h : IsKey .float v) : ∃ x, v = .bits x ∧ x < 2 ^ 32 ∧ NotNan 23 8 x := by cases v <;> simp_all [IsKey]
theorem isKey_double {v : KVal} (h : IsKey .double v) : ∃ x, v = .bits x ∧ x < 2 ^ 64 ∧ NotNan 52 11 x := by cases v <;> simp_all [IsKey]
theorem isKey_varuint32 {v : KVal} (h : IsKey .varuint32 v) : ∃ x, v = .nat x ∧ x < 2 ^ 32 := by cases v <;> simp_all [IsKey]
theorem isKey_str {v : KVal} (h : IsKey .str v) : ∃ b, v = .bytes b := by cases v <;> simp_all [IsKey]
theorem isKey_fixed {size word : Nat} {v : KVal} (h : IsKey (.fixed size word) v) : ∃ l, v = .words l ∧ 0 < word ∧ ∃ b, Holds size word l b := by
  cases v <;> simp_all [IsKey]
theorem isKey_seq {t : KTy} {v : KVal} (h : IsKey (.seq t) v) : ∃ l, v = .list l ∧ ∀ v ∈ l, IsKey t v := by
  cases v <;> simp_all [IsKey]
theorem isKey_arr {n : Nat} {t : KTy} {v : KVal} (h : IsKey (.arr n t) v) : ∃ l, v = .list l ∧ l.length = n ∧ ∀ v ∈ l, IsKey t v := by
  cases v <;> simp_all [IsKey]
theorem isKey_opt {t : KTy} {v : KVal} (h : IsKey (.opt t) v) : v = .none ∨ ∃ x, v = .some x ∧ IsKey t x := by
  cases v <;> simp_all [IsKey]
theorem isKey_variant {ts : List KTy} {v : KVal} (h : IsKey (.variant ts) v) : ∃ i x, v = .alt i x ∧ i < 2 ^ 32 ∧ IsKeyAlt ts i x := by
  cases v with
  | alt i x => exact ⟨i, x, rfl, by simpa [IsKey] using h⟩
  | _ => simp [IsKey] at h
theorem isKey_struct {ts : List KTy} {v : KVal} (h : IsKey (.struct ts) v) : ∃ l, v = .list l ∧ IsKeyFields ts l := by
  cases v <;> simp_all [IsKey]

theorem keyOf_byte {t : KTy} {v : KVal} (ht : t.isByte = true) (h : IsKey t v) : ∃ c, keyOf t v = [c] := by
  unfold KTy.isByte at ht
  split at ht
  · obtain ⟨x, rfl, -⟩ := isKey_uint h
    exact List.length_eq_one_iff.1 (by simp [keyOf, intKey, leBytes_length])
  · obtain ⟨x, rfl, -⟩ := isKey_sint h
    exact List.length_eq_one_iff.1 (by simp [keyOf, intKey, leBytes_length])
  · obtain ⟨x, rfl⟩ := isKey_bool h
    exact ⟨_, rfl⟩
  · cases ht

/-! ## writing -/

theorem writes_varuintTail (obj : Nat) : ∀ n, Writes (fun _ w s => varuintKeyTail w obj n s) (beBytes n obj)
  | 0 => Writes.pure
  | n + 1 => by
    have e : beBytes (n + 1) obj = [UInt8.ofNat ((obj >>> (n * 8)) &&& 0xff)] ++ beBytes n obj := by
      rw [Nat.add_comm, beBytes_append]
      congr 1
      rw [Nat.shiftRight_eq_div_pow, show (0xff : Nat) = 2 ^ 8 - 1 from rfl, Nat.and_two_pow_sub_one_eq_mod, Nat.mul_comm, Nat.pow_mul]
      simp [beBytes, leBytes]
    rw [e]
    exact (Writes.write _).bind (writes_varuintTail obj n)

theorem writes_varuint (obj : Nat) : Writes (fun _ w s => varuintKey w obj s) (varuintKeyOf obj) :=
  (Writes.write [varuintFirst obj]).bind (writes_varuintTail obj _)

theorem writes_char (c : UInt8) : Writes (fun _ w s => do let s ← w [c] s; if c = 0 then w [1] s else .ok s) (charKey c) := by
  unfold charKey
  by_cases h : c = 0
  · subst h
    exact (Writes.write [0]).bind (Writes.write [1])
  · simp only [h, if_false]
    exact (Writes.write [c]).bind Writes.pure

theorem writes_string : ∀ b, Writes (fun _ w s => stringKey w b s) (b.flatMap charKey ++ [0, 0])
  | [] => Writes.write [0, 0]
  | c :: b => by
    rw [List.flatMap_cons, List.append_assoc]
    have := (writes_char c).bind (writes_string b)
    intro σ w ok step hw s h
    have := this _ _ _ _ hw s h
    rw [← this]
    beta_reduce
    rw [stringKey]
    cases w [c] s with
    | error e => rfl
    | ok s' =>
      simp only [bind_ok]
      by_cases hc : c = 0
      · simp only [hc, if_true]
      · simp only [hc, if_false, bind_ok]

theorem writes_fixed (size word : Nat) (l : List Nat) : Writes (fun _ w s => fixedToBin w size word l s) (fixedToBytes size word l) := by
  intro σ w ok step hw s h
  unfold fixedToBin byteVals
  beta_reduce
  rw [toBinG]
  generalize fixedToBytes size word l = b at h
  induction b generalizing s with
  | nil => rw [hw.nil]; rfl
  | cons x b ih =>
    obtain ⟨h1, h2⟩ := hw.okAppend [x] b s h
    rw [List.map_cons, writeAll, toBinG, hw.write _ _ h1, bind_ok, ih _ h2, ← hw.append]
    rfl

theorem writes_optional {byte : Bool} {f : KeyWriter} {k : Bytes} (hf : Writes f k) (hb : byte = true → ∃ c, k = [c]) :
    Writes (toKeyOptional byte (some f)) (optKeyOf byte (some k)) := by
  cases byte with
  | false => exact (Writes.write [1]).bind hf
  | true =>
    obtain ⟨c, rfl⟩ := hb rfl
    have h1 := hf _ _ _ _ lawful_fixed ⟨[], 1⟩ (by simp)
    have e : toKeyOptional true (some f) = (fun _ w s => do let s ← w [c] s; if c = 0 then w [1] s else .ok s) := by
      funext σ w s
      show (do let tmp ← f FixedBuf fixedWrite ⟨[], 1⟩; _) = _
      rw [h1, bind_ok]
      rfl
    rw [e, show optKeyOf true (some [c]) = charKey c by simp [optKeyOf]]
    exact writes_char c

theorem writes_null (byte : Bool) : Writes (toKeyOptional byte none) (optKeyOf byte none) := by
  cases byte <;> exact Writes.write _

theorem writes_each {f : KVal → KeyWriter} {k : KVal → Bytes} : ∀ {l : List KVal}, (∀ v ∈ l, Writes (f v) (k v)) →
    Writes (fun σ w s => keyEach (fun v s => f v σ w s) l s) (l.flatMap k)
  | [], _ => Writes.pure
  | v :: l, h => by
    rw [List.flatMap_cons]
    exact (h v (by simp)).bind (writes_each fun x hx => h x (by simp [hx]))

mutual
theorem writes_key : ∀ t v, IsKey t v → Writes (toKey t v) (keyOf t v)
  | .uint n, v, h => by obtain ⟨x, rfl, -⟩ := isKey_uint h; exact Writes.write _
  | .sint n, v, h => by obtain ⟨x, rfl, -⟩ := isKey_sint h; exact Writes.write _
  | .bool, v, h => by obtain ⟨x, rfl⟩ := isKey_bool h; exact Writes.write _
  | .float, v, h => by obtain ⟨x, rfl, -⟩ := isKey_float h; exact Writes.write _
  | .double, v, h => by obtain ⟨x, rfl, -⟩ := isKey_double h; exact Writes.write _
  | .varuint32, v, h => by obtain ⟨x, rfl, -⟩ := isKey_varuint32 h; exact writes_varuint x
  | .str, v, h => by obtain ⟨x, rfl⟩ := isKey_str h; exact writes_string x
  | .fixed size word, v, h => by obtain ⟨x, rfl, -⟩ := isKey_fixed h; exact writes_fixed size word x
  | .seq t, v, h => by
    obtain ⟨l, rfl, hl⟩ := isKey_seq h
    exact (writes_each fun v hv => writes_optional (writes_key t v (hl v hv)) fun hb => keyOf_byte hb (hl v hv)).bind (writes_null _)
  | .arr n t, v, h => by
    obtain ⟨l, rfl, -, hl⟩ := isKey_arr h
    exact writes_each fun v hv => writes_key t v (hl v hv)
  | .opt t, v, h => by
    rcases isKey_opt h with rfl | ⟨x, rfl, hx⟩
    · exact writes_null _
    · exact writes_optional (writes_key t x hx) fun hb => keyOf_byte hb hx
  | .variant ts, v, h => by
    obtain ⟨i, x, rfl, -, hx⟩ := isKey_variant h
    exact (writes_varuint i).bind (writes_keyAlt ts i x hx)
  | .struct ts, v, h => by
    obtain ⟨l, rfl, hl⟩ := isKey_struct h
    exact writes_keyFields ts l hl
theorem writes_keyAlt : ∀ ts i v, IsKeyAlt ts i v → Writes (toKeyAlt ts i v) (keyOfAlt ts i v)
  | [], _, _, h => by simp [IsKeyAlt] at h
  | t :: _, 0, v, h => writes_key t v (by simpa [IsKeyAlt] using h)
  | _ :: ts, i + 1, v, h => writes_keyAlt ts i v (by simpa [IsKeyAlt] using h)
theorem writes_keyFields : ∀ ts l, IsKeyFields ts l → Writes (toKeyFields ts l) (keyOfFields ts l)
  | [], [], _ => Writes.pure
  | [], _ :: _, h => by simp [IsKeyFields] at h
  | _ :: _, [], h => by simp [IsKeyFields] at h
  | t :: ts, v :: l, h => by
    simp only [IsKeyFields] at h
    exact (writes_key t v h.1).bind (writes_keyFields ts l h.2)
end

/-! ## Order of the scalars -/

/-- smaller values have smaller keys, none of which is a prefix of the other, and equivalent values have the same key -/
def Ordered (less : KVal → KVal → Prop) (k : KVal → Bytes) (a b : KVal) : Prop :=
  (less a b → Before (k a) (k b)) ∧ (¬ less a b → ¬ less b a → k a = k b)

theorem intKey_eq {n : Nat} {x min : Int} (h1 : min ≤ x) (h2 : x < min + 256 ^ n) : intKey n x min = beBytes n (x - min).toNat := by
  unfold intKey beBytes
  congr 2
  have : (0 : Int) < 256 ^ n := Int.pow_pos (by decide)
  rw [← Int.sub_emod, Int.emod_eq_of_lt (by omega) (by omega)]

theorem intKey_before {n : Nat} {x y min : Int} (h1 : min ≤ x) (h2 : x < y) (h3 : y < min + 256 ^ n) : Before (intKey n x min) (intKey n y min) := by
  rw [intKey_eq h1 (by omega), intKey_eq (by omega) h3]
  have : ((256 ^ n : Nat) : Int) = 256 ^ n := by simp
  refine beBytes_before ?_ ?_ ?_ <;> omega

theorem pow_half {n : Nat} (h : 0 < n) : (2 : Int) ^ (8 * n - 1) + 2 ^ (8 * n - 1) = 256 ^ n := by
  have : (256 : Int) ^ n = 2 ^ (8 * n - 1 + 1) := by rw [show 8 * n - 1 + 1 = 8 * n by omega, Int.pow_mul]; rfl
  rw [this, Int.pow_succ]; omega

theorem ieeeUnits_lt {p a b : Nat} (h : a < b) : ieeeUnits p a < ieeeUnits p b := by
  unfold ieeeUnits
  have hp : 0 < 2 ^ p := Nat.pow_pos (by decide)
  have ha := Nat.div_add_mod a (2 ^ p)
  have hb := Nat.div_add_mod b (2 ^ p)
  have ha' := Nat.mod_lt a hp
  have hb' := Nat.mod_lt b hp
  have hle : a / 2 ^ p ≤ b / 2 ^ p := Nat.div_le_div_right (Nat.le_of_lt h)
  generalize a / 2 ^ p = ea at *
  generalize b / 2 ^ p = eb at *
  generalize a % 2 ^ p = fa at *
  generalize b % 2 ^ p = fb at *
  rcases Nat.lt_or_eq_of_le hle with hlt | heq
  · rw [if_neg (show ¬ eb = 0 by omega)]
    have h1 : 2 ^ p * 2 ^ ea ≤ (2 ^ p + fb) * 2 ^ (eb - 1) :=
      Nat.mul_le_mul (by omega) (Nat.pow_le_pow_right (by decide) (by omega))
    refine Nat.lt_of_lt_of_le ?_ h1
    by_cases h0 : ea = 0
    · subst h0; simpa using ha'
    · rw [if_neg h0, show ea = ea - 1 + 1 by omega, Nat.pow_succ, Nat.add_sub_cancel, Nat.mul_comm (2 ^ (ea - 1)) 2, ← Nat.mul_assoc]
      exact Nat.mul_lt_mul_of_pos_right (by omega) (Nat.pow_pos (by decide))
  · subst heq
    have : fa < fb := by omega
    by_cases h0 : ea = 0
    · simpa [h0] using this
    · simp only [h0, if_false]
      exact Nat.mul_lt_mul_of_pos_right (by omega) (Nat.pow_pos (by decide))

theorem ieeeUnits_zero (p : Nat) : ieeeUnits p 0 = 0 := by simp [ieeeUnits]

theorem ieeeUnits_lt_iff {p a b : Nat} : ieeeUnits p a < ieeeUnits p b ↔ a < b := by
  constructor
  · intro h
    rcases Nat.lt_trichotomy a b with h' | h' | h'
    · exact h'
    · subst h'; omega
    · have := ieeeUnits_lt (p := p) h'; omega
  · exact ieeeUnits_lt

theorem signbit_and {d x : Nat} (h : x < 2 ^ (d + 1)) : x &&& 2 ^ d ≠ 0 ↔ 2 ^ d ≤ x := by
  have hand : x &&& 2 ^ d = (x.testBit d).toNat * 2 ^ d := by
    apply Nat.eq_of_testBit_eq
    intro i
    rw [Nat.testBit_and, Nat.testBit_two_pow]
    by_cases hi : d = i
    · subst hi; cases x.testBit d <;> simp
    · cases x.testBit d <;> simp [hi]
  rw [hand]
  have := Nat.pow_pos (n := d) (show 0 < 2 by decide)
  have e : x.testBit d = decide (2 ^ d ≤ x) := by
    rw [Nat.testBit_eq_decide_div_mod_eq, decide_eq_decide]
    rw [Nat.pow_succ] at h
    by_cases hx : 2 ^ d ≤ x
    · have : x / 2 ^ d = 1 := by
        apply Nat.div_eq_of_lt_le <;> omega
      simp [hx, this]
    · rw [Nat.div_eq_of_lt (by omega)]; simp [hx]
  rw [e]
  by_cases hx : 2 ^ d ≤ x
  · simp [hx]
  · simp [hx]

theorem xor_ones {d x : Nat} (h : x < 2 ^ d) : x ^^^ (2 ^ d - 1) = 2 ^ d - 1 - x := by
  apply Nat.eq_of_testBit_eq
  intro i
  rw [Nat.sub_sub, Nat.add_comm 1 x, Nat.testBit_two_pow_sub_succ h, Nat.testBit_xor, Nat.testBit_two_pow_sub_one]
  by_cases hi : i < d
  · simp [hi]
  · rw [Nat.testBit_lt_two_pow (Nat.lt_of_lt_of_le h (Nat.pow_le_pow_right (by decide) (by omega)))]
    simp [hi]

theorem or_signbit (d : Nat) : (2 ^ (d + 1) - 1) ||| 2 ^ d = 2 ^ (d + 1) - 1 := by
  apply Nat.eq_of_testBit_eq
  intro i
  rw [Nat.testBit_or, Nat.testBit_two_pow_sub_one, Nat.testBit_two_pow]
  by_cases hi : i < d + 1
  · simp [hi]
  · simp [hi]; omega

theorem xor_signbit {d x : Nat} (h : x < 2 ^ d) : x ^^^ 2 ^ d = 2 ^ d + x := by
  apply Nat.eq_of_testBit_eq
  intro i
  rw [Nat.testBit_xor, Nat.testBit_two_pow]
  by_cases hi : d = i
  · subst hi
    rw [Nat.testBit_two_pow_add_eq, Nat.testBit_lt_two_pow h]; simp
  · by_cases hlt : i < d
    · rw [Nat.testBit_two_pow_add_gt hlt]; simp [hi]
    · rw [Nat.testBit_lt_two_pow (Nat.lt_of_lt_of_le h (Nat.pow_le_pow_right (by decide) (by omega))),
        Nat.testBit_lt_two_pow (x := 2 ^ d + x) (i := i)]
      · simp [hi]
      · have : 2 ^ (d + 1) ≤ 2 ^ i := Nat.pow_le_pow_right (by decide) (by omega)
        rw [Nat.pow_succ] at this
        omega

/-- `float_to_key` in arithmetic -/
theorem floatToKey_eq {d x : Nat} (h : x < 2 ^ (d + 1)) :
    floatToKey (d + 1) x = if 2 ^ d < x then 2 ^ (d + 1) - 1 - x else if x = 2 ^ d then 2 ^ d else 2 ^ d + x := by
  unfold floatToKey
  have hp := Nat.pow_pos (n := d) (show 0 < 2 by decide)
  simp only [Nat.add_sub_cancel, Nat.shiftLeft_eq, Nat.one_mul]
  by_cases h1 : x = 2 ^ d
  · rw [if_pos h1, if_neg (show ¬ 2 ^ d < x by omega)]
    simp
    exact fun h => absurd h1 h
  · rw [if_neg h1]
    by_cases h2 : 2 ^ d < x
    · rw [if_pos ((signbit_and h).2 (by omega)), if_pos h2, or_signbit, xor_ones h]
    · rw [if_neg (by rw [signbit_and h]; omega), if_neg h2, if_neg h1, Nat.zero_or, xor_signbit (by omega)]

theorem ieeeValue_eq {p e x : Nat} (h : x < 2 ^ (p + e + 1)) :
    ieeeValue p e x = if 2 ^ (p + e) ≤ x then -(ieeeUnits p (x - 2 ^ (p + e)) : Int) else ieeeUnits p x := by
  unfold ieeeValue
  have hp := Nat.pow_pos (n := p + e) (show 0 < 2 by decide)
  rw [Nat.pow_succ] at h
  by_cases hx : 2 ^ (p + e) ≤ x
  · have h1 : x / 2 ^ (p + e) = 1 := by apply Nat.div_eq_of_lt_le <;> omega
    have h2 := Nat.div_add_mod x (2 ^ (p + e))
    rw [h1] at h2
    rw [h1, if_pos rfl, if_pos hx, show x % 2 ^ (p + e) = x - 2 ^ (p + e) by omega]
  · rw [Nat.div_eq_of_lt (by omega), if_neg (by decide), if_neg hx, Nat.mod_eq_of_lt (show x < 2 ^ (p + e) by omega)]

theorem floatToKey_lt {d x : Nat} (h : x < 2 ^ (d + 1)) : floatToKey (d + 1) x < 2 ^ (d + 1) := by
  rw [floatToKey_eq h]
  rw [Nat.pow_succ] at *
  split
  · omega
  · split <;> omega

theorem floatToKey_order {p e x y : Nat} (hx : x < 2 ^ (p + e + 1)) (hy : y < 2 ^ (p + e + 1)) :
    floatToKey (p + e + 1) x < floatToKey (p + e + 1) y ↔ ieeeValue p e x < ieeeValue p e y := by
  rw [ieeeValue_eq hx, ieeeValue_eq hy, floatToKey_eq hx, floatToKey_eq hy]
  have hp := Nat.pow_pos (n := p + e) (show 0 < 2 by decide)
  rw [Nat.pow_succ] at *
  generalize 2 ^ (p + e) = S at *
  have z := ieeeUnits_zero p
  have pos : ∀ n, 0 < n → 0 < ieeeUnits p n := fun n h => z ▸ ieeeUnits_lt h
  by_cases x1 : S < x
  · have := pos (x - S) (by omega)
    rw [if_pos x1, if_pos (show S ≤ x by omega)]
    by_cases y1 : S < y
    · rw [if_pos y1, if_pos (show S ≤ y by omega)]
      have := ieeeUnits_lt_iff (p := p) (a := y - S) (b := x - S)
      omega
    · rw [if_neg y1]
      by_cases y2 : y = S
      · rw [if_pos y2, if_pos (show S ≤ y by omega), show y - S = 0 by omega, z]; omega
      · rw [if_neg y2, if_neg (show ¬ S ≤ y by omega)]; omega
  · rw [if_neg x1]
    by_cases x2 : x = S
    · rw [if_pos x2, if_pos (show S ≤ x by omega), show x - S = 0 by omega, z]
      by_cases y1 : S < y
      · have := pos (y - S) (by omega)
        rw [if_pos y1, if_pos (show S ≤ y by omega)]; omega
      · rw [if_neg y1]
        by_cases y2 : y = S
        · rw [if_pos y2, if_pos (show S ≤ y by omega), show y - S = 0 by omega, z]; omega
        · rw [if_neg y2, if_neg (show ¬ S ≤ y by omega)]
          have := ieeeUnits_lt_iff (p := p) (a := 0) (b := y)
          omega
    · rw [if_neg x2, if_neg (show ¬ S ≤ x by omega)]
      by_cases y1 : S < y
      · have := pos (y - S) (by omega)
        rw [if_pos y1, if_pos (show S ≤ y by omega)]; omega
      · rw [if_neg y1]
        by_cases y2 : y = S
        · rw [if_pos y2, if_pos (show S ≤ y by omega), show y - S = 0 by omega, z]; omega
        · rw [if_neg y2, if_neg (show ¬ S ≤ y by omega)]
          have := ieeeUnits_lt_iff (p := p) (a := x) (b := y)
          omega

theorem float_ordered {p e n x y : Nat} (hn : (256 : Nat) ^ n = 2 ^ (p + e + 1)) (hx : x < 2 ^ (p + e + 1)) (hy : y < 2 ^ (p + e + 1)) :
    (ieeeValue p e x < ieeeValue p e y → Before (intKey n (floatToKey (p + e + 1) x) 0) (intKey n (floatToKey (p + e + 1) y) 0)) ∧
    (¬ ieeeValue p e x < ieeeValue p e y → ¬ ieeeValue p e y < ieeeValue p e x →
      intKey n (floatToKey (p + e + 1) x) 0 = intKey n (floatToKey (p + e + 1) y) 0) := by
  rw [← floatToKey_order hx hy, ← floatToKey_order hy hx]
  constructor
  · intro h
    refine intKey_before (by omega) (by omega) ?_
    have := floatToKey_lt hy
    rw [← hn] at this
    have e : ((256 ^ n : Nat) : Int) = 256 ^ n := by simp
    omega
  · intro h1 h2
    rw [show floatToKey (p + e + 1) x = floatToKey (p + e + 1) y by omega]

/-- the first byte in arithmetic -/
theorem varuintFirst_eq {x : Nat} (h : x < 2 ^ 32) : (varuintFirst x).toNat =
    if x < 0x80 then x else if x < 0x4000 then 0x80 + x / 256 else if x < 0x200000 then 0xc0 + x / 256 ^ 2
    else if x < 0x10000000 then 0xe0 + x / 256 ^ 3 else 0xf0 := by
  have e2 : ∀ hi < 64, ((2 ^ 32 - 1 - (0xff >>> 1)) ||| hi) % 256 = 0x80 + hi := by decide +kernel
  have e1 : ∀ hi < 128, ((2 ^ 32 - 1 - (0xff >>> 0)) ||| hi) % 256 = hi := by decide +kernel
  have e3 : ∀ hi < 32, ((2 ^ 32 - 1 - (0xff >>> 2)) ||| hi) % 256 = 0xc0 + hi := by decide +kernel
  have e4 : ∀ hi < 16, ((2 ^ 32 - 1 - (0xff >>> 3)) ||| hi) % 256 = 0xe0 + hi := by decide +kernel
  have e5 : ((2 ^ 32 - 1 - (0xff >>> 4)) ||| 0) % 256 = 0xf0 := by decide +kernel
  unfold varuintFirst varuintKeyBytes
  rw [UInt8.toNat_ofNat']
  by_cases h1 : x < 0x80
  · simp only [h1, if_true]
    exact e1 x h1
  · simp only [h1, if_false]
    by_cases h2 : x < 0x4000
    · simp only [h2, if_true]
      rw [← e2 (x / 256) (by omega), Nat.shiftRight_eq_div_pow x]
      rfl
    · simp only [h2, if_false]
      by_cases h3 : x < 0x200000
      · simp only [h3, if_true]
        rw [← e3 (x / 256 ^ 2) (by omega), Nat.shiftRight_eq_div_pow x]
        rfl
      · simp only [h3, if_false]
        by_cases h4 : x < 0x10000000
        · simp only [h4, if_true]
          rw [← e4 (x / 256 ^ 3) (by omega), Nat.shiftRight_eq_div_pow x]
          rfl
        · simp only [h4, if_false]
          exact e5

theorem varuintKeyOf_before {x y : Nat} (h : x < y) (hy : y < 2 ^ 32) : Before (varuintKeyOf x) (varuintKeyOf y) := by
  unfold varuintKeyOf
  have fx := varuintFirst_eq (x := x) (by omega)
  have fy := varuintFirst_eq hy
  by_cases hlt : (varuintFirst x).toNat < (varuintFirst y).toNat
  · exact .head (UInt8.lt_iff_toNat_lt.2 hlt) _ _
  · have hn : varuintKeyBytes x = varuintKeyBytes y := by
      unfold varuintKeyBytes
      by_cases h1 : y < 0x80
      · simp [h1, show x < 0x80 by omega]
      · by_cases h2 : y < 0x4000
        · by_cases g1 : x < 0x80
          · exfalso; simp only [h1, h2, g1, if_true, if_false] at fx fy; omega
          · simp [h1, h2, g1, show x < 0x4000 by omega]
        · by_cases h3 : y < 0x200000
          · by_cases g2 : x < 0x4000
            · exfalso
              by_cases g1 : x < 0x80 <;> simp only [h1, h2, h3, g1, g2, if_true, if_false] at fx fy <;> omega
            · simp [h1, h2, h3, g2, show x < 0x200000 by omega, show ¬ x < 0x80 by omega]
          · by_cases h4 : y < 0x10000000
            · by_cases g3 : x < 0x200000
              · exfalso
                by_cases g1 : x < 0x80 <;> by_cases g2 : x < 0x4000 <;> simp only [h1, h2, h3, h4, g1, g2, g3, if_true, if_false] at fx fy <;> omega
              · simp [h1, h2, h3, h4, g3, show x < 0x10000000 by omega, show ¬ x < 0x80 by omega, show ¬ x < 0x4000 by omega]
            · by_cases g4 : x < 0x10000000
              · exfalso
                by_cases g1 : x < 0x80 <;> by_cases g2 : x < 0x4000 <;> by_cases g3 : x < 0x200000 <;>
                  simp only [h1, h2, h3, h4, g1, g2, g3, g4, if_true, if_false] at fx fy <;> omega
              · simp [h1, h2, h3, h4, g4, show ¬ x < 0x80 by omega, show ¬ x < 0x4000 by omega, show ¬ x < 0x200000 by omega]
    have hq : x / 256 ^ (varuintKeyBytes y - 1) = y / 256 ^ (varuintKeyBytes y - 1) ∧ varuintFirst x = varuintFirst y := by
      have key : (varuintFirst x).toNat = (varuintFirst y).toNat ∧ x / 256 ^ (varuintKeyBytes y - 1) = y / 256 ^ (varuintKeyBytes y - 1) := by
        unfold varuintKeyBytes at hn ⊢
        by_cases h1 : y < 0x80
        · simp only [h1, show x < 0x80 by omega, if_true] at fx fy ⊢; omega
        · by_cases h2 : y < 0x4000
          · by_cases g1 : x < 0x80
            · simp [h1, h2, g1] at hn
            · simp only [h1, h2, g1, show x < 0x4000 by omega, if_true, if_false] at fx fy ⊢; omega
          · by_cases h3 : y < 0x200000
            · by_cases g2 : x < 0x4000
              · by_cases g1 : x < 0x80 <;> simp [h1, h2, h3, g1, g2] at hn
              · simp only [h1, h2, h3, g2, show x < 0x200000 by omega, show ¬ x < 0x80 by omega, if_true, if_false] at fx fy ⊢; omega
            · by_cases h4 : y < 0x10000000
              · by_cases g3 : x < 0x200000
                · by_cases g1 : x < 0x80 <;> by_cases g2 : x < 0x4000 <;> simp [h1, h2, h3, h4, g1, g2, g3] at hn
                · simp only [h1, h2, h3, h4, g3, show x < 0x10000000 by omega, show ¬ x < 0x80 by omega, show ¬ x < 0x4000 by omega, if_true, if_false] at fx fy ⊢
                  omega
              · by_cases g4 : x < 0x10000000
                · by_cases g1 : x < 0x80 <;> by_cases g2 : x < 0x4000 <;> by_cases g3 : x < 0x200000 <;> simp [h1, h2, h3, h4, g1, g2, g3, g4] at hn
                · simp only [h1, h2, h3, h4, g4, show ¬ x < 0x80 by omega, show ¬ x < 0x4000 by omega, show ¬ x < 0x200000 by omega, if_false] at fx fy ⊢
                  omega
      exact ⟨key.2, UInt8.toNat_inj.1 key.1⟩
    rw [hn, hq.2]
    refine .cons _ ?_
    generalize varuintKeyBytes y - 1 = m at hq
    have hp : 0 < 256 ^ m := Nat.pow_pos (by decide)
    rw [← beBytes_mod m x, ← beBytes_mod m y]
    refine beBytes_before (Nat.mod_lt _ hp) (Nat.mod_lt _ hp) ?_
    have h1 := Nat.div_add_mod x (256 ^ m)
    have h2 := Nat.div_add_mod y (256 ^ m)
    rw [hq.1] at h1
    omega

/-! ## Order of lists -/

theorem lex_ordered {α : Type} {P : α → Prop} {lt : α → α → Prop} {k : α → Bytes} {fin : Bytes}
    (h : ∀ x y, P x → P y → (lt x y → Before (k x) (k y)) ∧ (¬ lt x y → ¬ lt y x → k x = k y))
    (hfin : ∀ x z, P x → Before fin (k x ++ z)) : ∀ a b : List α, (∀ x ∈ a, P x) → (∀ x ∈ b, P x) →
    (LexLess lt a b → Before (a.flatMap k ++ fin) (b.flatMap k ++ fin)) ∧
    (¬ LexLess lt a b → ¬ LexLess lt b a → a.flatMap k = b.flatMap k)
  | [], [], _, _ => by simp [LexLess]
  | [], y :: b, _, hb => by
    refine ⟨fun _ => ?_, by simp [LexLess]⟩
    rw [List.flatMap_cons, List.append_assoc]
    exact hfin y _ (hb y (by simp))
  | x :: a, [], _, _ => by simp [LexLess]
  | x :: a, y :: b, ha, hb => by
    obtain ⟨h1, h2⟩ := h x y (ha x (by simp)) (hb y (by simp))
    obtain ⟨i1, i2⟩ := lex_ordered h hfin a b (fun z hz => ha z (by simp [hz])) (fun z hz => hb z (by simp [hz]))
    simp only [LexLess, List.flatMap_cons, List.append_assoc]
    constructor
    · rintro (hl | ⟨hn, hl⟩)
      · exact (h1 hl).append _ _
      · by_cases hxy : lt x y
        · exact (h1 hxy).append _ _
        · rw [h2 hxy hn]
          exact (i1 hl).prepend _
    · intro hn1 hn2
      simp only [not_or, not_and] at hn1 hn2
      rw [h2 hn1.1 hn2.1, i2 (hn1.2 hn2.1) (hn2.2 hn1.1)]

theorem lex_ordered_same {α : Type} {P : α → Prop} {lt : α → α → Prop} {k : α → Bytes}
    (h : ∀ x y, P x → P y → (lt x y → Before (k x) (k y)) ∧ (¬ lt x y → ¬ lt y x → k x = k y)) :
    ∀ a b : List α, a.length = b.length → (∀ x ∈ a, P x) → (∀ x ∈ b, P x) →
    (LexLess lt a b → Before (a.flatMap k) (b.flatMap k)) ∧ (¬ LexLess lt a b → ¬ LexLess lt b a → a.flatMap k = b.flatMap k)
  | [], [], _, _, _ => by simp [LexLess]
  | x :: a, y :: b, hl, ha, hb => by
    obtain ⟨h1, h2⟩ := h x y (ha x (by simp)) (hb y (by simp))
    obtain ⟨i1, i2⟩ := lex_ordered_same h a b (by simpa using hl) (fun z hz => ha z (by simp [hz])) (fun z hz => hb z (by simp [hz]))
    simp only [LexLess, List.flatMap_cons]
    constructor
    · rintro (hl | ⟨hn, hl⟩)
      · exact (h1 hl).append _ _
      · by_cases hxy : lt x y
        · exact (h1 hxy).append _ _
        · rw [h2 hxy hn]
          exact (i1 hl).prepend _
    · intro hn1 hn2
      simp only [not_or, not_and] at hn1 hn2
      rw [h2 hn1.1 hn2.1, i2 (hn1.2 hn2.1) (hn2.2 hn1.1)]

theorem u8_pos {c : UInt8} (h : c ≠ 0) : 0 < c := by
  rw [UInt8.lt_iff_toNat_lt]
  have : c.toNat ≠ (0 : UInt8).toNat := fun h' => h (UInt8.toNat_inj.1 h')
  show 0 < c.toNat
  exact Nat.pos_of_ne_zero this

theorem charKey_before {c d : UInt8} (h : c < d) : Before (charKey c) (charKey d) := by
  unfold charKey
  have hd : d ≠ 0 := by rintro rfl; simp [UInt8.lt_iff_toNat_lt] at h
  rw [if_neg hd]
  split
  · exact .head (u8_pos hd) _ _
  · exact .head h _ _

theorem null_before_char (c : UInt8) (z : Bytes) : Before [0, 0] (charKey c ++ z) := by
  unfold charKey
  split
  · exact .cons 0 (.head (by decide) _ _)
  · next h => exact .head (u8_pos h) _ _

theorem before_single {c d : UInt8} (h : Before [c] [d]) : c < d := by
  obtain ⟨p, x, y, s, t, h1, h2, h3⟩ := h
  cases p with
  | nil => cases h1; cases h2; exact h3
  | cons z p => simp at h1

theorem optKey_before {byte : Bool} {k l : Bytes} (h : Before k l) (hk : byte = true → ∃ c, k = [c]) (hl : byte = true → ∃ c, l = [c]) :
    Before (optKeyOf byte (some k)) (optKeyOf byte (some l)) := by
  cases byte with
  | false => exact h.cons 1
  | true =>
    obtain ⟨c, rfl⟩ := hk rfl
    obtain ⟨d, rfl⟩ := hl rfl
    simpa [optKeyOf] using charKey_before (before_single h)

theorem optKey_null {byte : Bool} {k : Bytes} (hk : byte = true → ∃ c, k = [c]) (z : Bytes) : Before (optKeyOf byte none) (optKeyOf byte (some k) ++ z) := by
  cases byte with
  | false => exact .head (by decide) _ _
  | true =>
    obtain ⟨c, rfl⟩ := hk rfl
    simpa [optKeyOf] using null_before_char c z

theorem lexLess_compare {lt : Nat → Nat → Bool} : ∀ a b : List Nat, LexLess (fun x y => lt x y = true) a b ↔ lexCompare lt a b = true
  | [], [] => by simp [LexLess, lexCompare]
  | [], _ :: _ => by simp [LexLess, lexCompare]
  | _ :: _, [] => by simp [LexLess, lexCompare]
  | x :: a, y :: b => by
    simp only [LexLess, lexCompare, lexLess_compare a b]
    by_cases h1 : lt x y = true
    · simp [h1]
    · by_cases h2 : lt y x = true
      · simp [h1, h2]
      · simp [h1, h2]

theorem lexLess_nat (a b : List Nat) : LexLess (fun x y => x < y) a b ↔ fixedLt a b = true := by
  unfold fixedLt
  rw [← lexLess_compare]
  simp

theorem before_of_lt {u v : Bytes} (hl : u.length = v.length) (h : u < v) : Before u v := by
  induction u generalizing v with
  | nil =>
    cases v with
    | nil => exact absurd h (List.lt_irrefl _)
    | cons => cases hl
  | cons x u ih =>
    cases v with
    | nil => cases hl
    | cons y v =>
      rcases List.cons_lt_cons_iff.1 h with h | ⟨rfl, h'⟩
      · exact .head h _ _
      · exact (ih (by simpa using hl) h').cons x

/-! ## Order of keys -/

mutual
theorem key_ordered : ∀ t a b, IsKey t a → IsKey t b →
    (KeyLess t a b → Before (keyOf t a) (keyOf t b)) ∧ (¬ KeyLess t a b → ¬ KeyLess t b a → keyOf t a = keyOf t b)
  | .uint n, a, b, ha, hb => by
    obtain ⟨x, rfl, -, hx⟩ := isKey_uint ha
    obtain ⟨y, rfl, -, hy⟩ := isKey_uint hb
    simp only [KeyLess, keyOf]
    have e : ((256 ^ n : Nat) : Int) = 256 ^ n := by simp
    exact ⟨fun h => intKey_before (by omega) (by omega) (by omega), fun h1 h2 => by rw [show x = y by omega]⟩
  | .sint n, a, b, ha, hb => by
    obtain ⟨x, rfl, h0, hx⟩ := isKey_sint ha
    obtain ⟨y, rfl, -, hy⟩ := isKey_sint hb
    simp only [KeyLess, keyOf]
    have := pow_half h0
    exact ⟨fun h => intKey_before (by omega) h (by omega), fun h1 h2 => by rw [show x = y by omega]⟩
  | .bool, a, b, ha, hb => by
    obtain ⟨x, rfl⟩ := isKey_bool ha
    obtain ⟨y, rfl⟩ := isKey_bool hb
    simp only [KeyLess, keyOf]
    constructor
    · rintro ⟨rfl, rfl⟩
      exact .head (by decide) _ _
    · cases x <;> cases y <;> simp
  | .float, a, b, ha, hb => by
    obtain ⟨x, rfl, hx, -⟩ := isKey_float ha
    obtain ⟨y, rfl, hy, -⟩ := isKey_float hb
    simp only [KeyLess, keyOf]
    exact float_ordered (p := 23) (e := 8) (n := 4) (by decide) hx hy
  | .double, a, b, ha, hb => by
    obtain ⟨x, rfl, hx, -⟩ := isKey_double ha
    obtain ⟨y, rfl, hy, -⟩ := isKey_double hb
    simp only [KeyLess, keyOf]
    exact float_ordered (p := 52) (e := 11) (n := 8) (by decide) hx hy
  | .varuint32, a, b, ha, hb => by
    obtain ⟨x, rfl, hx⟩ := isKey_varuint32 ha
    obtain ⟨y, rfl, hy⟩ := isKey_varuint32 hb
    simp only [KeyLess, keyOf]
    exact ⟨fun h => varuintKeyOf_before h hy, fun h1 h2 => by rw [show x = y by omega]⟩
  | .str, a, b, ha, hb => by
    obtain ⟨x, rfl⟩ := isKey_str ha
    obtain ⟨y, rfl⟩ := isKey_str hb
    simp only [KeyLess, keyOf]
    have := lex_ordered (P := fun _ => True) (lt := fun x y : UInt8 => x.toNat < y.toNat) (k := charKey) (fin := [0, 0])
      (fun c d _ _ => ⟨fun h => charKey_before (UInt8.lt_iff_toNat_lt.2 h), fun h1 h2 => by rw [UInt8.toNat_inj.1 (show c.toNat = d.toNat by omega)]⟩)
      (fun c z _ => null_before_char c z) x y (by simp) (by simp)
    exact ⟨this.1, fun h1 h2 => by rw [this.2 h1 h2]⟩
  | .fixed size word, a, b, ha, hb => by
    obtain ⟨x, rfl, h0, bx, hx⟩ := isKey_fixed ha
    obtain ⟨y, rfl, -, bY, hy⟩ := isKey_fixed hb
    simp only [KeyLess, keyOf, lexLess_nat]
    rw [c43_to_bytes h0 hx, c43_to_bytes h0 hy, (c43_order h0 hx hy).1, (c43_order h0 hy hx).1]
    refine ⟨fun h => before_of_lt (hx.1.trans hy.1.symm) h, fun h1 h2 => ?_⟩
    exact List.le_antisymm (List.not_lt.1 h2) (List.not_lt.1 h1)
  | .seq t, a, b, ha, hb => by
    obtain ⟨x, rfl, hx⟩ := isKey_seq ha
    obtain ⟨y, rfl, hy⟩ := isKey_seq hb
    simp only [KeyLess, keyOf]
    have := lex_ordered (P := IsKey t) (lt := KeyLess t) (k := fun v => optKeyOf t.isByte (some (keyOf t v))) (fin := optKeyOf t.isByte none)
      (fun c d hc hd => ⟨fun h => optKey_before ((key_ordered t c d hc hd).1 h) (fun hb => keyOf_byte hb hc) (fun hb => keyOf_byte hb hd),
        fun h1 h2 => by rw [(key_ordered t c d hc hd).2 h1 h2]⟩)
      (fun c z hc => optKey_null (fun hb => keyOf_byte hb hc) z) x y hx hy
    exact ⟨this.1, fun h1 h2 => by rw [this.2 h1 h2]⟩
  | .arr n t, a, b, ha, hb => by
    obtain ⟨x, rfl, lx, hx⟩ := isKey_arr ha
    obtain ⟨y, rfl, ly, hy⟩ := isKey_arr hb
    simp only [KeyLess, keyOf]
    exact lex_ordered_same (P := IsKey t) (lt := KeyLess t) (fun c d hc hd => key_ordered t c d hc hd) x y (lx.trans ly.symm) hx hy
  | .opt t, a, b, ha, hb => by
    rcases isKey_opt ha with rfl | ⟨x, rfl, hx⟩ <;> rcases isKey_opt hb with rfl | ⟨y, rfl, hy⟩
    · simp [KeyLess]
    · simp only [KeyLess, keyOf]
      refine ⟨fun _ => ?_, by simp⟩
      simpa using optKey_null (fun hb => keyOf_byte hb hy) []
    · simp [KeyLess]
    · simp only [KeyLess, keyOf]
      exact ⟨fun h => optKey_before ((key_ordered t x y hx hy).1 h) (fun hb => keyOf_byte hb hx) (fun hb => keyOf_byte hb hy),
        fun h1 h2 => by rw [(key_ordered t x y hx hy).2 h1 h2]⟩
  | .variant ts, a, b, ha, hb => by
    obtain ⟨i, x, rfl, hi, hx⟩ := isKey_variant ha
    obtain ⟨j, y, rfl, hj, hy⟩ := isKey_variant hb
    simp only [KeyLess, keyOf]
    constructor
    · rintro (h | ⟨rfl, h⟩)
      · exact (varuintKeyOf_before h hj).append _ _
      · exact ((keyAlt_ordered ts i x y hx hy).1 h).prepend _
    · intro h1 h2
      have : i = j := by omega
      subst this
      simp only [Nat.lt_irrefl, true_and, false_or] at h1 h2
      rw [(keyAlt_ordered ts i x y hx hy).2 h1 h2]
  | .struct ts, a, b, ha, hb => by
    obtain ⟨x, rfl, hx⟩ := isKey_struct ha
    obtain ⟨y, rfl, hy⟩ := isKey_struct hb
    simp only [KeyLess, keyOf]
    exact keyFields_ordered ts x y hx hy
theorem keyAlt_ordered : ∀ ts i a b, IsKeyAlt ts i a → IsKeyAlt ts i b →
    (KeyLessAlt ts i a b → Before (keyOfAlt ts i a) (keyOfAlt ts i b)) ∧ (¬ KeyLessAlt ts i a b → ¬ KeyLessAlt ts i b a → keyOfAlt ts i a = keyOfAlt ts i b)
  | [], _, _, _, ha, _ => by simp [IsKeyAlt] at ha
  | t :: _, 0, a, b, ha, hb => by
    simp only [IsKeyAlt, KeyLessAlt, keyOfAlt] at *
    exact key_ordered t a b ha hb
  | _ :: ts, i + 1, a, b, ha, hb => by
    simp only [IsKeyAlt, KeyLessAlt, keyOfAlt] at *
    exact keyAlt_ordered ts i a b ha hb
theorem keyFields_ordered : ∀ ts a b, IsKeyFields ts a → IsKeyFields ts b →
    (KeyLessFields ts a b → Before (keyOfFields ts a) (keyOfFields ts b)) ∧ (¬ KeyLessFields ts a b → ¬ KeyLessFields ts b a → keyOfFields ts a = keyOfFields ts b)
  | [], [], [], _, _ => by simp [KeyLessFields]
  | [], _ :: _, _, ha, _ => by simp [IsKeyFields] at ha
  | [], [], _ :: _, _, hb => by simp [IsKeyFields] at hb
  | _ :: _, [], _, ha, _ => by simp [IsKeyFields] at ha
  | _ :: _, _ :: _, [], _, hb => by simp [IsKeyFields] at hb
  | t :: ts, x :: a, y :: b, ha, hb => by
    simp only [IsKeyFields] at ha hb
    obtain ⟨h1, h2⟩ := key_ordered t x y ha.1 hb.1
    obtain ⟨i1, i2⟩ := keyFields_ordered ts a b ha.2 hb.2
    simp only [KeyLessFields, keyOfFields]
    constructor
    · rintro (hl | ⟨hn, hl⟩)
      · exact (h1 hl).append _ _
      · by_cases hxy : KeyLess t x y
        · exact (h1 hxy).append _ _
        · rw [h2 hxy hn]
          exact (i1 hl).prepend _
    · intro hn1 hn2
      simp only [not_or, not_and] at hn1 hn2
      rw [h2 hn1.1 hn2.1, i2 (hn1.2 hn2.1) (hn2.2 hn1.1)]
end

/-! ## Equivalent values of types without floating point are equal -/

theorem lex_eq {α : Type} {P : α → Prop} {lt : α → α → Prop} (h : ∀ x y, P x → P y → ¬ lt x y → ¬ lt y x → x = y) :
    ∀ a b : List α, (∀ x ∈ a, P x) → (∀ x ∈ b, P x) → ¬ LexLess lt a b → ¬ LexLess lt b a → a = b
  | [], [], _, _, _, _ => rfl
  | [], y :: b, _, _, h1, _ => by simp [LexLess] at h1
  | x :: a, [], _, _, _, h2 => by simp [LexLess] at h2
  | x :: a, y :: b, ha, hb, h1, h2 => by
    simp only [LexLess, not_or, not_and] at h1 h2
    rw [h x y (ha x (by simp)) (hb y (by simp)) h1.1 h2.1,
      lex_eq h a b (fun z hz => ha z (by simp [hz])) (fun z hz => hb z (by simp [hz])) (h1.2 h2.1) (h2.2 h1.1)]

mutual
theorem key_exact : ∀ t a b, Exact t → IsKey t a → IsKey t b → ¬ KeyLess t a b → ¬ KeyLess t b a → a = b
  | .uint n, a, b, _, ha, hb, h1, h2 => by
    obtain ⟨x, rfl, -⟩ := isKey_uint ha
    obtain ⟨y, rfl, -⟩ := isKey_uint hb
    simp only [KeyLess] at h1 h2
    rw [show x = y by omega]
  | .sint n, a, b, _, ha, hb, h1, h2 => by
    obtain ⟨x, rfl, -⟩ := isKey_sint ha
    obtain ⟨y, rfl, -⟩ := isKey_sint hb
    simp only [KeyLess] at h1 h2
    rw [show x = y by omega]
  | .bool, a, b, _, ha, hb, h1, h2 => by
    obtain ⟨x, rfl⟩ := isKey_bool ha
    obtain ⟨y, rfl⟩ := isKey_bool hb
    cases x <;> cases y <;> simp_all [KeyLess]
  | .float, _, _, h, _, _, _, _ => by simp [Exact] at h
  | .double, _, _, h, _, _, _, _ => by simp [Exact] at h
  | .varuint32, a, b, _, ha, hb, h1, h2 => by
    obtain ⟨x, rfl, -⟩ := isKey_varuint32 ha
    obtain ⟨y, rfl, -⟩ := isKey_varuint32 hb
    simp only [KeyLess] at h1 h2
    rw [show x = y by omega]
  | .str, a, b, _, ha, hb, h1, h2 => by
    obtain ⟨x, rfl⟩ := isKey_str ha
    obtain ⟨y, rfl⟩ := isKey_str hb
    simp only [KeyLess] at h1 h2
    rw [lex_eq (P := fun _ => True) (fun c d _ _ g1 g2 => UInt8.toNat_inj.1 (by omega)) x y (by simp) (by simp) h1 h2]
  | .fixed size word, a, b, _, ha, hb, h1, h2 => by
    obtain ⟨x, rfl, -⟩ := isKey_fixed ha
    obtain ⟨y, rfl, -⟩ := isKey_fixed hb
    simp only [KeyLess] at h1 h2
    rw [lex_eq (P := fun _ => True) (fun c d _ _ g1 g2 => by omega) x y (by simp) (by simp) h1 h2]
  | .seq t, a, b, h, ha, hb, h1, h2 => by
    obtain ⟨x, rfl, hx⟩ := isKey_seq ha
    obtain ⟨y, rfl, hy⟩ := isKey_seq hb
    simp only [KeyLess, Exact] at h h1 h2
    rw [lex_eq (P := IsKey t) (fun c d hc hd g1 g2 => key_exact t c d h hc hd g1 g2) x y hx hy h1 h2]
  | .arr n t, a, b, h, ha, hb, h1, h2 => by
    obtain ⟨x, rfl, -, hx⟩ := isKey_arr ha
    obtain ⟨y, rfl, -, hy⟩ := isKey_arr hb
    simp only [KeyLess, Exact] at h h1 h2
    rw [lex_eq (P := IsKey t) (fun c d hc hd g1 g2 => key_exact t c d h hc hd g1 g2) x y hx hy h1 h2]
  | .opt t, a, b, h, ha, hb, h1, h2 => by
    rcases isKey_opt ha with rfl | ⟨x, rfl, hx⟩ <;> rcases isKey_opt hb with rfl | ⟨y, rfl, hy⟩
    · rfl
    · simp [KeyLess] at h1
    · simp [KeyLess] at h2
    · simp only [KeyLess, Exact] at h h1 h2
      rw [key_exact t x y h hx hy h1 h2]
  | .variant ts, a, b, h, ha, hb, h1, h2 => by
    obtain ⟨i, x, rfl, hi, hx⟩ := isKey_variant ha
    obtain ⟨j, y, rfl, hj, hy⟩ := isKey_variant hb
    simp only [KeyLess, Exact] at h h1 h2
    have : i = j := by omega
    subst this
    simp only [Nat.lt_irrefl, true_and, false_or] at h1 h2
    rw [keyAlt_exact ts i x y h hx hy h1 h2]
  | .struct ts, a, b, h, ha, hb, h1, h2 => by
    obtain ⟨x, rfl, hx⟩ := isKey_struct ha
    obtain ⟨y, rfl, hy⟩ := isKey_struct hb
    simp only [KeyLess, Exact] at h h1 h2
    rw [keyFields_exact ts x y h hx hy h1 h2]
theorem keyAlt_exact : ∀ ts i a b, ExactAll ts → IsKeyAlt ts i a → IsKeyAlt ts i b → ¬ KeyLessAlt ts i a b → ¬ KeyLessAlt ts i b a → a = b
  | [], _, _, _, _, ha, _, _, _ => by simp [IsKeyAlt] at ha
  | t :: _, 0, a, b, h, ha, hb, h1, h2 => by
    simp only [IsKeyAlt, KeyLessAlt, ExactAll] at *
    exact key_exact t a b h.1 ha hb h1 h2
  | _ :: ts, i + 1, a, b, h, ha, hb, h1, h2 => by
    simp only [IsKeyAlt, KeyLessAlt, ExactAll] at *
    exact keyAlt_exact ts i a b h.2 ha hb h1 h2
theorem keyFields_exact : ∀ ts a b, ExactAll ts → IsKeyFields ts a → IsKeyFields ts b → ¬ KeyLessFields ts a b → ¬ KeyLessFields ts b a → a = b
  | [], [], [], _, _, _, _, _ => rfl
  | [], _ :: _, _, _, ha, _, _, _ => by simp [IsKeyFields] at ha
  | [], [], _ :: _, _, _, hb, _, _ => by simp [IsKeyFields] at hb
  | _ :: _, [], _, _, ha, _, _, _ => by simp [IsKeyFields] at ha
  | _ :: _, _ :: _, [], _, _, hb, _, _ => by simp [IsKeyFields] at hb
  | t :: ts, x :: a, y :: b, h, ha, hb, h1, h2 => by
    simp only [IsKeyFields, ExactAll, KeyLessFields, not_or, not_and] at h ha hb h1 h2
    rw [key_exact t x y h.1 ha.1 hb.1 h1.1 h2.1, keyFields_exact ts a b h.2 ha.2 hb.2 (h1.2 h2.1) (h2.2 h1.1)]
end

end Abieos
