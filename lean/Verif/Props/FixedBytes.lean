import Verif.Proofs.FixedBytes
import Verif.Spec.FixedBytes
import Verif.Props.Hex
import Verif.Model.Builtins
/-!
**C43.** Fixed-size byte arrays, for all sizes, word types and contents.
-/
namespace Abieos
open Spec

theorem holds_iff {size w : Nat} (hw : 0 < w) {v : List Nat} {b : Bytes} : Holds size w v b ↔
    b.length = size ∧ flatWords w v = b ++ List.replicate (countWords size w * w - size) 0 ∧ v.length = countWords size w ∧ ∀ x ∈ v, x < 256 ^ w := by
  have hc := countWords_le (size := size) hw
  constructor
  · rintro ⟨h1, n, h2, h3⟩
    obtain ⟨h4, h5⟩ := wordsAre_iff.1 h3
    have hl := congrArg List.length h4
    rw [List.length_append, List.length_replicate, flatWords_length, h1] at hl
    have hcount : countWords size w = v.length := by
      unfold countWords
      have e : size + w - 1 = (w - 1 - n) + v.length * w := by omega
      rw [e, Nat.add_mul_div_right _ _ hw, Nat.div_eq_of_lt (by omega), Nat.zero_add]
    refine ⟨h1, ?_, hcount.symm, h5⟩
    rw [← h4, hcount, ← hl, Nat.add_sub_cancel_left]
  · rintro ⟨h1, h2, h3, h4⟩
    refine ⟨h1, countWords size w * w - size, ?_, wordsAre_iff.2 ⟨h2.symm, h4⟩⟩
    unfold countWords
    have := Nat.div_mul_le_self (size + w - 1) w
    omega

/-- **C43.** The words determine the bytes. -/
theorem c43_bytes_unique {size w : Nat} {v : List Nat} {b b' : Bytes} (hw : 0 < w) (h : Holds size w v b) (h' : Holds size w v b') : b = b' := by
  obtain ⟨h1, h2, -⟩ := (holds_iff hw).1 h
  obtain ⟨g1, g2, -⟩ := (holds_iff hw).1 h'
  exact List.append_inj_left (h2.symm.trans g2) (h1.trans g1.symm)

/-- **C43.** The bytes determine the words. -/
theorem c43_words_unique {size w : Nat} {v v' : List Nat} {b : Bytes} (hw : 0 < w) (h : Holds size w v b) (h' : Holds size w v' b) : v = v' := by
  obtain ⟨h1, h2, h3, h4⟩ := (holds_iff hw).1 h
  obtain ⟨g1, g2, g3, g4⟩ := (holds_iff hw).1 h'
  exact flatWords_inj h4 g4 (h3.trans g3.symm) (h2.trans g2.symm)

theorem holds_convert {size w w' : Nat} (hd : WordSizes w w') {v : List Nat} {b : Bytes} (h : Holds size w v b) : Holds size w' (convertArray size w w' v) b := by
  obtain ⟨h1, h2, h3, h4⟩ := (holds_iff hd.1).1 h
  have hc := countWords_le (size := size) hd.2.1
  refine (holds_iff hd.2.1).2 ⟨h1, ?_, convertArray_length hd h4 h3, convertArray_lt hd h4⟩
  rw [flatWords_convertArray hd h4 (countWords size w' * w') (Nat.le_refl _) h3, h2, List.append_assoc, List.replicate_append_replicate, List.take_append,
    List.take_of_length_le (by omega), List.take_replicate, h1]
  congr 2
  omega

/-- **C43, words.** `extract_as_word_array` for any word type gives words that hold the same bytes. -/
theorem c43_extract {size w w' : Nat} (hd : WordSizes w w') {v : List Nat} {b : Bytes} (h : Holds size w v b) : Holds size w' (fixedToArray size w w' v) b :=
  holds_convert hd h

/-- **C43, construction.** A `fixed_bytes` made from an array of any unsigned type that holds some bytes, with no more words than needed,
holds these bytes and zeros after them. -/
theorem c43_construct {size w w' : Nat} (hd : WordSizes w' w) {arr : List Nat} {c : Bytes} (h : WordsAre w' arr c) (hl : c.length ≤ size) :
    Holds size w (fixedFromArray size w w' arr) (c ++ List.replicate (size - c.length) 0) := by
  obtain ⟨rfl, h2⟩ := wordsAre_iff.1 h
  rw [flatWords_length] at hl
  have hc := countWords_le (size := size) hd.1
  have hle : arr.length ≤ countWords size w' := Nat.le_of_mul_le_mul_right (Nat.le_trans hl hc) hd.1
  refine holds_convert hd ((holds_iff hd.1).2 ⟨?_, ?_, ?_, ?_⟩)
  · rw [List.length_append, List.length_replicate, flatWords_length]; omega
  · rw [List.take_of_length_le hle, flatWords_append, flatWords_zero, List.append_assoc, List.replicate_append_replicate, flatWords_length, Nat.sub_mul]
    congr 2
    omega
  · rw [List.length_append, List.length_replicate, List.take_of_length_le hle]; omega
  · intro x hx
    rcases List.mem_append.1 hx with hx | hx
    · exact h2 x (List.mem_of_mem_take hx)
    · rw [List.eq_of_mem_replicate hx]; exact Nat.pow_pos (by decide)

theorem divide_one {w : Nat} (hw : 0 < w) : WordSizes w 1 := ⟨hw, by decide, .inr (Nat.one_dvd w)⟩
theorem one_divide {w : Nat} (hw : 0 < w) : WordSizes 1 w := ⟨by decide, hw, .inl (Nat.one_dvd w)⟩

theorem beBytes_one {n : Nat} (h : n < 256) : beBytes 1 n = [UInt8.ofNat n] := by simp [beBytes, leBytes, Nat.mod_eq_of_lt h]

theorem flatWords_bytes (b : Bytes) : flatWords 1 (b.map UInt8.toNat) = b := by
  induction b with
  | nil => rfl
  | cons x s ih => rw [List.map_cons, flatWords_cons, ih, beBytes_one x.toNat_lt]; simp

/-- **C43, words and back.** Making a `fixed_bytes` from the words extracted from another gives the same value. -/
theorem c43_array_roundtrip {size w w' : Nat} (hd : WordSizes w w') {v : List Nat} {b : Bytes} (h : Holds size w v b) :
    fixedFromArray size w w' (fixedToArray size w w' v) = v := by
  have h1 := (holds_iff hd.2.1).1 (c43_extract hd h)
  have hd' : WordSizes w' w := ⟨hd.2.1, hd.1, hd.2.2.symm⟩
  refine c43_words_unique hd.1 ?_ h
  show Holds size w (convertArray size w' w _) b
  rw [List.take_of_length_le (Nat.le_of_eq h1.2.2.1), h1.2.2.1, Nat.sub_self, List.replicate_zero, List.append_nil]
  exact holds_convert hd' (c43_extract hd h)

/-- **C43, bytes.** A value made from bytes holds them. -/
theorem c43_from_bytes {size w : Nat} (hw : 0 < w) {b : Bytes} (h : b.length = size) : Holds size w (fixedFromBytes size w b) b := by
  have hb : WordsAre 1 (b.map UInt8.toNat) b := wordsAre_iff.2 ⟨(flatWords_bytes b).symm, by
    intro x hx; obtain ⟨y, -, rfl⟩ := List.mem_map.1 hx; exact y.toNat_lt⟩
  have := c43_construct (one_divide hw) hb (Nat.le_of_eq h)
  rwa [h, Nat.sub_self, List.replicate_zero, List.append_nil] at this

/-- **C43, bytes.** `extract_as_byte_array` gives the bytes a value holds. -/
theorem c43_to_bytes {size w : Nat} (hw : 0 < w) {v : List Nat} {b : Bytes} (h : Holds size w v b) : fixedToBytes size w v = b := by
  obtain ⟨h1, h2, h3, h4⟩ := (holds_iff (by decide)).1 (c43_extract (divide_one hw) h)
  rw [countWords_one, Nat.mul_one, Nat.sub_self, List.replicate_zero, List.append_nil] at h2
  unfold fixedToBytes
  rw [← h2]
  generalize fixedToArray size w 1 v = l at h4
  induction l with
  | nil => rfl
  | cons x s ih =>
    rw [List.map_cons, flatWords_cons, beBytes_one (h4 x (by simp)), ih fun y hy => h4 y (by simp [hy])]
    rfl

/-- **C43, round trips** between bytes and values. -/
theorem c43_bytes_roundtrip {size w : Nat} (hw : 0 < w) :
    (∀ b : Bytes, b.length = size → fixedToBytes size w (fixedFromBytes size w b) = b) ∧
      ∀ v b, Holds size w v b → fixedFromBytes size w (fixedToBytes size w v) = v := by
  refine ⟨fun b h => c43_to_bytes hw (c43_from_bytes hw h), fun v b h => ?_⟩
  rw [c43_to_bytes hw h]
  exact c43_words_unique hw (c43_from_bytes hw h.1) h

/-! ## Order -/

theorem lexCompare_flat {w : Nat} : ∀ {a b : List Nat}, a.length = b.length → (∀ x ∈ a, x < 256 ^ w) → (∀ x ∈ b, x < 256 ^ w) →
    (lexCompare (fun x y => decide (x < y)) a b = true → Before (flatWords w a) (flatWords w b)) ∧
    (lexCompare (fun x y => decide (x < y)) a b = false → a = b ∨ Before (flatWords w b) (flatWords w a))
  | [], [], _, _, _ => by simp [lexCompare]
  | x :: a, y :: b, hl, ha, hb => by
    obtain ⟨h1, h2⟩ := lexCompare_flat (a := a) (b := b) (by simpa using hl) (fun z hz => ha z (by simp [hz])) (fun z hz => hb z (by simp [hz]))
    have hx := ha x (by simp)
    have hy := hb y (by simp)
    rw [lexCompare, flatWords_cons, flatWords_cons]
    rcases Nat.lt_trichotomy x y with hlt | rfl | hlt
    · simp only [hlt, decide_true, if_true]
      exact ⟨fun _ => (beBytes_before hx hy hlt).append _ _, fun h => by cases h⟩
    · simp only [Nat.lt_irrefl, decide_false, Bool.false_eq_true, if_false]
      refine ⟨fun h => (h1 h).prepend _, fun h => ?_⟩
      rcases h2 h with rfl | h
      · exact .inl rfl
      · exact .inr (h.prepend _)
    · simp only [Nat.lt_asymm hlt, hlt, decide_true, decide_false, Bool.false_eq_true, if_false, if_true]
      exact ⟨fun h => (by cases h), fun _ => .inr ((beBytes_before hy hx hlt).append _ _)⟩
  | [], _ :: _, hl, _, _ => by cases hl
  | _ :: _, [], hl, _, _ => by cases hl

theorem lt_append_right {a b c : Bytes} (hl : a.length = b.length) : a ++ c < b ++ c ↔ a < b := by
  induction a generalizing b with
  | nil =>
    cases b with
    | nil => simp
    | cons => cases hl
  | cons x a ih =>
    cases b with
    | nil => cases hl
    | cons y b =>
      rw [List.cons_append, List.cons_append, List.cons_lt_cons_iff, List.cons_lt_cons_iff, ih (by simpa using hl)]

/-- **C43, order.** Values compare as the bytes they hold, lexicographically. -/
theorem c43_order {size w : Nat} (hw : 0 < w) {a b : List Nat} {x y : Bytes} (ha : Holds size w a x) (hb : Holds size w b y) :
    (fixedLt a b = true ↔ x < y) ∧ (fixedEq a b = true ↔ x = y) := by
  obtain ⟨h1, h2, h3, h4⟩ := (holds_iff hw).1 ha
  obtain ⟨g1, g2, g3, g4⟩ := (holds_iff hw).1 hb
  obtain ⟨k1, k2⟩ := lexCompare_flat (h3.trans g3.symm) h4 g4
  rw [h2, g2] at k1 k2
  have hlen : x.length = y.length := h1.trans g1.symm
  constructor
  · constructor
    · intro h
      exact (lt_append_right hlen).1 (k1 h).lt
    · intro h
      cases hc : fixedLt a b with
      | true => rfl
      | false =>
        rcases k2 hc with rfl | hc
        · rw [c43_bytes_unique hw ha hb] at h; exact absurd h (List.lt_irrefl _)
        · exact absurd ((lt_append_right hlen.symm).1 hc.lt) (List.lt_asymm h)
  · unfold fixedEq
    rw [beq_iff_eq]
    constructor
    · rintro rfl; exact c43_bytes_unique hw ha hb
    · rintro rfl; exact c43_words_unique hw ha hb

/-! ## Binary and JSON -/

theorem writeAll_bytes (b : Bytes) (s : Bytes) : writeAll (toBinG vectorWrite (.raw 1)) (b.map fun x => BVal.raw [x]) s = .ok (s ++ b) := by
  induction b generalizing s with
  | nil => simp [writeAll]
  | cons x b ih =>
    rw [List.map_cons, writeAll, toBinG]
    simp only [vectorWrite, bind_ok]
    rw [ih]; simp

theorem readN_bytes (s : Bytes) : ∀ n, readN (fromBin (.raw 1)) n s = if n ≤ s.length then .ok ((s.take n).map fun x => BVal.raw [x], s.drop n) else .error .overrun := by
  intro n
  induction n generalizing s with
  | zero => simp [readN]
  | succ n ih =>
    cases s with
    | nil => simp [readN, fromBin, readBytes]
    | cons x s =>
      have e : fromBin (.raw 1) (x :: s) = .ok (.raw [x], s) := by rw [fromBin]; simp [readBytes]
      rw [readN, e]
      simp only [bind_ok, ih, List.length_cons, List.take_succ_cons, List.drop_succ_cons, List.map_cons]
      by_cases h : n ≤ s.length
      · simp [h, Nat.succ_le_succ h]
      · rw [if_neg h, if_neg (by omega)]; rfl

/-- **C43, binary.** The binary form is the bytes, and reading them gives the value back. -/
theorem c43_binary {size w : Nat} (hw : 0 < w) {v : List Nat} {b : Bytes} (h : Holds size w v b) (s rest : Bytes) :
    fixedToBin vectorWrite size w v s = .ok (s ++ b) ∧ fixedFromBin size w (b ++ rest) = .ok (v, rest) := by
  constructor
  · unfold fixedToBin byteVals
    rw [c43_to_bytes hw h, toBinG]
    exact writeAll_bytes b s
  · unfold fixedFromBin
    rw [fromBin]
    simp only [readN_bytes]
    rw [if_pos (by rw [List.length_append, h.1]; omega)]
    simp only [bind_ok]
    have e : ofByteVals (.list (b.map fun x => .raw [x])) = b := by
      unfold ofByteVals
      clear h
      induction b with
      | nil => rfl
      | cons x b ih => simp only [List.map_cons, List.flatMap_cons] at ih ⊢; rw [ih]; rfl
    rw [List.take_append_of_le_length (by rw [h.1]; omega), List.drop_append_of_le_length (by rw [h.1]; omega), List.take_of_length_le (by rw [h.1]; omega),
      List.drop_of_length_le (by rw [h.1]; omega), e, List.nil_append]
    rw [c43_words_unique hw (c43_from_bytes hw h.1) h]

/-- **C43, binary.** Reading succeeds exactly when there are enough bytes. -/
theorem c43_binary_accepts (size w : Nat) (bin : Bytes) : (∃ r, fixedFromBin size w bin = .ok r) ↔ size ≤ bin.length := by
  unfold fixedFromBin
  rw [fromBin]
  simp only [readN_bytes]
  split
  · rename_i h; simp [h]
  · rename_i h; simp [h]

/-- **C43, hex.** The JSON form is the hex text of the bytes, in quotes, and its text is read back to the value. A text is accepted if
and only if it is the hex text of `size` bytes, and the value then holds these. -/
theorem c43_json {size w : Nat} (hw : 0 < w) {v : List Nat} {b : Bytes} (h : Holds size w v b) :
    fixedToJson size w v = 34 :: hexEncode b ++ [34] ∧ fixedFromJson size w (hexEncode b) = .ok v := by
  refine ⟨by rw [fixedToJson, c43_to_bytes hw h], ?_⟩
  have := (c03_unhex_same (hexEncode b) b).1 (unhexLoop_hexEncode b)
  unfold fixedFromJson
  rw [this]
  simp only [bind_ok, h.1, beq_self_eq_true, check_true]
  rw [c43_words_unique hw (c43_from_bytes hw h.1) h]

theorem c43_json_accepts {size w : Nat} (hw : 0 < w) (t : Bytes) (v : List Nat) :
    fixedFromJson size w t = .ok v ↔ ∃ b, fromJsonHex t = .ok b ∧ Holds size w v b := by
  constructor
  · intro h
    unfold fixedFromJson at h
    obtain ⟨b, h1, h2⟩ := bind_eq_ok.1 h
    obtain ⟨u, h3, h4⟩ := bind_eq_ok.1 h2
    have hl : b.length = size := by simpa using check_eq_ok.1 h3
    cases h4
    exact ⟨b, h1, c43_from_bytes hw hl⟩
  · rintro ⟨b, h1, h2⟩
    unfold fixedFromJson
    rw [h1]
    simp only [bind_ok, h2.1, beq_self_eq_true, check_true]
    rw [c43_words_unique hw (c43_from_bytes hw h2.1) h2]

/-- **C43 and the conversions of ABI types** `checksum160`, `checksum256`, `checksum512`, `float128`: they are these functions. -/
theorem c43_builtin_encode {size w : Nat} (hw : 0 < w) (t : Bytes) :
    encFixed size t = (do let v ← fixedFromJson size w t; fixedToBin vectorWrite size w v []) := by
  unfold encFixed fixedFromJson
  cases h1 : fromJsonHex t with
  | error e => rfl
  | ok b =>
    simp only [bind_ok]
    by_cases hl : b.length = size
    · simp only [hl, beq_self_eq_true, check_true, bind_ok]
      rw [(c43_binary hw (c43_from_bytes hw hl) [] []).1]; rfl
    · rw [show (b.length == size) = false by simpa using hl]; rfl

theorem c43_builtin_decode {size w : Nat} (hw : 0 < w) (bin : Bytes) :
    decFixed size bin = (do let (v, rest) ← fixedFromBin size w bin; .ok (fixedToJson size w v, rest)) := by
  unfold decFixed
  by_cases hl : size ≤ bin.length
  · have ht : (bin.take size).length = size := by rw [List.length_take]; omega
    have := (c43_binary hw (c43_from_bytes hw ht) [] (bin.drop size)).2
    rw [List.take_append_drop] at this
    rw [this]
    simp only [bind_ok, fixedToJson, c43_to_bytes hw (c43_from_bytes hw ht), readBytes, hl, if_true, List.cons_append]
  · unfold fixedFromBin
    rw [fromBin]
    simp only [readN_bytes, if_neg hl, readBytes, bind_error]

/-! ## Cases -/

/-- `checksum160`: twenty bytes in five words of four bytes; and a size with padding. -/
example : Holds 20 4 [0x00010203, 0x04050607, 0x08090a0b, 0x0c0d0e0f, 0x10111213] ((List.range 20).map UInt8.ofNat) :=
  (holds_iff (by decide)).2 ⟨by decide, by decide, by decide, by decide⟩
example : Holds 5 4 [0xff000001, 0x7f000000] [255, 0, 0, 1, 127] := (holds_iff (by decide)).2 ⟨by decide, by decide, by decide, by decide⟩
example : fixedToArray 20 4 8 [0x00010203, 0x04050607, 0x08090a0b, 0x0c0d0e0f, 0x10111213] = [0x0001020304050607, 0x08090a0b0c0d0e0f, 0x1011121300000000] := by decide
example : fixedFromArray 5 4 1 [255, 0, 7] = [0xff000700, 0] := by decide

/-- Without zero padding, `operator==` tells apart values with the same bytes. -/
example : fixedToBytes 5 4 [1, 0x02000000] = fixedToBytes 5 4 [1, 0x02000001] ∧ fixedEq [1, 0x02000000] [1, 0x02000001] = false := by decide

end Abieos
