import Verif.Proofs.Name
import Verif.Model.Murmur
/-! # C04, C05, C06, C45: account names -/
namespace Abieos

/-! ## Specification -/

/-- A text that is a valid name: at most 13 characters, each `.`, `1`-`5` or `a`-`z`, and the 13th (index 12), if
there is one, at most `j`. -/
def Spec.ValidNameText (s : Bytes) : Prop :=
  s.length ≤ 13 ∧
  (∀ c ∈ s, c = '.'.toUInt8 ∨ ('1'.toUInt8 ≤ c ∧ c ≤ '5'.toUInt8) ∨ ('a'.toUInt8 ≤ c ∧ c ≤ 'z'.toUInt8)) ∧
  (∀ c, s[12]? = some c → c ≤ 'j'.toUInt8)

/-- `t` is `s` without its trailing dots. -/
def Spec.StripsDots (s t : Bytes) : Prop := (∃ n, s = t ++ List.replicate n '.'.toUInt8) ∧ t.getLast? ≠ some '.'.toUInt8

/-! ## Helper lemmas -/

theorem digit13 : ∀ c, NameChar c → (charToNameDigit c < 16 ↔ c ≤ 'j'.toUInt8) := by
  apply forall_uint8; decide +kernel

theorem nameFrom_iff : ∀ s i, i + s.length ≤ 13 → (NameFrom i s ↔
    ((∀ c ∈ s, NameChar c) ∧ ∀ c, i ≤ 12 → s[12 - i]? = some c → c ≤ 'j'.toUInt8))
  | [], i, _ => by simp [NameFrom]
  | d :: s, i, h => by
    simp only [List.length_cons] at h
    have ih := nameFrom_iff s (i + 1) (by omega)
    simp only [NameFrom, ih, List.mem_cons, forall_eq_or_imp]
    constructor
    · rintro ⟨h1, h2, h3, h4⟩
      refine ⟨⟨h1, h3⟩, ?_⟩
      intro c hi hc
      by_cases h12 : i = 12
      · subst h12
        simp only [Nat.sub_self, List.getElem?_cons_zero, Option.some.injEq] at hc
        subst hc
        exact (digit13 _ h1).1 (h2 (by omega))
      · rw [show 12 - i = (12 - (i + 1)) + 1 by omega, List.getElem?_cons_succ] at hc
        exact h4 c (by omega) hc
    · rintro ⟨⟨h1, h3⟩, h4⟩
      refine ⟨h1, ?_, h3, ?_⟩
      · intro h12
        have : i = 12 := by omega
        subst this
        exact (digit13 _ h1).2 (h4 d (by omega) (by simp))
      · intro c hi hc
        apply h4 c (by omega)
        rw [show 12 - i = (12 - (i + 1)) + 1 by omega, List.getElem?_cons_succ]
        exact hc

theorem validNameText_iff (s : Bytes) : Spec.ValidNameText s ↔ s.length ≤ 13 ∧ NameFrom 0 s := by
  unfold Spec.ValidNameText
  constructor
  · rintro ⟨h, h1, h2⟩
    refine ⟨h, (nameFrom_iff s 0 (by omega)).2 ⟨h1, fun c _ hc => h2 c hc⟩⟩
  · rintro ⟨h, h1⟩
    obtain ⟨a, b⟩ := (nameFrom_iff s 0 (by omega)).1 h1
    exact ⟨h, a, fun c hc => b c (by omega) hc⟩

theorem stripsDots_trim (s : Bytes) : Spec.StripsDots s (trimDots s) := by
  refine ⟨trimDots_replicate s, ?_⟩
  unfold trimDots
  rw [List.getLast?_reverse]
  intro h
  have := List.head?_dropWhile_not (fun x : UInt8 => x == 46) s.reverse
  rw [h] at this
  revert this
  decide

/-! ## Properties -/

/-- **C04 value → text → value**, through the lenient and the strict parser, for every 64-bit value. -/
theorem c04_name_roundtrip (v : Nat) (hv : v < 2 ^ 64) :
    stringToName (nameToString v) = v ∧ stringToNameStrict (nameToString v) = .ok v := by
  obtain ⟨h1, h2, h3⟩ := nameChars_spec v hv
  have e : stringToName (nameToString v) = v := by
    rw [stringToName_eq, nameToString, nameTail_trimDots]; exact h2
  refine ⟨e, ?_⟩
  obtain ⟨n, hn⟩ := trimDots_replicate (nameChars v)
  have hf : NameFrom 0 (nameToString v) := by
    rw [hn, nameFrom_append] at h1; exact h1.1
  have hl : (nameToString v).length ≤ 13 := by
    have := congrArg List.length hn
    rw [List.length_append] at this
    show (trimDots (nameChars v)).length ≤ 13
    omega
  exact (strictLoop_ok _ 0 0 v (by omega)).2 ⟨by omega, hf, e.symm⟩

/-- **C04 text → value → text**: an accepted text comes back without its trailing dots. -/
theorem c04_text_roundtrip (s : Bytes) (v : Nat) (h : stringToNameStrict s = .ok v) :
    v < 2 ^ 64 ∧ Spec.StripsDots s (nameToString v) := by
  obtain ⟨hl, hf, rfl⟩ := (strictLoop_ok s 0 0 v (by omega)).1 h
  change stringToName s < _ ∧ Spec.StripsDots s (nameToString (stringToName s))
  refine ⟨stringToName_lt s, ?_⟩
  have hp : nameChars (stringToName s) = s ++ List.replicate (13 - s.length) 46 := by
    obtain ⟨h1, h2, h3⟩ := nameChars_spec (stringToName s) (stringToName_lt s)
    apply nameTail_inj h3 (by simp; omega) h1
    · rw [nameFrom_append]; exact ⟨hf, nameFrom_dots _ _⟩
    · rw [h2, nameTail_append_dots, stringToName_eq]
  rw [show nameToString (stringToName s) = trimDots s from by
    rw [show nameToString (stringToName s) = trimDots (nameChars (stringToName s)) from rfl, hp, trimDots_append_dots]]
  exact stripsDots_trim s

/-- **C04 injectivity**: distinct values print differently. -/
theorem c04_name_injective (v w : Nat) (hv : v < 2 ^ 64) (hw : w < 2 ^ 64) (h : nameToString v = nameToString w) :
    v = w := by
  rw [← (c04_name_roundtrip v hv).1, h, (c04_name_roundtrip w hw).1]

/-- **C05 exact acceptance** of the strict parser. -/
theorem c05_strict_accepts_iff (s : Bytes) : (∃ v, stringToNameStrict s = .ok v) ↔ Spec.ValidNameText s := by
  rw [validNameText_iff]
  constructor
  · rintro ⟨v, h⟩
    obtain ⟨hl, hf, _⟩ := (strictLoop_ok s 0 0 v (by omega)).1 h
    exact ⟨by omega, hf⟩
  · rintro ⟨hl, hf⟩
    exact ⟨_, (strictLoop_ok s 0 0 _ (by omega)).2 ⟨by omega, hf, rfl⟩⟩

/-- **C05 agreement**: on every accepted text the lenient converter gives the same value. -/
theorem c05_lenient_agrees (s : Bytes) (v : Nat) (h : stringToNameStrict s = .ok v) : stringToName s = v :=
  ((strictLoop_ok s 0 0 v (by omega)).1 h).2.2.symm

/-- **C05 lenient converter**: always a 64-bit value; a character outside the alphabet counts as `.`;
only the first 13 characters matter. -/
theorem c05_lenient_total (s : Bytes) :
    stringToName s < 2 ^ 64 ∧
    stringToName s = stringToName (s.map fun c => if NameChar c then c else '.'.toUInt8) ∧
    stringToName s = stringToName (s.take 13) := by
  refine ⟨stringToName_lt s, ?_, ?_⟩
  · rw [stringToName_eq, stringToName_eq]
    have hd : ∀ c, charToNameDigit (if NameChar c then c else '.'.toUInt8) = charToNameDigit c := by
      apply forall_uint8; decide +kernel
    have : ∀ s i, nameTail i s = nameTail i (s.map fun c => if NameChar c then c else '.'.toUInt8) := by
      intro s
      induction s with
      | nil => intro i; rfl
      | cons c s ih => intro i; simp only [List.map_cons, nameTail, ih (i + 1), hd]
    exact this s 0
  · rw [stringToName_eq, stringToName_eq]
    have : ∀ s i, i ≤ 12 → nameTail i s = nameTail i (s.take (13 - i)) := by
      intro s
      induction s with
      | nil => intro i _; simp
      | cons c s ih =>
        intro i hi
        rw [show 13 - i = (12 - i) + 1 by omega, List.take_succ_cons]
        simp only [nameTail]
        by_cases h : i < 12
        · simp only [h, if_true]
          rw [ih (i + 1) (by omega), show 13 - (i + 1) = 12 - i by omega]
        · simp [h]
    exact this s 0 (by omega)

/-- **C06**: numeric order of names is the lexicographic order of their texts (as `std::string`s). -/
theorem c06_name_order (v w : Nat) (hv : v < 2 ^ 64) (hw : w < 2 ^ 64) : v < w ↔ nameToString v < nameToString w := by
  obtain ⟨h1, h2, h3⟩ := nameChars_spec v hv
  obtain ⟨k1, k2, k3⟩ := nameChars_spec w hw
  have a := nameTail_lt_iff (nameChars v) (nameChars w) 0 (by omega) (by omega) h1 k1
  rw [h2, k2] at a
  rw [a]
  exact (trimDots_lt_iff _ _ (by omega) (nameFrom_ge _ _ h1) (nameFrom_ge _ _ k1)).symm

/-- **C06 on valid texts**: comparing parsed values is comparing the dot-padded texts. -/
theorem c06_text_order (s t : Bytes) (v w : Nat) (hs : stringToNameStrict s = .ok v) (ht : stringToNameStrict t = .ok w) :
    v < w ↔ s ++ List.replicate (13 - s.length) '.'.toUInt8 < t ++ List.replicate (13 - t.length) '.'.toUInt8 := by
  obtain ⟨hl, hf, rfl⟩ := (strictLoop_ok s 0 0 v (by omega)).1 hs
  obtain ⟨hl', hf', rfl⟩ := (strictLoop_ok t 0 0 w (by omega)).1 ht
  change stringToName s < stringToName t ↔ _
  rw [stringToName_eq, stringToName_eq, ← nameTail_append_dots s 0 (13 - s.length), ← nameTail_append_dots t 0 (13 - t.length)]
  apply nameTail_lt_iff
  · simp; omega
  · simp; omega
  · rw [nameFrom_append]; exact ⟨hf, nameFrom_dots _ _⟩
  · rw [nameFrom_append]; exact ⟨hf', nameFrom_dots _ _⟩

/-- **C45**: reading a name from a JSON string never fails: `hashName` is a total function to 64-bit values, which on
valid names is the name's value (so it reads back what `name_to_string` prints) and otherwise depends on the text only. -/
theorem c45_hash_name (s : Bytes) :
    hashName s < 2 ^ 64 ∧
    (Spec.ValidNameText s → stringToNameStrict s = .ok (hashName s)) ∧
    (∀ v, v < 2 ^ 64 → hashName (nameToString v) = v) := by
  refine ⟨?_, ?_, ?_⟩
  · unfold hashName
    split
    · rename_i v h
      rw [← c05_lenient_agrees s v h]; exact stringToName_lt s
    · exact (murmur64 s).toNat_lt
  · intro h
    obtain ⟨v, hv⟩ := (c05_strict_accepts_iff s).2 h
    simp [hashName, hv]
  · intro v hv
    simp [hashName, (c04_name_roundtrip v hv).2]

/-! Examples. -/
example : stringToNameStrict (str "eosio.token") = .ok 6138663591592764928 := by decide +kernel
example : nameToString 6138663591592764928 = str "eosio.token" := by decide +kernel
example : stringToNameStrict (str "zzzzzzzzzzzzj") = .ok (2 ^ 64 - 1) := by decide +kernel
example : stringToNameStrict (str "zzzzzzzzzzzzk") = .error .invalid_name_char13 := by decide +kernel
example : stringToNameStrict (str "a..") = .ok 3458764513820540928 ∧ nameToString 3458764513820540928 = str "a" := by decide +kernel
example : Spec.ValidNameText (str "abc.12345.zzj") :=
  (c05_strict_accepts_iff _).1 ⟨_, rfl⟩
example : ¬ Spec.ValidNameText (str "UPPER") := fun h => by
  obtain ⟨v, hv⟩ := (c05_strict_accepts_iff _).2 h
  have : stringToNameStrict (str "UPPER") = .error .invalid_name_char := by decide +kernel
  simp [this] at hv

end Abieos
