import Verif.Spec.JsonGrammar
import Verif.Proofs.NumberText
import Verif.Proofs.Utf8
/-! The reader reads exactly the texts of the grammar. -/
namespace Abieos
open Spec Reader

/-! ## The grammar's texts are read -/

theorem utf8Bytes_eq (n : Nat) : utf8Bytes n = utf8Encode n := rfl

theorem hexDigit_iff (c : UInt8) (n : Nat) : unhexDigit c = some n ↔ HexDigit c n := by
  unfold unhexDigit HexDigit
  have := c.toNat_lt
  simp only [u8_le, show (48 : UInt8).toNat = 48 from rfl, show (57 : UInt8).toNat = 57 from rfl, show (97 : UInt8).toNat = 97 from rfl,
    show (102 : UInt8).toNat = 102 from rfl, show (65 : UInt8).toNat = 65 from rfl, show (70 : UInt8).toNat = 70 from rfl]
  split
  · simp only [Option.some.injEq]; omega
  · split
    · simp only [Option.some.injEq]; omega
    · split
      · simp only [Option.some.injEq]; omega
      · simp only [reduceCtorEq, false_iff]; omega

theorem hex4_read {t r : Bytes} {n : Nat} (h : Hex4 t n) : hex4 (t ++ r) = some (n, r) := by
  obtain ⟨a, b, c, d, na, nb, nc, nd, rfl, ha, hb, hc, hd, rfl⟩ := h
  simp only [← hexDigit_iff] at ha hb hc hd
  simp only [List.cons_append, List.nil_append, hex4, ha, hb, hc, hd]
  simp only [Option.pure_def, Option.bind_eq_bind, Option.bind_some, Option.some.injEq, Prod.mk.injEq, and_true]
  omega

theorem hex4_sound {s r : Bytes} {n : Nat} (h : hex4 s = some (n, r)) : ∃ t, s = t ++ r ∧ Hex4 t n := by
  match s with
  | a :: b :: c :: d :: s =>
    simp only [hex4, Option.pure_def, Option.bind_eq_bind, Option.bind_eq_some_iff] at h
    obtain ⟨na, ha, nb, hb, nc, hc, nd, hd, h⟩ := h
    simp only [Option.some.injEq, Prod.mk.injEq] at h
    obtain ⟨h, rfl⟩ := h
    exact ⟨[a, b, c, d], rfl, a, b, c, d, na, nb, nc, nd, rfl, (hexDigit_iff _ _).1 ha, (hexDigit_iff _ _).1 hb, (hexDigit_iff _ _).1 hc,
      (hexDigit_iff _ _).1 hd, by omega⟩
  | [] => simp [hex4] at h
  | [_] => simp [hex4] at h
  | [_, _] => simp [hex4] at h
  | [_, _, _] => simp [hex4] at h

theorem charText_pos {t : Bytes} {n : Nat} (h : CharText t n) : 0 < t.length := by
  cases h with
  | unescaped => exact utf8Encode_pos n
  | _ => simp

theorem utf8Encode_head {n : Nat} (h1 : 32 ≤ n) (h2 : n ≠ 34) (h3 : n ≠ 92) (h4 : IsScalarValue n) :
    ∃ c s, utf8Encode n = c :: s ∧ c ≠ 34 ∧ c ≠ 92 ∧ ¬ c < 32 := by
  unfold IsScalarValue at h4
  unfold utf8Encode
  have key : ∀ m : Nat, m < 256 → 32 ≤ m → m ≠ 34 → m ≠ 92 → UInt8.ofNat m ≠ 34 ∧ UInt8.ofNat m ≠ 92 ∧ ¬ UInt8.ofNat m < 32 := by
    intro m hm h32 ha hb
    have e : (UInt8.ofNat m).toNat = m := by rw [UInt8.toNat_ofNat']; omega
    refine ⟨?_, ?_, ?_⟩
    · rw [ne_eq, u8_eq, e]; exact ha
    · rw [ne_eq, u8_eq, e]; exact hb
    · rw [u8_lt, e]; show ¬ m < 32; omega
  split
  · exact ⟨_, _, rfl, key n (by omega) h1 h2 h3⟩
  · split
    · exact ⟨_, _, rfl, key _ (by omega) (by omega) (by omega) (by omega)⟩
    · split
      · exact ⟨_, _, rfl, key _ (by omega) (by omega) (by omega) (by omega)⟩
      · exact ⟨_, _, rfl, key _ (by omega) (by omega) (by omega) (by omega)⟩

theorem simple_read : ∀ p ∈ simpleEscapes, ∀ r : Bytes, escape (p.1 :: r) = some (utf8Encode p.2.toNat, r) := by
  intro p hp r
  simp only [simpleEscapes, List.mem_cons, List.not_mem_nil, or_false] at hp
  rcases hp with rfl | rfl | rfl | rfl | rfl | rfl | rfl | rfl <;> rfl

theorem chars_charText {t r s x : Bytes} {n k : Nat} (h : CharText t n) (hr : chars k r = some (s, x)) :
    chars (k + 1) (t ++ r) = some (utf8Encode n ++ s, x) := by
  cases h with
  | unescaped _ h1 h2 h3 h4 =>
    rw [utf8Bytes_eq]
    have hs := utf8Seq_encode h4 r
    obtain ⟨c, u, he, hc1, hc2, hc3⟩ := utf8Encode_head h1 h2 h3 h4
    rw [he, List.cons_append] at hs
    rw [he, List.cons_append]
    rw [chars.eq_def]
    simp only [hc1, hc2, hc3, hs, if_false]
    have e1 : (c :: (u ++ r)).drop (c :: u).length = r := by simp
    have e2 : (c :: (u ++ r)).take (c :: u).length = c :: u := by simp
    rw [e1, e2, hr]
  | simple e c hm =>
    exact chars_escape (simple_read _ hm r) hr
  | @unicode t _ ht hn =>
    refine chars_escape ?_ hr
    rw [show (117 :: t).append r = 117 :: (t ++ r) from rfl]
    simp only [escape, hex4_read ht]
    rw [if_neg (by omega)]
  | @pair t t' hi lo ht ht' h1 h2 h3 h4 =>
    refine chars_escape ?_ hr
    rw [show (117 :: (t ++ 92 :: 117 :: t')).append r = 117 :: (t ++ 92 :: 117 :: (t' ++ r)) by simp [List.append_eq]]
    simp only [escape, hex4_read ht]
    rw [if_pos (by omega), if_pos (by omega)]
    simp only [hex4_read ht']
    rw [if_pos (by omega)]

theorem chars_charsText {b s : Bytes} (h : CharsText b s) : ∀ n, b.length < n → ∀ x, chars n (b ++ 34 :: x) = some (s, x) := by
  induction h with
  | nil =>
    intro n hn x
    obtain ⟨n, rfl⟩ : ∃ m, n = m + 1 := ⟨n - 1, by simp at hn; omega⟩
    rw [chars.eq_def]; simp
  | @cons t r s m h1 h2 ih =>
    intro n hn x
    have := charText_pos h1
    simp only [List.length_append] at hn
    obtain ⟨n, rfl⟩ : ∃ m, n = m + 1 := ⟨n - 1, by omega⟩
    rw [List.append_assoc, utf8Bytes_eq]
    exact chars_charText h1 (ih n (by omega) x)

theorem skipWs_ws {w s : Bytes} (h : IsWs w) : skipWs (w ++ s) = skipWs s := by
  induction w with
  | nil => rfl
  | cons c w ih =>
    rw [List.cons_append, skipWs, if_pos (h c (by simp)), ih fun x hx => h x (by simp [hx])]

theorem delim_ws {w r : Bytes} (h : IsWs w) (hr : Delim r) : Delim (w ++ r) := by
  cases w with
  | nil => exact hr
  | cons c w =>
    intro d hd
    simp only [List.cons_append, List.head?_cons, Option.some.injEq] at hd
    subst hd
    have := h c (by simp)
    grind

theorem value_ws {n : Nat} {w s : Bytes} (h : IsWs w) : value n (w ++ s) = value n s := by
  rw [← value_skipWs, skipWs_ws h, value_skipWs]

/-- the first byte of a value -/
theorem jsonText_head {t : Bytes} {v : JVal} (h : JsonText t v) : ∃ c s, t = c :: s ∧ c ≠ 93 ∧ c ≠ 125 ∧ ¬ (c = 32 ∨ c = 9 ∨ c = 10 ∨ c = 13) := by
  cases h with
  | number h =>
    obtain ⟨c, s, rfl, hc⟩ := jsonNumber_head h
    refine ⟨c, s, rfl, ?_⟩
    rcases hc with rfl | hc
    · decide
    · clear h; revert hc; revert c; apply forall_uint8; decide +kernel
  | string h => obtain ⟨b, -, rfl⟩ := h; exact ⟨34, _, rfl, by decide⟩
  | _ => exact ⟨_, _, rfl, by decide⟩

theorem jsonText_pos {t : Bytes} {v : JVal} (h : JsonText t v) : 0 < t.length := by
  obtain ⟨c, s, rfl, -⟩ := jsonText_head h; simp

theorem stringText_read {k s x : Bytes} (h : StringText k s) : ∃ b, k = 34 :: b ∧ ∀ n, k.length < n + 2 → chars n (b ++ x) = some (s, x) := by
  obtain ⟨b, hb, rfl⟩ := h
  refine ⟨b ++ [34], rfl, fun n hn => ?_⟩
  rw [List.append_assoc]
  exact chars_charsText hb n (by simp at hn; omega) x

theorem skipWs_delim {w r : Bytes} {c : UInt8} (h : IsWs w) (hc : ¬ (c = 32 ∨ c = 9 ∨ c = 10 ∨ c = 13)) : skipWs (w ++ c :: r) = c :: r := by
  rw [skipWs_ws h, skipWs_cons hc]

theorem value_array {n : Nat} {x r : Bytes} {l : List JVal} (h : elems n x = some (l, r)) (hx : ∀ y, skipWs x ≠ 93 :: y) :
    value (n + 1) (91 :: x) = some (.arr l, r) := by
  rw [value, skipWs_cons (by decide)]
  simp only
  cases hs : skipWs x with
  | nil => rw [← hs]; simp only [elems_skipWs, h]
  | cons c y =>
    have hc : c ≠ 93 := by rintro rfl; exact hx y hs
    have he : elems n (c :: y) = some (l, r) := by rw [← hs, elems_skipWs, h]
    simp only [he]

theorem members_skipWs (n : Nat) (s : Bytes) : members n (skipWs s) = members n s := by
  cases n with
  | zero => rfl
  | succ n => rw [members, members, skipWs_idem]

theorem value_object {n : Nat} {x r : Bytes} {l : List (Bytes × JVal)} (h : members n x = some (l, r)) (hx : ∀ y, skipWs x ≠ 125 :: y) :
    value (n + 1) (123 :: x) = some (.obj l, r) := by
  rw [value, skipWs_cons (by decide)]
  simp only
  cases hs : skipWs x with
  | nil => rw [← hs]; simp only [members_skipWs, h]
  | cons c y =>
    have hc : c ≠ 125 := by rintro rfl; exact hx y hs
    have he : members n (c :: y) = some (l, r) := by rw [← hs, members_skipWs, h]
    simp only [he]

theorem elementsText_head {t r : Bytes} {l : List JVal} (h : ElementsText t l) : ∀ y, skipWs (t ++ r) ≠ 93 :: y := by
  intro y
  cases h with
  | last hw ht hw' | more hw ht hw' =>
    obtain ⟨c, s, rfl, h1, -, h2⟩ := jsonText_head ht
    simp only [List.append_assoc, List.cons_append]
    rw [skipWs_delim hw h2]
    intro h; simp at h; exact h1 h.1

theorem membersTextG_head {t r : Bytes} {l : List (Bytes × JVal)} (h : MembersTextG t l) : ∀ y, skipWs (t ++ r) ≠ 125 :: y := by
  intro y
  cases h with
  | last hw hk | more hw hk =>
    obtain ⟨b, -, rfl⟩ := hk
    simp only [List.append_assoc, List.cons_append]
    rw [skipWs_delim hw (by decide)]
    simp

mutual

theorem value_jsonText {t : Bytes} {v : JVal} : (h : JsonText t v) → ∀ r, Delim r → ∀ n, 2 * t.length < n → value n (t ++ r) = some (v, r)
  | .null, r, hr, n, hn => by
    obtain ⟨n, rfl⟩ : ∃ m, n = m + 1 := ⟨n - 1, by omega⟩
    rw [value]; rfl
  | .true, r, hr, n, hn => by
    obtain ⟨n, rfl⟩ : ∃ m, n = m + 1 := ⟨n - 1, by omega⟩
    rw [value]; rfl
  | .false, r, hr, n, hn => by
    obtain ⟨n, rfl⟩ : ∃ m, n = m + 1 := ⟨n - 1, by omega⟩
    rw [value]; rfl
  | .number h, r, hr, n, hn => (reads_number h).2.2 r hr n hn
  | .string h, r, hr, n, hn => by
    obtain ⟨n, rfl⟩ : ∃ m, n = m + 1 := ⟨n - 1, by omega⟩
    obtain ⟨b, rfl, hb⟩ := stringText_read (x := r) h
    rw [value, List.cons_append, skipWs_cons (by decide)]
    simp only
    rw [hb _ (by simp; omega)]
  | .emptyArray hw, r, hr, n, hn => by
    obtain ⟨n, rfl⟩ : ∃ m, n = m + 1 := ⟨n - 1, by omega⟩
    rw [value]
    simp only [List.cons_append, List.append_assoc, List.nil_append]
    rw [skipWs_cons (by decide)]
    simp only
    rw [skipWs_delim hw (by decide)]
    rfl
  | .array h, r, hr, n, hn => by
    obtain ⟨n, rfl⟩ : ∃ m, n = m + 1 := ⟨n - 1, by omega⟩
    simp only [List.cons_append, List.append_assoc, List.nil_append]
    exact value_array (elems_elementsText h r n (by simp at hn; omega)) (elementsText_head h)
  | .emptyObject hw, r, hr, n, hn => by
    obtain ⟨n, rfl⟩ : ∃ m, n = m + 1 := ⟨n - 1, by omega⟩
    rw [value]
    simp only [List.cons_append, List.append_assoc, List.nil_append]
    rw [skipWs_cons (by decide)]
    simp only
    rw [skipWs_delim hw (by decide)]
    rfl
  | .object h, r, hr, n, hn => by
    obtain ⟨n, rfl⟩ : ∃ m, n = m + 1 := ⟨n - 1, by omega⟩
    simp only [List.cons_append, List.append_assoc, List.nil_append]
    exact value_object (members_membersTextG h r n (by simp at hn; omega)) (membersTextG_head h)

theorem elems_elementsText {t : Bytes} {l : List JVal} : (h : ElementsText t l) → ∀ r n, 2 * t.length + 1 < n → elems n (t ++ 93 :: r) = some (l, r)
  | @ElementsText.last w t w' v hw ht hw', r, n, hn => by
    obtain ⟨n, rfl⟩ : ∃ m, n = m + 1 := ⟨n - 1, by omega⟩
    simp only [List.length_append] at hn
    rw [elems]
    simp only [List.append_assoc]
    rw [value_ws hw, value_jsonText ht (w' ++ 93 :: r) (delim_ws hw' (by simp [Delim])) n (by omega)]
    simp only
    rw [skipWs_delim hw' (by decide)]
    rfl
  | @ElementsText.more w t w' u v l hw ht hw' hu, r, n, hn => by
    obtain ⟨n, rfl⟩ : ∃ m, n = m + 1 := ⟨n - 1, by omega⟩
    simp only [List.length_append, List.length_cons] at hn
    rw [elems]
    simp only [List.append_assoc, List.cons_append]
    rw [value_ws hw, value_jsonText ht (w' ++ 44 :: (u ++ 93 :: r)) (delim_ws hw' (by simp [Delim])) n (by omega)]
    simp only
    rw [skipWs_delim hw' (by decide)]
    simp only
    rw [elems_elementsText hu r n (by omega)]

theorem members_membersTextG {t : Bytes} {l : List (Bytes × JVal)} : (h : MembersTextG t l) → ∀ r n, 2 * t.length + 1 < n →
    members n (t ++ 125 :: r) = some (l, r)
  | @MembersTextG.last w k w1 w2 t w' s v hw hk hw1 hw2 ht hw', r, n, hn => by
    obtain ⟨n, rfl⟩ : ∃ m, n = m + 1 := ⟨n - 1, by omega⟩
    simp only [List.length_append, List.length_cons] at hn
    rw [members]
    simp only [List.append_assoc, List.cons_append]
    rw [skipWs_ws hw]
    obtain ⟨b, rfl, hb⟩ := stringText_read (x := w1 ++ 58 :: (w2 ++ (t ++ (w' ++ 125 :: r)))) hk
    rw [List.cons_append, skipWs_cons (by decide)]
    simp only
    rw [hb _ (by simp; omega)]
    simp only
    rw [skipWs_delim hw1 (by decide)]
    simp only
    rw [value_ws hw2, value_jsonText ht (w' ++ 125 :: r) (delim_ws hw' (by simp [Delim])) n (by omega)]
    simp only
    rw [skipWs_delim hw' (by decide)]
    rfl
  | @MembersTextG.more w k w1 w2 t w' u s v l hw hk hw1 hw2 ht hw' hu, r, n, hn => by
    obtain ⟨n, rfl⟩ : ∃ m, n = m + 1 := ⟨n - 1, by omega⟩
    simp only [List.length_append, List.length_cons] at hn
    rw [members]
    simp only [List.append_assoc, List.cons_append]
    rw [skipWs_ws hw]
    obtain ⟨b, rfl, hb⟩ := stringText_read (x := w1 ++ 58 :: (w2 ++ (t ++ (w' ++ 44 :: (u ++ 125 :: r))))) hk
    rw [List.cons_append, skipWs_cons (by decide)]
    simp only
    rw [hb _ (by simp; omega)]
    simp only
    rw [skipWs_delim hw1 (by decide)]
    simp only
    rw [value_ws hw2, value_jsonText ht (w' ++ 44 :: (u ++ 125 :: r)) (delim_ws hw' (by simp [Delim])) n (by omega)]
    simp only
    rw [skipWs_delim hw' (by decide)]
    simp only
    rw [members_membersTextG hu r n (by omega)]

end

/-! ## What is read is in the grammar -/

theorem skipWs_sound (s : Bytes) : ∃ w, IsWs w ∧ s = w ++ skipWs s := by
  induction s with
  | nil => exact ⟨[], by simp [IsWs], rfl⟩
  | cons c s ih =>
    rw [skipWs]; split
    · rename_i h
      obtain ⟨w, hw, e⟩ := ih
      refine ⟨c :: w, ?_, by rw [List.cons_append, ← e]⟩
      intro x hx
      rcases List.mem_cons.1 hx with rfl | hx
      · exact h
      · exact hw x hx
    · exact ⟨[], by simp [IsWs], rfl⟩

theorem simple_case {l c : UInt8} {s e r : Bytes} (hm : (l, c) ∈ simpleEscapes) (h : some ([c], s) = some (e, r)) :
    (∃ l' c', (l', c') ∈ simpleEscapes ∧ l :: s = l' :: r ∧ e = utf8Encode c'.toNat) ∨ ∃ s', l :: s = 117 :: s' := by
  simp only [Option.some.injEq, Prod.mk.injEq] at h
  obtain ⟨rfl, rfl⟩ := h
  have key : ∀ p ∈ simpleEscapes, utf8Encode p.2.toNat = [p.2] := by decide
  exact .inl ⟨l, c, hm, rfl, (key _ hm).symm⟩

theorem simple_sound {s e r : Bytes} (h : escape s = some (e, r)) :
    (∃ l c, (l, c) ∈ simpleEscapes ∧ s = l :: r ∧ e = utf8Encode c.toNat) ∨ ∃ s', s = 117 :: s' := by
  unfold escape at h
  split at h
  · exact simple_case (by decide) h
  · exact simple_case (by decide) h
  · exact simple_case (by decide) h
  · exact simple_case (by decide) h
  · exact simple_case (by decide) h
  · exact simple_case (by decide) h
  · exact simple_case (by decide) h
  · exact simple_case (by decide) h
  · exact .inr ⟨_, rfl⟩
  · simp at h

theorem escape_sound {s e r : Bytes} (h : escape s = some (e, r)) : ∃ t n, s = t ++ r ∧ e = utf8Encode n ∧ CharText (92 :: t) n := by
  rcases simple_sound h with ⟨l, c, hm, rfl, rfl⟩ | ⟨s, rfl⟩
  · exact ⟨[l], _, rfl, rfl, .simple l c hm⟩
  · simp only [escape] at h
    split at h
    · simp at h
    · rename_i hi s1 h4
      obtain ⟨t, rfl, ht⟩ := hex4_sound h4
      split at h
      · split at h
        · rename_i h1 h2
          split at h
          · rename_i s2
            split at h
            · rename_i lo s3 h4'
              obtain ⟨t', rfl, ht'⟩ := hex4_sound h4'
              split at h
              · rename_i h3
                simp only [Option.some.injEq, Prod.mk.injEq] at h
                obtain ⟨rfl, rfl⟩ := h
                exact ⟨117 :: (t ++ 92 :: 117 :: t'), _, by simp, rfl, .pair ht ht' h1.1 h2 h3.1 h3.2⟩
              · simp at h
            · simp at h
          · simp at h
        · simp at h
      · rename_i h1
        simp only [Option.some.injEq, Prod.mk.injEq] at h
        obtain ⟨rfl, rfl⟩ := h
        exact ⟨117 :: t, _, rfl, rfl, .unicode ht (by omega)⟩

theorem utf8Encode_of_head {n : Nat} {c : UInt8} {s : Bytes} (h : utf8Encode n = c :: s) (h1 : c ≠ 34) (h2 : c ≠ 92) (h3 : ¬ c < 32) :
    32 ≤ n ∧ n ≠ 34 ∧ n ≠ 92 := by
  by_cases hn : n < 128
  · rw [utf8Encode, if_pos hn] at h
    simp only [List.cons.injEq] at h
    obtain ⟨rfl, -⟩ := h
    have e : (UInt8.ofNat n).toNat = n := by rw [UInt8.toNat_ofNat']; omega
    rw [ne_eq, u8_eq, e] at h1 h2
    rw [u8_lt, e] at h3
    exact ⟨by have : ¬ n < 32 := h3; omega, h1, h2⟩
  · omega

theorem chars_sound : ∀ (n : Nat) (s d r : Bytes), chars n s = some (d, r) → ∃ b, s = b ++ 34 :: r ∧ CharsText b d := by
  intro n
  induction n with
  | zero => intro s d r h; simp [chars] at h
  | succ n ih =>
    intro s d r h
    cases s with
    | nil => simp [chars] at h
    | cons c s =>
      rw [chars.eq_def] at h
      simp only at h
      split at h
      · rename_i hc; subst hc
        simp only [Option.some.injEq, Prod.mk.injEq] at h
        obtain ⟨rfl, rfl⟩ := h
        exact ⟨[], rfl, .nil⟩
      · rename_i h34
        split at h
        · rename_i hc; subst hc
          split at h
          · rename_i e s1 he
            obtain ⟨t, m, rfl, rfl, ht⟩ := escape_sound he
            split at h
            · rename_i d' s2 hd
              simp only [Option.some.injEq, Prod.mk.injEq] at h
              obtain ⟨rfl, rfl⟩ := h
              obtain ⟨b, rfl, hb⟩ := ih _ _ _ hd
              exact ⟨92 :: t ++ b, by simp, .cons ht hb⟩
            · simp at h
          · simp at h
        · rename_i h92
          split at h
          · simp at h
          · rename_i h32
            split at h
            · rename_i k hk
              split at h
              · rename_i d' s2 hd
                simp only [Option.some.injEq, Prod.mk.injEq] at h
                obtain ⟨rfl, rfl⟩ := h
                obtain ⟨b, hb1, hb⟩ := ih _ _ _ hd
                obtain ⟨cp, hcp, htake⟩ := encode_of_utf8Seq hk
                have hsplit : c :: s = utf8Encode cp ++ (b ++ 34 :: s2) := by
                  rw [← htake, ← hb1, List.take_append_drop]
                obtain ⟨c', u, hu⟩ : ∃ c' u, utf8Encode cp = c' :: u := by
                  have := utf8Encode_pos cp
                  cases hx : utf8Encode cp with
                  | nil => rw [hx] at this; simp at this
                  | cons a u => exact ⟨a, u, rfl⟩
                have hcc : c' = c := by rw [hu] at hsplit; simp at hsplit; exact hsplit.1.symm
                subst hcc
                obtain ⟨g1, g2, g3⟩ := utf8Encode_of_head hu h34 h92 h32
                refine ⟨utf8Encode cp ++ b, by rw [hsplit, List.append_assoc], ?_⟩
                rw [htake]
                exact .cons (.unescaped cp g1 g2 g3 hcp) hb
              · simp at h
            · simp at h

theorem digits_sound : ∀ s : Bytes, s = (digits s).1 ++ (digits s).2 ∧ ∀ c ∈ (digits s).1, IsDigit c
  | [] => ⟨rfl, by simp [digits]⟩
  | c :: s => by
    obtain ⟨h1, h2⟩ := digits_sound s
    rw [digits]
    split
    · rename_i h
      refine ⟨by simp only [List.cons_append]; rw [← h1], ?_⟩
      intro x hx
      rcases List.mem_cons.1 hx with rfl | hx
      · exact (isDigit_iff _).1 h
      · exact h2 x hx
    · exact ⟨rfl, by simp⟩

theorem number_sound {s t r : Bytes} (h : number s = some (t, r)) : s = t ++ r ∧ JsonNumber t := by
  unfold number at h
  simp only at h
  have hsign : s = (signPart s).1 ++ (signPart s).2 ∧ ((signPart s).1 = [] ∨ (signPart s).1 = [45]) := by
    cases s with
    | nil => simp [signPart]
    | cons c s =>
      rw [signPart]; split
      · rename_i hc; subst hc; simp
      · simp
  obtain ⟨hi1, hi2⟩ := digits_sound (signPart s).2
  generalize hI : (digits (signPart s).2).1 = int at *
  generalize hR : (digits (signPart s).2).2 = s1 at *
  split at h
  · simp at h
  · rename_i hint
    split at h
    · simp at h
    · rename_i frac s2 hf
      have hfrac : s1 = frac ++ s2 ∧ (frac = [] ∨ ∃ d, Digits d ∧ frac = 46 :: d) := by
        cases s1 with
        | nil => simp [fracPart] at hf; simp [hf]
        | cons c s1 =>
          rw [fracPart] at hf
          obtain ⟨hd1, hd2⟩ := digits_sound s1
          split at hf
          · rename_i hc; subst hc
            split at hf
            · simp at hf
            · rename_i hne
              simp only [Option.some.injEq, Prod.mk.injEq] at hf
              obtain ⟨rfl, rfl⟩ := hf
              exact ⟨by rw [List.cons_append, ← hd1], Or.inr ⟨_, ⟨hne, hd2⟩, rfl⟩⟩
          · simp only [Option.some.injEq, Prod.mk.injEq] at hf
            obtain ⟨rfl, rfl⟩ := hf
            exact ⟨rfl, Or.inl rfl⟩
      split at h
      · simp at h
      · rename_i e s3 he
        simp only [Option.some.injEq, Prod.mk.injEq] at h
        obtain ⟨rfl, rfl⟩ := h
        have hexp : s2 = e ++ s3 ∧ (e = [] ∨ ∃ x sg d, (x = 101 ∨ x = 69) ∧ (sg = [] ∨ sg = [43] ∨ sg = [45]) ∧ Digits d ∧ e = x :: (sg ++ d)) := by
          cases s2 with
          | nil => simp [expPart] at he; simp [he]
          | cons c s2 =>
            rw [expPart] at he
            split at he
            · rename_i hc
              have hsg : s2 = (expSign s2).1 ++ (expSign s2).2 ∧ ((expSign s2).1 = [] ∨ (expSign s2).1 = [43] ∨ (expSign s2).1 = [45]) := by
                cases s2 with
                | nil => simp [expSign]
                | cons c' s2 =>
                  rw [expSign]; split
                  · rename_i hc'; rcases hc' with rfl | rfl <;> simp
                  · simp
              obtain ⟨hd1, hd2⟩ := digits_sound (expSign s2).2
              split at he
              · simp at he
              · rename_i hne
                simp only [Option.some.injEq, Prod.mk.injEq] at he
                obtain ⟨rfl, rfl⟩ := he
                exact ⟨by rw [List.cons_append, List.append_assoc, ← hd1, ← hsg.1], Or.inr ⟨_, _, _, hc, hsg.2, ⟨hne, hd2⟩, rfl⟩⟩
            · simp only [Option.some.injEq, Prod.mk.injEq] at he
              obtain ⟨rfl, rfl⟩ := he
              exact ⟨rfl, Or.inl rfl⟩
        refine ⟨?_, (signPart s).1, int, frac, e, by simp [List.append_assoc], hsign.2, ⟨fun hn => hint (Or.inl hn), hi2⟩, ?_, hfrac.2, hexp.2⟩
        · conv_lhs => rw [hsign.1, hi1, hfrac.1, hexp.1]
          simp [List.append_assoc]
        · intro h48
          by_contra hl
          exact hint (Or.inr ⟨h48, hl⟩)

theorem read_sound : ∀ n : Nat,
    (∀ s v r, value n s = some (v, r) → ∃ w t, s = w ++ (t ++ r) ∧ IsWs w ∧ JsonText t v) ∧
    (∀ s l r, elems n s = some (l, r) → ∃ t, s = t ++ 93 :: r ∧ ElementsText t l) ∧
    (∀ s l r, members n s = some (l, r) → ∃ t, s = t ++ 125 :: r ∧ MembersTextG t l) := by
  intro n
  induction n with
  | zero => simp [value, elems, members]
  | succ n ih =>
    obtain ⟨ihv, ihe, ihm⟩ := ih
    refine ⟨?_, ?_, ?_⟩
    · intro s v r h
      obtain ⟨w, hw, hs⟩ := skipWs_sound s
      rw [value] at h
      suffices ∃ t, skipWs s = t ++ r ∧ JsonText t v by
        obtain ⟨t, ht, h2⟩ := this
        exact ⟨w, t, by rw [← ht, ← hs], hw, h2⟩
      generalize skipWs s = x at h
      clear hs hw w
      split at h
      · simp at h
      · simp only [Option.some.injEq, Prod.mk.injEq] at h; obtain ⟨rfl, rfl⟩ := h; exact ⟨_, rfl, .null⟩
      · simp only [Option.some.injEq, Prod.mk.injEq] at h; obtain ⟨rfl, rfl⟩ := h; exact ⟨_, rfl, .true⟩
      · simp only [Option.some.injEq, Prod.mk.injEq] at h; obtain ⟨rfl, rfl⟩ := h; exact ⟨_, rfl, .false⟩
      · split at h
        · rename_i hc
          simp only [Option.some.injEq, Prod.mk.injEq] at h; obtain ⟨rfl, rfl⟩ := h
          obtain ⟨b, rfl, hb⟩ := chars_sound _ _ _ _ hc
          exact ⟨34 :: (b ++ [34]), by simp, .string ⟨b, hb, rfl⟩⟩
        · simp at h
      · rename_i s1
        obtain ⟨w, hw, hs⟩ := skipWs_sound s1
        split at h
        · rename_i s2 heq
          simp only [Option.some.injEq, Prod.mk.injEq] at h; obtain ⟨rfl, rfl⟩ := h
          rw [heq] at hs
          exact ⟨91 :: (w ++ [93]), by rw [hs]; simp, .emptyArray hw⟩
        · split at h
          · rename_i hl
            simp only [Option.some.injEq, Prod.mk.injEq] at h; obtain ⟨rfl, rfl⟩ := h
            rw [elems_skipWs] at hl
            obtain ⟨t, rfl, ht⟩ := ihe _ _ _ hl
            exact ⟨91 :: (t ++ [93]), by simp, .array ht⟩
          · simp at h
      · rename_i s1
        obtain ⟨w, hw, hs⟩ := skipWs_sound s1
        split at h
        · rename_i s2 heq
          simp only [Option.some.injEq, Prod.mk.injEq] at h; obtain ⟨rfl, rfl⟩ := h
          rw [heq] at hs
          exact ⟨123 :: (w ++ [125]), by rw [hs]; simp, .emptyObject hw⟩
        · split at h
          · rename_i hl
            simp only [Option.some.injEq, Prod.mk.injEq] at h; obtain ⟨rfl, rfl⟩ := h
            rw [members_skipWs] at hl
            obtain ⟨t, rfl, ht⟩ := ihm _ _ _ hl
            exact ⟨123 :: (t ++ [125]), by simp, .object ht⟩
          · simp at h
      · split at h
        · rename_i hl
          simp only [Option.some.injEq, Prod.mk.injEq] at h; obtain ⟨rfl, rfl⟩ := h
          obtain ⟨h1, h2⟩ := number_sound hl
          exact ⟨_, h1, .number h2⟩
        · simp at h
    · intro s l r h
      rw [elems] at h
      split at h
      · simp at h
      · rename_i v s1 hv
        obtain ⟨w, t, rfl, hw, ht⟩ := ihv _ _ _ hv
        obtain ⟨w', hw', hs⟩ := skipWs_sound s1
        split at h
        · rename_i s2 heq
          rw [heq] at hs
          split at h
          · rename_i hl
            simp only [Option.some.injEq, Prod.mk.injEq] at h; obtain ⟨rfl, rfl⟩ := h
            obtain ⟨u, rfl, hu⟩ := ihe _ _ _ hl
            exact ⟨_, by rw [hs]; simp, .more hw ht hw' hu⟩
          · simp at h
        · rename_i s2 heq
          rw [heq] at hs
          simp only [Option.some.injEq, Prod.mk.injEq] at h; obtain ⟨rfl, rfl⟩ := h
          exact ⟨_, by rw [hs]; simp, .last hw ht hw'⟩
        · simp at h
    · intro s l r h
      rw [members] at h
      obtain ⟨w, hw, hs⟩ := skipWs_sound s
      split at h
      · rename_i s1 heq
        rw [heq] at hs
        split at h
        · simp at h
        · rename_i k s2 hk
          obtain ⟨b, rfl, hb⟩ := chars_sound _ _ _ _ hk
          obtain ⟨w1, hw1, hs2⟩ := skipWs_sound s2
          split at h
          · rename_i s3 heq3
            rw [heq3] at hs2
            split at h
            · simp at h
            · rename_i v s4 hv
              obtain ⟨w2, t, rfl, hw2, ht⟩ := ihv _ _ _ hv
              obtain ⟨w', hw', hs5⟩ := skipWs_sound s4
              have hk' : StringText (34 :: (b ++ [34])) k := ⟨b, hb, rfl⟩
              split at h
              · rename_i s6 heq6
                rw [heq6] at hs5
                split at h
                · rename_i hl
                  simp only [Option.some.injEq, Prod.mk.injEq] at h; obtain ⟨rfl, rfl⟩ := h
                  obtain ⟨u, rfl, hu⟩ := ihm _ _ _ hl
                  exact ⟨_, by rw [hs, hs2, hs5]; simp, .more hw hk' hw1 hw2 ht hw' hu⟩
                · simp at h
              · rename_i s6 heq6
                rw [heq6] at hs5
                simp only [Option.some.injEq, Prod.mk.injEq] at h; obtain ⟨rfl, rfl⟩ := h
                exact ⟨_, by rw [hs, hs2, hs5]; simp, .last hw hk' hw1 hw2 ht hw'⟩
              · simp at h
          · simp at h
      · simp at h

end Abieos
