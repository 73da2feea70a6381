import Verif.Proofs.JsonGrammar
import Verif.Proofs.Streams
/-
Lengths: a text of less than 2^31 - 1 bytes has no array of 2^31 elements or more.
-/
namespace Abieos
open Spec Reader

theorem toks_le {t : Bytes} {v : JVal} (h : JsonText t v) : v.toks.length ≤ t.length := by
  refine JsonText.rec (motive_1 := fun t v _ => v.toks.length ≤ t.length) (motive_2 := fun t l _ => (JVal.toks.go l).length ≤ t.length)
    (motive_3 := fun t l _ => (JVal.toks.goM l).length ≤ t.length) ?_ ?_ ?_ ?_ ?_ ?_ ?_ ?_ ?_ ?_ ?_ ?_ ?_ h
  · simp [JVal.toks]
  · simp [JVal.toks]
  · simp [JVal.toks]
  · intro t h
    have := jsonText_pos (.number h)
    simp [JVal.toks]; omega
  · intro t s h
    have := jsonText_pos (.string h)
    simp [JVal.toks]; omega
  · intros; simp [JVal.toks, JVal.toks.go]
  · intros; simp [JVal.toks]; omega
  · intros; simp [JVal.toks, JVal.toks.goM]
  · intros; simp [JVal.toks]; omega
  · intros; simp [JVal.toks.go]; omega
  · intros; simp [JVal.toks.go]; omega
  · intros; simp [JVal.toks.goM]; omega
  · intros; simp [JVal.toks.goM]; omega

mutual
theorem short_of_toks : ∀ v : JVal, v.toks.length < 2147483648 → ShortArrays v
  | .null, _ => by simp [ShortArrays]
  | .bool b, _ => by simp [ShortArrays]
  | .str s, _ => by simp [ShortArrays]
  | .arr l, h => by
    have := go_length l
    simp [JVal.toks] at h
    exact ⟨by omega, shortToks_go l (by omega)⟩
  | .obj l, h => by
    simp [JVal.toks] at h
    exact shortToks_goM l (by omega)
theorem shortToks_go : ∀ l : List JVal, (JVal.toks.go l).length < 2147483648 → ShortArrays.go l
  | [], _ => trivial
  | v :: l, h => by
    simp [JVal.toks.go] at h
    exact ⟨short_of_toks v (by omega), shortToks_go l (by omega)⟩
theorem shortToks_goM : ∀ l : List (Bytes × JVal), (JVal.toks.goM l).length < 2147483648 → ShortArrays.goM l
  | [], _ => trivial
  | (k, v) :: l, h => by
    simp [JVal.toks.goM] at h
    exact ⟨short_of_toks v (by omega), shortToks_goM l (by omega)⟩
end

theorem value_le {n : Nat} {s r : Bytes} {v : JVal} (h : value n s = some (v, r)) : v.toks.length + r.length ≤ s.length ∧ r.length < s.length := by
  obtain ⟨w, t, rfl, -, ht⟩ := (read_sound n).1 _ _ _ h
  have := toks_le ht
  have := jsonText_pos ht
  simp; omega

theorem skipWs_le (s : Bytes) : (skipWs s).length ≤ s.length := by
  obtain ⟨w, -, h⟩ := skipWs_sound s
  have := congrArg List.length h
  simp at this
  omega

theorem chars_le {n : Nat} {s d r : Bytes} (h : chars n s = some (d, r)) : r.length < s.length := by
  obtain ⟨b, rfl, -⟩ := chars_sound _ _ _ _ h
  simp; omega

theorem shortArrays_arr (l : List JVal) : ShortArrays (.arr l) ↔ l.length < 2147483648 ∧ ShortArrays.go l := by
  rw [ShortArrays]

theorem valueTo_short (n : Nat) :
    (∀ s : Bytes, s.length < 2147483647 → ∃ (v : JVal) (rest : List Tok), v.toks = Reader.valueTo n s ++ rest ∧ ShortArrays v) ∧
    (∀ s : Bytes, s.length < 2147483647 → ∃ l rest, JVal.toks.go l = Reader.elemsTo n s ++ rest ∧ l.length ≤ s.length + 1 ∧ ShortArrays.go l) ∧
    (∀ s : Bytes, s.length < 2147483647 → ∃ l rest, JVal.toks.goM l = Reader.membersTo n s ++ rest ∧ ShortArrays.goM l) := by
  have short : ∀ {n : Nat} {s r : Bytes} {v : JVal}, value n s = some (v, r) → s.length < 2147483647 → ShortArrays v := by
    intro n s r v h hs
    have := (value_le h).1
    exact short_of_toks v (by omega)
  induction n with
  | zero => exact ⟨fun s _ => ⟨.null, [.null], rfl, by simp [ShortArrays]⟩, fun s _ => ⟨[], [], rfl, by simp, trivial⟩, fun s _ => ⟨[], [], rfl, trivial⟩⟩
  | succ n ih =>
    obtain ⟨ih1, ih2, ih3⟩ := ih
    refine ⟨fun s hs => ?_, fun s hs => ?_, fun s hs => ?_⟩
    · have hw := skipWs_le s
      unfold Reader.valueTo
      split
      · rename_i s' h'
        rw [h', List.length_cons] at hw
        obtain ⟨l, rest, h, k1, k2⟩ := ih2 s' (by omega)
        exact ⟨.arr l, rest ++ [.endArr], by simp [JVal.toks, h], (shortArrays_arr l).2 ⟨by omega, k2⟩⟩
      · rename_i s' h'
        rw [h', List.length_cons] at hw
        obtain ⟨l, rest, h, k2⟩ := ih3 s' (by omega)
        exact ⟨.obj l, rest ++ [.endObj], by simp [JVal.toks, h], k2⟩
      · exact ⟨.null, [.null], rfl, by simp [ShortArrays]⟩
    · unfold Reader.elemsTo
      split
      · obtain ⟨v, rest, h, k⟩ := ih1 s hs
        exact ⟨[v], rest, by simp [JVal.toks.go, h], by simp, k, trivial⟩
      · rename_i v s' h'
        have hl := value_le h'
        have hw := skipWs_le s'
        split
        · rename_i s'' h''
          rw [h'', List.length_cons] at hw
          obtain ⟨l, rest, h, k1, k2⟩ := ih2 s'' (by omega)
          exact ⟨v :: l, rest, by simp [JVal.toks.go, h], by simp; omega, short h' hs, k2⟩
        · exact ⟨[v], [], by simp [JVal.toks.go], by simp, short h' hs, trivial⟩
    · have hw := skipWs_le s
      unfold Reader.membersTo
      split
      · rename_i s0 h0
        rw [h0, List.length_cons] at hw
        split
        · exact ⟨[], [], rfl, trivial⟩
        · rename_i k s' h'
          have hl' := chars_le h'
          have hw' := skipWs_le s'
          split
          · rename_i s'' h''
            rw [h'', List.length_cons] at hw'
            split
            · obtain ⟨v, rest, h, k1⟩ := ih1 s'' (by omega)
              exact ⟨[(k, v)], rest, by simp [JVal.toks.goM, h], k1, trivial⟩
            · rename_i v s3 h3
              have hl3 := value_le h3
              have hw3 := skipWs_le s3
              split
              · rename_i s4 h4
                rw [h4, List.length_cons] at hw3
                obtain ⟨l, rest, h, k1⟩ := ih3 s4 (by omega)
                exact ⟨(k, v) :: l, rest, by simp [JVal.toks.goM, h], short h3 (by omega), k1⟩
              · exact ⟨[(k, v)], [], by simp [JVal.toks.goM], short h3 (by omega), trivial⟩
          · exact ⟨[(k, .null)], [.null], by simp [JVal.toks.goM, JVal.toks], by simp [ShortArrays], trivial⟩
      · exact ⟨[], [], rfl, trivial⟩

theorem read_short {text : Bytes} {v : JVal} (hl : text.length < 2147483647) (h : Reader.read text = some v) : ShortArrays v := by
  have ht : (text.takeWhile (· != 0)).length ≤ text.length := (List.takeWhile_prefix _).length_le
  unfold Reader.read at h
  simp only at h
  generalize text.takeWhile (· != 0) = s at h ht
  cases hv : Reader.value (2 * s.length + 2) s with
  | none => simp only [hv] at h; cases h
  | some p =>
    obtain ⟨v', r⟩ := p
    simp only [hv] at h
    have := value_le hv
    split at h
    · cases h; exact short_of_toks _ (by omega)
    · cases h

theorem upTo_short {text : Bytes} (hl : text.length < 2147483647) (h : Reader.read text = none) :
    ∃ (v : JVal) (rest : List Tok), v.toks = Reader.upTo text ++ rest ∧ ShortArrays v := by
  have ht : (text.takeWhile (· != 0)).length ≤ text.length := (List.takeWhile_prefix _).length_le
  unfold Reader.read at h
  unfold Reader.upTo
  simp only at h ⊢
  generalize text.takeWhile (· != 0) = s at h ht ⊢
  cases hv : Reader.value (2 * s.length + 2) s with
  | none => exact (valueTo_short _).1 s (by omega)
  | some p =>
    obtain ⟨v, r⟩ := p
    simp only [hv] at h ⊢
    have := value_le hv
    split at h
    · cases h
    · rename_i hr
      rw [if_neg hr]
      exact ⟨v, [v.toks.getLast (toks_ne v)], by rw [List.dropLast_append_getLast], short_of_toks _ (by omega)⟩

/-! ## The step budget of the reader is larger than any text needs -/

theorem value_fuel (n : Nat) :
    (∀ s : Bytes, 2 * s.length < n → value (n + 1) s = value n s ∧ valueTo (n + 1) s = valueTo n s) ∧
    (∀ s : Bytes, 2 * s.length + 1 < n → elems (n + 1) s = elems n s ∧ elemsTo (n + 1) s = elemsTo n s) ∧
    (∀ s : Bytes, 2 * s.length + 1 < n → members (n + 1) s = members n s ∧ membersTo (n + 1) s = membersTo n s) := by
  induction n with
  | zero => exact ⟨fun s h => by omega, fun s h => by omega, fun s h => by omega⟩
  | succ n ih =>
    obtain ⟨ih1, ih2, ih3⟩ := ih
    refine ⟨fun s hs => ?_, fun s hs => ?_, fun s hs => ?_⟩
    · have hw := skipWs_le s
      constructor
      · rw [value, value]
        generalize hx : skipWs s = x at hw
        split <;> try rfl
        · rename_i s'
          rw [List.length_cons] at hw
          have hw' := skipWs_le s'
          split
          · rfl
          · rename_i x' h'
            rw [(ih2 (skipWs s') (by omega)).1]
        · rename_i s'
          rw [List.length_cons] at hw
          have hw' := skipWs_le s'
          split
          · rfl
          · rename_i x' h'
            rw [(ih3 (skipWs s') (by omega)).1]
      · rw [valueTo, valueTo]
        generalize skipWs s = x at hw
        split
        · rw [List.length_cons] at hw
          rw [(ih2 _ (by omega)).2]
        · rw [List.length_cons] at hw
          rw [(ih3 _ (by omega)).2]
        · rfl
    · obtain ⟨k1, k2⟩ := ih1 s (by omega)
      constructor
      · rw [elems, elems, k1]
        cases hv : value n s with
        | none => rfl
        | some p =>
          obtain ⟨v, s'⟩ := p
          have hl := value_le hv
          have hw := skipWs_le s'
          simp only
          generalize skipWs s' = x at hw
          split
          · rw [List.length_cons] at hw
            rw [(ih2 _ (by omega)).1]
          · rfl
          · rfl
      · rw [elemsTo, elemsTo, k1, k2]
        cases hv : value n s with
        | none => rfl
        | some p =>
          obtain ⟨v, s'⟩ := p
          have hl := value_le hv
          have hw := skipWs_le s'
          simp only
          generalize skipWs s' = x at hw
          split
          · rw [List.length_cons] at hw
            rw [(ih2 _ (by omega)).2]
          · rfl
    · have hw0 := skipWs_le s
      constructor
      · rw [members, members]
        generalize skipWs s = x0 at hw0
        split <;> try rfl
        rename_i s0
        rw [List.length_cons] at hw0
        cases hc : chars (s0.length + 1) s0 with
        | none => rfl
        | some p =>
          obtain ⟨k, s1⟩ := p
          have hl1 := chars_le hc
          have hw1 := skipWs_le s1
          simp only
          generalize skipWs s1 = x1 at hw1
          split <;> try rfl
          rename_i s2
          rw [List.length_cons] at hw1
          obtain ⟨k1, k2⟩ := ih1 s2 (by omega)
          rw [k1]
          cases hv : value n s2 with
          | none => rfl
          | some p =>
            obtain ⟨v, s'⟩ := p
            have hl := value_le hv
            have hw := skipWs_le s'
            simp only
            generalize skipWs s' = x at hw
            split
            · rw [List.length_cons] at hw
              rw [(ih3 _ (by omega)).1]
            · rfl
            · rfl
      · rw [membersTo, membersTo]
        generalize skipWs s = x0 at hw0
        split <;> try rfl
        rename_i s0
        rw [List.length_cons] at hw0
        cases hc : chars (s0.length + 1) s0 with
        | none => rfl
        | some p =>
          obtain ⟨k, s1⟩ := p
          have hl1 := chars_le hc
          have hw1 := skipWs_le s1
          simp only
          generalize skipWs s1 = x1 at hw1
          split <;> try rfl
          rename_i s2
          rw [List.length_cons] at hw1
          obtain ⟨k1, k2⟩ := ih1 s2 (by omega)
          rw [k1, k2]
          cases hv : value n s2 with
          | none => rfl
          | some p =>
            obtain ⟨v, s'⟩ := p
            have hl := value_le hv
            have hw := skipWs_le s'
            simp only
            generalize skipWs s' = x at hw
            split
            · rw [List.length_cons] at hw
              rw [(ih3 _ (by omega)).2]
            · rfl

end Abieos
