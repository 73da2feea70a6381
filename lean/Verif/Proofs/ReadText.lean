import Verif.Proofs.JsonText
/-
Reading arrays and objects back.
-/
namespace Abieos

open Spec

/-- Elements of an array up to the closing bracket; `c` says whether a comma comes first. -/
inductive ElemsText : Bool → Bytes → List JVal → Prop
  | nil (c : Bool) : ElemsText c [93] []
  | cons (c : Bool) {t1 t2 : Bytes} {v : JVal} {l : List JVal} : Reads t1 v → ElemsText true t2 l →
      ElemsText c ((if c then [44] else []) ++ (t1 ++ t2)) (v :: l)

/-- Members of an object up to the closing brace; `c` says whether a comma comes first. -/
inductive MembersText : Bool → Bytes → List (Bytes × JVal) → Prop
  | nil (c : Bool) : MembersText c [125] []
  | cons (c : Bool) {t1 t2 k : Bytes} {v : JVal} {l : List (Bytes × JVal)} : Reads t1 v → MembersText true t2 l →
      MembersText c ((if c then [44] else []) ++ (jsonString k ++ (58 :: (t1 ++ t2)))) ((patch k, v) :: l)

namespace Reader

theorem skipWs_idem (s : Bytes) : skipWs (skipWs s) = skipWs s := by
  induction s with
  | nil => rfl
  | cons c s ih =>
    rw [skipWs]; split
    · exact ih
    · rename_i h; rw [skipWs, if_neg h]

theorem value_skipWs (n : Nat) (s : Bytes) : value n (skipWs s) = value n s := by
  cases n with
  | zero => rfl
  | succ n => rw [value, value, skipWs_idem]

theorem elems_skipWs (n : Nat) (s : Bytes) : elems n (skipWs s) = elems n s := by
  cases n with
  | zero => rfl
  | succ n => rw [elems, elems, value_skipWs]

theorem value_bracket {n : Nat} {s x : Bytes} (h : skipWs s = 93 :: x) : value n s = none := by
  cases n with
  | zero => rfl
  | succ n => rw [value, h]; rfl

theorem skipWs_cons {c : UInt8} {s : Bytes} (h : ¬ (c = 32 ∨ c = 9 ∨ c = 10 ∨ c = 13)) : skipWs (c :: s) = c :: s := by
  rw [skipWs, if_neg h]

end Reader

open Reader

theorem elems_read : ∀ (l : List JVal) (v : JVal) (t1 t2 : Bytes), Reads t1 v → ElemsText true t2 l → ∀ (r : Bytes) (n : Nat),
    2 * (t1.length + t2.length) ≤ n → elems n (t1 ++ (t2 ++ r)) = some (v :: l, r)
  | [], v, t1, t2, h1, h2, r, n, hn => by
    obtain ⟨h10, -, h11⟩ := h1
    cases h2 with
    | nil =>
      simp at hn ⊢
      obtain ⟨n, rfl⟩ : ∃ m, n = m + 1 := ⟨n - 1, by omega⟩
      rw [elems, h11 (93 :: r) (by simp [Delim]) n (by omega)]
      simp [skipWs]
  | v' :: l, v, t1, t2, h1, h2, r, n, hn => by
    obtain ⟨h10, -, h11⟩ := h1
    cases h2 with
    | @cons _ t1' t2' _ _ h1' h2' =>
      simp at hn ⊢
      obtain ⟨n, rfl⟩ : ∃ m, n = m + 1 := ⟨n - 1, by omega⟩
      rw [elems, h11 (44 :: (t1' ++ (t2' ++ r))) (by simp [Delim]) n (by omega)]
      simp only
      rw [skipWs_cons (by decide)]
      simp only
      rw [elems_read l v' t1' t2' h1' h2' r n (by omega)]

theorem members_read : ∀ (l : List (Bytes × JVal)) (k : Bytes) (v : JVal) (t1 t2 : Bytes), Reads t1 v →
    MembersText true t2 l → ∀ (r : Bytes) (n : Nat),
    2 * ((jsonString k).length + t1.length + t2.length) ≤ n →
    members n (jsonString k ++ (58 :: (t1 ++ (t2 ++ r)))) = some ((patch k, v) :: l, r)
  | [], k, v, t1, t2, h1, h2, r, n, hn => by
    obtain ⟨h10, -, h11⟩ := h1
    cases h2 with
    | nil =>
      simp at hn ⊢
      obtain ⟨n, rfl⟩ : ∃ m, n = m + 1 := ⟨n - 1, by omega⟩
      rw [members]
      simp only [jsonString, List.cons_append]
      rw [skipWs_cons (by decide)]
      simp only
      rw [chars_jsonString k _ _ (by simp; omega)]
      simp only
      rw [skipWs_cons (by decide)]
      simp only
      rw [h11 (125 :: r) (by simp [Delim]) n (by omega)]
      simp [skipWs]
  | (k', v') :: l, k, v, t1, t2, h1, h2, r, n, hn => by
    obtain ⟨h10, -, h11⟩ := h1
    cases h2 with
    | @cons _ t1' t2' k' _ _ h1' h2' =>
      simp at hn ⊢
      obtain ⟨n, rfl⟩ : ∃ m, n = m + 1 := ⟨n - 1, by omega⟩
      rw [members]
      have hm := members_read l k' v' t1' t2' h1' h2' r n (by omega)
      simp only [jsonString, List.cons_append] at hm ⊢
      rw [skipWs_cons (by decide)]
      simp only
      rw [chars_jsonString k _ _ (by simp; omega)]
      simp only
      rw [skipWs_cons (by decide)]
      simp only
      rw [h11 _ (by simp [Delim]) n (by omega)]
      simp only
      rw [skipWs_cons (by decide)]
      simp only
      rw [hm]

theorem reads_arr {t : Bytes} {l : List JVal} (h : ElemsText false t l) : Reads (91 :: t) (.arr l) := by
  have hz : ∀ {c t l}, ElemsText c t l → ∀ b ∈ t, b ≠ 0 := by
    intro c t l h
    induction h with
    | nil => simp
    | cons c h1 h2 ih =>
      intro b hb
      rcases List.mem_append.1 hb with hb | hb
      · split at hb <;> simp at hb; subst hb; decide
      · rcases List.mem_append.1 hb with hb | hb
        · exact h1.2.1 b hb
        · exact ih b hb
  refine ⟨by simp, by intro b hb; rcases List.mem_cons.1 hb with rfl | hb; decide; exact hz h b hb, ?_⟩
  intro r hr n hn
  obtain ⟨n, rfl⟩ : ∃ m, n = m + 1 := ⟨n - 1, by omega⟩
  rw [value, List.cons_append, skipWs_cons (by decide)]
  simp only
  cases h with
  | nil => simp [skipWs]
  | @cons _ t1 t2 v l h1 h2 =>
    have he := elems_read l v t1 t2 h1 h2 r n (by simp at hn; omega)
    simp only [Bool.false_eq_true, if_false, List.nil_append, List.append_assoc]
    cases hs : skipWs (t1 ++ (t2 ++ r)) with
    | nil => simp only; rw [← hs, elems_skipWs, he]
    | cons c x =>
      by_cases hc : c = 93
      · subst hc
        exfalso
        have hd : Delim (t2 ++ r) := by cases h2 <;> simp [Delim]
        have := h1.2.2 _ hd (2 * t1.length + 1) (by omega)
        rw [value_bracket hs] at this
        simp at this
      · split
        · rename_i heq; simp at heq; exact absurd heq.1 hc
        · rw [← hs, elems_skipWs, he]

theorem reads_obj {t : Bytes} {l : List (Bytes × JVal)} (h : MembersText false t l) : Reads (123 :: t) (.obj l) := by
  have hz : ∀ {c t l}, MembersText c t l → ∀ b ∈ t, b ≠ 0 := by
    intro c t l h
    induction h with
    | nil => simp
    | cons c h1 h2 ih =>
      intro b hb
      rcases List.mem_append.1 hb with hb | hb
      · split at hb <;> simp at hb; subst hb; decide
      · rcases List.mem_append.1 hb with hb | hb
        · exact jsonString_ne_zero _ b hb
        · rcases List.mem_cons.1 hb with rfl | hb
          · decide
          · rcases List.mem_append.1 hb with hb | hb
            · exact h1.2.1 b hb
            · exact ih b hb
  refine ⟨by simp, by intro b hb; rcases List.mem_cons.1 hb with rfl | hb; decide; exact hz h b hb, ?_⟩
  intro r hr n hn
  obtain ⟨n, rfl⟩ : ∃ m, n = m + 1 := ⟨n - 1, by omega⟩
  rw [value, List.cons_append, skipWs_cons (by decide)]
  simp only
  cases h with
  | nil => simp [skipWs]
  | @cons _ t1 t2 k v l h1 h2 =>
    have he := members_read l k v t1 t2 h1 h2 r n (by simp at hn; omega)
    simp only [Bool.false_eq_true, if_false, List.nil_append, List.append_assoc, List.cons_append]
    have hs : skipWs (jsonString k ++ 58 :: (t1 ++ (t2 ++ r))) = jsonString k ++ 58 :: (t1 ++ (t2 ++ r)) := by
      simp only [jsonString, List.cons_append]; rw [skipWs_cons (by decide)]
    rw [hs]
    split
    · rename_i heq; simp [jsonString] at heq
    · rw [he]

theorem reads_null : Reads (str "null") .null := by
  refine ⟨by decide, by decide, ?_⟩
  intro r hr n hn
  obtain ⟨n, rfl⟩ : ∃ m, n = m + 1 := ⟨n - 1, by omega⟩
  rw [value]; rfl

theorem reads_true : Reads (str "true") (.bool true) := by
  refine ⟨by decide, by decide, ?_⟩
  intro r hr n hn
  obtain ⟨n, rfl⟩ : ∃ m, n = m + 1 := ⟨n - 1, by omega⟩
  rw [value]; rfl

theorem reads_false : Reads (str "false") (.bool false) := by
  refine ⟨by decide, by decide, ?_⟩
  intro r hr n hn
  obtain ⟨n, rfl⟩ : ∃ m, n = m + 1 := ⟨n - 1, by omega⟩
  rw [value]; rfl

/-- A text that reads as `v` is one well-formed JSON text, of the document `v`. -/
theorem read_of_reads {t : Bytes} {v : JVal} (h : Reads t v) : Reader.read t = some v := by
  obtain ⟨h0, h1, h2⟩ := h
  have ht : t.takeWhile (· != 0) = t := by
    clear h0 h2
    induction t with
    | nil => rfl
    | cons c t ih =>
      rw [List.takeWhile_cons, if_pos (by simpa using h1 c (by simp)), ih (fun b hb => h1 b (by simp [hb]))]
  unfold Reader.read
  simp only [ht]
  have := h2 [] (by simp [Delim]) (2 * t.length + 2) (by omega)
  rw [List.append_nil] at this
  rw [this]; rfl

/-- A text reads as at most one document. -/
theorem Spec.Reads.unique {t : Bytes} {v v' : JVal} (h : Reads t v) (h' : Reads t v') : v = v' := by
  have := read_of_reads h
  rw [read_of_reads h'] at this
  exact (Option.some.inj this).symm

end Abieos
