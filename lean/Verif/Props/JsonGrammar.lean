import Verif.Proofs.JsonGrammar
import Verif.Props.RoundTrip
import Verif.Props.Example
/-! # C53: the JSON that is read and written is the JSON of RFC 8259 -/
namespace Abieos
open Spec Reader

theorem value_isJson {t : Bytes} {v : JVal} (h : IsJson t v) : ∃ r, value (2 * t.length + 2) t = some (v, r) ∧ skipWs r = [] := by
  obtain ⟨w, u, w', rfl, hw, hu, hw'⟩ := h
  refine ⟨w', ?_, ?_⟩
  · rw [value_ws hw]
    refine value_jsonText hu w' ?_ _ (by simp only [List.length_append]; omega)
    have := delim_ws hw' (r := []) (by simp [Delim])
    rwa [List.append_nil] at this
  · have := skipWs_ws (s := []) hw'
    rw [List.append_nil] at this
    rw [this]; rfl

/-- **C53.** A text is accepted as JSON, and read as the document `v`, if and only if it is a JSON text of the document by the grammar of RFC 8259
(up to its first NUL, where a C string ends). -/
theorem c53_read_iff (t : Bytes) (v : JVal) : Reader.read t = some v ↔ IsJson (t.takeWhile (· != 0)) v := by
  unfold Reader.read
  simp only
  generalize t.takeWhile (· != 0) = s
  constructor
  · intro h
    split at h
    · rename_i v' r hv
      split at h
      · rename_i hr
        simp only [Option.some.injEq] at h
        subst h
        obtain ⟨w, u, rfl, hw, hu⟩ := (read_sound _).1 _ _ _ hv
        obtain ⟨w', hw', e⟩ := skipWs_sound r
        rw [hr, List.append_nil] at e
        subst e
        exact ⟨w, u, r, rfl, hw, hu, hw'⟩
      · simp at h
    · simp at h
  · intro h
    obtain ⟨r, h1, h2⟩ := value_isJson h
    rw [h1]
    simp only
    rw [if_pos h2]

/-- **C53.** The grammar is unambiguous: a text is a JSON text of at most one document. -/
theorem c53_unambiguous {t : Bytes} {v v' : JVal} (h : IsJson t v) (h' : IsJson t v') : v = v' := by
  obtain ⟨r, h1, -⟩ := value_isJson h
  obtain ⟨r', h2, -⟩ := value_isJson h'
  rw [h1] at h2
  simp only [Option.some.injEq, Prod.mk.injEq] at h2
  exact h2.1

theorem ws_ne {w : Bytes} (h : IsWs w) : ∀ c ∈ w, c ≠ 0 := by
  intro c hc
  rcases h c hc with rfl | rfl | rfl | rfl <;> decide

theorem charText_ne {t : Bytes} {n : Nat} (h : CharText t n) : ∀ c ∈ t, c ≠ 0 := by
  have hex : ∀ {t n}, Hex4 t n → ∀ c ∈ t, c ≠ 0 := by
    rintro t n ⟨a, b, c, d, na, nb, nc, nd, rfl, ha, hb, hc, hd, -⟩ x hx rfl
    simp only [List.mem_cons, List.not_mem_nil, or_false] at hx
    unfold HexDigit at ha hb hc hd
    rcases hx with rfl | rfl | rfl | rfl
    · simp at ha
    · simp at hb
    · simp at hc
    · simp at hd
  cases h with
  | unescaped _ h1 h2 h3 h4 =>
    have key : ∀ m : Nat, m < 256 → 0 < m → UInt8.ofNat m ≠ 0 := by
      intro m hm h0
      rw [ne_eq, u8_eq, UInt8.toNat_ofNat']; show ¬ m % 2 ^ 8 = 0; omega
    unfold utf8Bytes
    intro c hc
    split at hc
    · simp only [List.mem_cons, List.not_mem_nil, or_false] at hc; subst hc; exact key _ (by omega) (by omega)
    · split at hc
      · simp only [List.mem_cons, List.not_mem_nil, or_false] at hc
        rcases hc with rfl | rfl <;> exact key _ (by omega) (by omega)
      · split at hc
        · simp only [List.mem_cons, List.not_mem_nil, or_false] at hc
          rcases hc with rfl | rfl | rfl <;> exact key _ (by omega) (by omega)
        · simp only [List.mem_cons, List.not_mem_nil, or_false] at hc
          rcases hc with rfl | rfl | rfl | rfl <;> exact key _ (by omega) (by omega)
  | simple e c hm =>
    intro x hx
    simp only [List.mem_cons, List.not_mem_nil, or_false] at hx
    rcases hx with rfl | rfl
    · decide
    · have : ∀ p ∈ simpleEscapes, p.1 ≠ 0 := by decide
      exact this _ hm
  | unicode ht _ =>
    intro x hx
    rcases List.mem_cons.1 hx with rfl | hx
    · decide
    · rcases List.mem_cons.1 hx with rfl | hx
      · decide
      · exact hex ht x hx
  | @pair t t' _ _ ht ht' =>
    intro x hx
    have h0 : ∀ y ∈ ([92, 117] : Bytes), y ≠ 0 := by decide
    have : x ∈ ([92, 117] : Bytes) ∨ x ∈ t ∨ x ∈ ([92, 117] : Bytes) ∨ x ∈ t' := by
      simp only [List.mem_cons, List.mem_append] at hx ⊢; grind
    rcases this with h | h | h | h
    · exact h0 x h
    · exact hex ht x h
    · exact h0 x h
    · exact hex ht' x h

theorem stringText_ne {t s : Bytes} (h : StringText t s) : ∀ c ∈ t, c ≠ 0 := by
  obtain ⟨b, hb, rfl⟩ := h
  have : ∀ c ∈ b, c ≠ 0 := by
    induction hb with
    | nil => simp
    | cons h1 _ ih =>
      intro c hc
      rcases List.mem_append.1 hc with hc | hc
      · exact charText_ne h1 c hc
      · exact ih c hc
  intro c hc
  rcases List.mem_cons.1 hc with rfl | hc
  · decide
  · rcases List.mem_append.1 hc with hc | hc
    · exact this c hc
    · simp only [List.mem_cons, List.not_mem_nil, or_false] at hc; subst hc; decide

theorem cons_ne {a : UInt8} {t : Bytes} (ha : a ≠ 0) (h : ∀ c ∈ t, c ≠ 0) : ∀ c ∈ a :: t, c ≠ 0 := by
  intro c hc
  rcases List.mem_cons.1 hc with rfl | hc
  · exact ha
  · exact h c hc

theorem append_ne {a t : Bytes} (ha : ∀ c ∈ a, c ≠ 0) (h : ∀ c ∈ t, c ≠ 0) : ∀ c ∈ a ++ t, c ≠ 0 := by
  intro c hc
  rcases List.mem_append.1 hc with hc | hc
  · exact ha c hc
  · exact h c hc

mutual
theorem jsonText_ne {t : Bytes} {v : JVal} : JsonText t v → ∀ c ∈ t, c ≠ 0
  | .null => by decide
  | .true => by decide
  | .false => by decide
  | .number h => fun c hc => (jsonNumber_chars h c hc).1
  | .string h => stringText_ne h
  | .emptyArray h => cons_ne (by decide) (append_ne (ws_ne h) (by decide))
  | .array h => cons_ne (by decide) (append_ne (elementsText_ne h) (by decide))
  | .emptyObject h => cons_ne (by decide) (append_ne (ws_ne h) (by decide))
  | .object h => cons_ne (by decide) (append_ne (membersTextG_ne h) (by decide))

theorem elementsText_ne {t : Bytes} {l : List JVal} : ElementsText t l → ∀ c ∈ t, c ≠ 0
  | .last hw ht hw' => append_ne (ws_ne hw) (append_ne (jsonText_ne ht) (ws_ne hw'))
  | .more hw ht hw' hr => append_ne (ws_ne hw) (append_ne (jsonText_ne ht) (append_ne (ws_ne hw') (cons_ne (by decide) (elementsText_ne hr))))

theorem membersTextG_ne {t : Bytes} {l : List (Bytes × JVal)} : MembersTextG t l → ∀ c ∈ t, c ≠ 0
  | .last hw hk h1 h2 ht hw' =>
    append_ne (ws_ne hw) (append_ne (stringText_ne hk) (append_ne (ws_ne h1) (cons_ne (by decide) (append_ne (ws_ne h2) (append_ne (jsonText_ne ht) (ws_ne hw'))))))
  | .more hw hk h1 h2 ht hw' hr =>
    append_ne (ws_ne hw) (append_ne (stringText_ne hk) (append_ne (ws_ne h1) (cons_ne (by decide) (append_ne (ws_ne h2) (append_ne (jsonText_ne ht)
      (append_ne (ws_ne hw') (cons_ne (by decide) (membersTextG_ne hr))))))))
end

theorem takeWhile_ne {t : Bytes} (h : ∀ c ∈ t, c ≠ 0) : t.takeWhile (· != 0) = t := by
  induction t with
  | nil => rfl
  | cons c t ih => rw [List.takeWhile_cons, if_pos (by simpa using h c (by simp)), ih (fun b hb => h b (by simp [hb]))]

/-- **C53.** Every JSON text of RFC 8259 is read as its document (a JSON text contains no NUL). -/
theorem c53_reads {t : Bytes} {v : JVal} (h : IsJson t v) : Reader.read t = some v := by
  rw [c53_read_iff, takeWhile_ne]
  · exact h
  · obtain ⟨w, u, w', rfl, hw, hu, hw'⟩ := h
    exact append_ne (ws_ne hw) (append_ne (jsonText_ne hu) (ws_ne hw'))

/-- a text of the grammar is read inside other texts as well -/
theorem reads_jsonText {t : Bytes} {v : JVal} (h : JsonText t v) : Reads t v := ⟨jsonText_pos h, jsonText_ne h, value_jsonText h⟩

theorem isJson_of_reads {t : Bytes} {v : JVal} (h : Reads t v) : ∃ w u, t = w ++ u ∧ IsWs w ∧ JsonText u v := by
  have h1 := h.2.2 [] (by simp [Delim]) (2 * t.length + 1) (by omega)
  obtain ⟨w, u, e, hw, hu⟩ := (read_sound _).1 _ _ _ h1
  exact ⟨w, u, by simpa using e, hw, hu⟩

/-- **C53.** All string values of a document that was read are UTF-8. (`DocUtf8` is a hypothesis of C27.) -/
theorem c53_utf8 {t : Bytes} {v : JVal} (h : IsJson t v) : DocUtf8 v := read_utf8 (c53_reads h)

/-- **C53.** A conversion from binary to JSON gives a JSON text of RFC 8259. (`ExtTail`: extensions come last, see C31.) -/
theorem c53_written (T : Table) (F : Floats) (wf : T.WF) (hx : ExtTail T) {ty : Ptr} (hty : T.Valid ty) {bin t rest : Bytes}
    (h : BinToJson T (builtins F) ty bin (.ok (t, rest))) : ∃ v, IsJson t v := by
  obtain ⟨v, hv⟩ := c31_well_formed wf hx hty h
  obtain ⟨w, u, rfl, hw, hu⟩ := isJson_of_reads hv
  exact ⟨v, w, u, [], by simp, hw, hu, by simp [IsWs]⟩

theorem stringText_jsonString (s : Bytes) : StringText (jsonString s) (patch s) := by
  obtain ⟨w, u, e, hw, hu⟩ := isJson_of_reads (reads_jsonString s)
  have hw0 : w = [] := by
    cases w with
    | nil => rfl
    | cons c w =>
      have h1 := hw c (by simp)
      have : (jsonString s).head? = some 34 := rfl
      rw [e] at this
      simp at this; subst this
      exact absurd h1 (by decide)
  subst hw0
  rw [List.nil_append] at e
  subst e
  have h34 : (jsonString s).head? = some 34 := rfl
  generalize jsonString s = t at hu h34
  generalize hv : JVal.str (patch s) = v at hu
  cases hu with
  | number h =>
    obtain ⟨c, r, hc, h1⟩ := jsonNumber_head h
    rw [hc] at h34
    simp at h34; subst h34
    exact absurd h1 (by decide)
  | string h => cases hv; exact h
  | _ => cases hv

/-- **C53.** A string is written as a JSON string of RFC 8259. -/
theorem c53_string (s : Bytes) (h : IsUtf8Text s) : StringText (jsonString s) s := by
  have := stringText_jsonString s
  rwa [patch_eq_of_utf8 ((utf8_iff s).2 h)] at this

theorem isJson_of_same {t : Bytes} {d : JVal} (h0 : ∀ c ∈ t, c ≠ 0) (h : (match Reader.read t with | some v => Example.same v d | none => false) = true) :
    IsJson t d := by
  split at h
  · rename_i v hv
    rw [c53_read_iff, takeWhile_ne h0] at hv
    rw [← Example.same_eq _ _ h]; exact hv
  · simp at h

/-! The three kinds of things a reader may get wrong: white space everywhere, escapes, numbers. -/
example : IsJson (str " [ 1.5e-3 , {\"a\\u00e9\\n\\/\":\ttrue} ]\n") (.arr [.str (str "1.5e-3"), .obj [([97, 0xC3, 0xA9, 10, 47], .bool true)]]) :=
  isJson_of_same (by decide +kernel) (by decide +kernel)

example : Reader.read (str "[1,]") = none ∧ Reader.read (str "01") = none ∧ Reader.read (str "\"\\ud800\"") = none := by
  refine ⟨?_, ?_, ?_⟩ <;> rfl

end Abieos
