import Verif.Model.Reorder
import Verif.Spec.Doc
import Verif.Proofs.Run
/-
What `json_to_jvalue` computes.
-/
namespace Abieos

open Spec

/-- Induction over documents. -/
theorem JVal.ind {P : JVal → Prop} (hnull : P .null) (hbool : ∀ b, P (.bool b)) (hstr : ∀ s, P (.str s))
    (harr : ∀ l, (∀ v ∈ l, P v) → P (.arr l)) (hobj : ∀ l, (∀ k v, (k, v) ∈ l → P v) → P (.obj l)) : ∀ v, P v
  | .null => hnull
  | .bool b => hbool b
  | .str s => hstr s
  | .arr l => harr l (fun v hv => JVal.ind hnull hbool hstr harr hobj v)
  | .obj l => hobj l (fun k v hv => JVal.ind hnull hbool hstr harr hobj v)
termination_by v => sizeOf v
decreasing_by
  · have := List.sizeOf_lt_of_mem hv; simp; omega
  · have := List.sizeOf_lt_of_mem hv; simp at this ⊢; omega

/-- The jvalue of a document: a later value of a key replaces the earlier one. -/
def norm : JVal → JVal
  | .arr l => .arr (go l)
  | .obj l => .obj (goM [] l)
  | v => v
where
  go : List JVal → List JVal
    | [] => []
    | v :: l => norm v :: go l
  goM (acc : List (Bytes × JVal)) : List (Bytes × JVal) → List (Bytes × JVal)
    | [] => acc
    | (k, v) :: l => goM (assocSet k (norm v) acc) l

theorem norm_go (l : List JVal) : norm.go l = l.map norm := by
  induction l with
  | nil => rfl
  | cons v l ih => simp [norm.go, ih]

theorem levels_go_le {v : JVal} {l : List JVal} (h : v ∈ l) : levels v ≤ levels.go l := by
  induction l with
  | nil => simp at h
  | cons x l ih =>
    simp only [levels.go]
    rcases List.mem_cons.1 h with rfl | h
    · omega
    · have := ih h; omega

theorem levels_goM_le {k : Bytes} {v : JVal} {l : List (Bytes × JVal)} (h : (k, v) ∈ l) : levels v ≤ levels.goM l := by
  induction l with
  | nil => simp at h
  | cons x l ih =>
    simp only [levels.goM]
    rcases List.mem_cons.1 h with rfl | h
    · simp; omega
    · have := ih h; omega

/-- A state in which a value may come. -/
def JState.Ready (s : JState) : Prop :=
  s.root = none ∧ s.stack.length ≤ maxStack ∧ ∀ f ∈ s.stack, (∃ l, f.value = .arr l) ∨ (∃ l, f.value = .obj l)

/-- A value is put in its place, or is too deep. -/
def Fed (ts : List Tok) (s : JState) (v : JVal) : Prop :=
  jvEvents (v.toks ++ ts) s =
    if s.stack.length + levels v ≤ maxStack then jvEvents ts (s.put (norm v)) else .error .unspecific_syntax_error

theorem JState.Ready.put {s : JState} (h : s.Ready) (x : JVal) (hne : s.stack ≠ []) :
    (s.put x).Ready ∧ (s.put x).stack.length = s.stack.length := by
  obtain ⟨h1, h2, h3⟩ := h
  obtain ⟨r, st⟩ := s
  cases st with
  | nil => simp at hne
  | cons f fs =>
    obtain ⟨val, key⟩ := f
    have := h3 ⟨val, key⟩ (by simp)
    simp at this
    rcases this with ⟨l, rfl⟩ | ⟨l, rfl⟩
    · refine ⟨⟨h1, h2, ?_⟩, rfl⟩
      intro g hg
      simp only [JState.put] at hg
      rcases List.mem_cons.1 hg with rfl | hg
      · exact .inl ⟨_, rfl⟩
      · exact h3 g (by simp [hg])
    · refine ⟨⟨h1, h2, ?_⟩, rfl⟩
      intro g hg
      simp only [JState.put] at hg
      rcases List.mem_cons.1 hg with rfl | hg
      · exact .inr ⟨_, rfl⟩
      · exact h3 g (by simp [hg])

theorem fed_elems {l : List JVal} (ih : ∀ v ∈ l, ∀ ts (s : JState), s.Ready → Fed ts s v) (ts : List Tok) :
    ∀ (acc : List JVal) (key : Bytes) (fs : List JFrame), (⟨none, ⟨.arr acc, key⟩ :: fs⟩ : JState).Ready →
    jvEvents (JVal.toks.go l ++ ts) ⟨none, ⟨.arr acc, key⟩ :: fs⟩ =
      if fs.length + 1 + levels.go l ≤ maxStack then jvEvents ts ⟨none, ⟨.arr (acc ++ norm.go l), key⟩ :: fs⟩
      else .error .unspecific_syntax_error := by
  induction l with
  | nil =>
    intro acc key fs h
    have := h.2.1
    simp at this
    simp [JVal.toks.go, levels.go, norm.go, this]
  | cons v l ihl =>
    intro acc key fs h
    have hf := ih v (by simp) (JVal.toks.go l ++ ts) _ h
    unfold Fed at hf
    have e : levels.go (v :: l) = max (levels v) (levels.go l) := rfl
    simp only [JVal.toks.go, List.append_assoc, norm.go]
    rw [hf]
    simp only [List.length_cons]
    by_cases hv : fs.length + 1 + levels v ≤ maxStack
    · rw [if_pos hv]
      have hr := (h.put (norm v) (by simp)).1
      simp only [JState.put] at hr ⊢
      rw [ihl (fun v hv => ih v (by simp [hv])) _ _ _ hr]
      by_cases h2 : fs.length + 1 + levels.go l ≤ maxStack
      · rw [if_pos h2, if_pos (by omega)]; simp
      · rw [if_neg h2, if_neg (by omega)]
    · rw [if_neg hv, if_neg (by omega)]

theorem fed_members {l : List (Bytes × JVal)} (ih : ∀ k v, (k, v) ∈ l → ∀ ts (s : JState), s.Ready → Fed ts s v)
    (ts : List Tok) : ∀ (acc : List (Bytes × JVal)) (key : Bytes) (fs : List JFrame),
    (⟨none, ⟨.obj acc, key⟩ :: fs⟩ : JState).Ready →
    ∃ key', jvEvents (JVal.toks.goM l ++ ts) ⟨none, ⟨.obj acc, key⟩ :: fs⟩ =
      if fs.length + 1 + levels.goM l ≤ maxStack then jvEvents ts ⟨none, ⟨.obj (norm.goM acc l), key'⟩ :: fs⟩
      else .error .unspecific_syntax_error := by
  induction l with
  | nil =>
    intro acc key fs h
    have := h.2.1
    simp at this
    exact ⟨key, by simp [JVal.toks.goM, levels.goM, norm.goM, this]⟩
  | cons x l ihl =>
    obtain ⟨k, v⟩ := x
    intro acc key fs h
    have hl : fs.length + 1 ≤ maxStack := by simpa using h.2.1
    have h' : (⟨none, ⟨.obj acc, k⟩ :: fs⟩ : JState).Ready := by
      refine ⟨rfl, h.2.1, ?_⟩
      intro g hg
      rcases List.mem_cons.1 hg with rfl | hg
      · exact .inr ⟨_, rfl⟩
      · exact h.2.2 g (by simp [hg])
    have hk : jvEvents (JVal.toks.goM ((k, v) :: l) ++ ts) ⟨none, ⟨.obj acc, key⟩ :: fs⟩ =
        jvEvents (v.toks ++ (JVal.toks.goM l ++ ts)) ⟨none, ⟨.obj acc, k⟩ :: fs⟩ := by
      simp only [JVal.toks.goM, List.cons_append, List.append_assoc, jvEvents, jvEvent]
      rw [if_neg (by simp), if_neg (by simp; omega)]
    rw [hk]
    have hf := ih k v (by simp) (JVal.toks.goM l ++ ts) _ h'
    unfold Fed at hf
    rw [hf]
    have e : levels.goM ((k, v) :: l) = max (levels v) (levels.goM l) := rfl
    simp only [List.length_cons, norm.goM]
    by_cases hv : fs.length + 1 + levels v ≤ maxStack
    · rw [if_pos hv]
      have hr := (h'.put (norm v) (by simp)).1
      simp only [JState.put] at hr ⊢
      obtain ⟨key', hk'⟩ := ihl (fun k v hv => ih k v (by simp [hv])) _ _ _ hr
      refine ⟨key', ?_⟩
      rw [hk']
      by_cases h2 : fs.length + 1 + levels.goM l ≤ maxStack
      · rw [if_pos h2, if_pos (by omega)]
      · rw [if_neg h2, if_neg (by omega)]
    · exact ⟨[], by rw [if_neg hv, if_neg (by omega)]⟩

theorem fed (v : JVal) : ∀ (ts : List Tok) (s : JState), s.Ready → Fed ts s v := by
  have hlen : ∀ {s : JState}, s.Ready → ¬ s.stack.length > maxStack := fun h => by have := h.2.1; omega
  have hroot : ∀ {s : JState}, s.Ready → ¬ (s.root.isSome = true) := fun h => by rw [h.1]; simp
  induction v using JVal.ind with
  | hnull =>
    intro ts s h
    simp only [Fed, JVal.toks, norm, List.cons_append, List.nil_append, jvEvents, jvEvent]
    rw [if_neg (hroot h), if_neg (hlen h)]
    by_cases hl : s.stack.length + 1 ≤ maxStack
    · rw [if_neg (show ¬ s.stack.length + 1 > maxStack by omega), if_pos (by exact hl)]
    · rw [if_pos (show s.stack.length + 1 > maxStack by omega), if_neg (by exact hl)]
  | hbool b =>
    intro ts s h
    simp only [Fed, JVal.toks, norm, List.cons_append, List.nil_append, jvEvents, jvEvent]
    rw [if_neg (hroot h), if_neg (hlen h)]
    by_cases hl : s.stack.length + 1 ≤ maxStack
    · rw [if_neg (show ¬ s.stack.length + 1 > maxStack by omega), if_pos (by exact hl)]
    · rw [if_pos (show s.stack.length + 1 > maxStack by omega), if_neg (by exact hl)]
  | hstr b =>
    intro ts s h
    simp only [Fed, JVal.toks, norm, List.cons_append, List.nil_append, jvEvents, jvEvent]
    rw [if_neg (hroot h), if_neg (hlen h)]
    by_cases hl : s.stack.length + 1 ≤ maxStack
    · rw [if_neg (show ¬ s.stack.length + 1 > maxStack by omega), if_pos (by exact hl)]
    · rw [if_pos (show s.stack.length + 1 > maxStack by omega), if_neg (by exact hl)]
  | harr l ih =>
    intro ts s h
    have e : levels (.arr l) = levels.go l + 1 := rfl
    simp only [Fed, JVal.toks, norm, List.cons_append, List.append_assoc, List.nil_append]
    rw [jvEvents, jvEvent, if_neg (hroot h), if_neg (hlen h)]
    by_cases hl : s.stack.length + 1 ≤ maxStack
    · have hr : (⟨none, ⟨.arr [], []⟩ :: s.stack⟩ : JState).Ready := by
        refine ⟨rfl, by simpa using hl, ?_⟩
        intro g hg
        rcases List.mem_cons.1 hg with rfl | hg
        · exact .inl ⟨_, rfl⟩
        · exact h.2.2 g hg
      simp only [if_neg (Nat.not_lt.2 hl), h.1]
      rw [fed_elems ih _ _ _ _ hr]
      by_cases h2 : s.stack.length + 1 + levels.go l ≤ maxStack
      · rw [if_pos h2, if_pos (by omega)]
        simp only [jvEvents, jvEvent]
        rw [if_neg (by simp), if_neg (by simp; omega)]
        simp only [List.nil_append]
        congr 1
        obtain ⟨r, st⟩ := s
        have := h.1; simp at this; subst this; rfl
      · rw [if_neg h2, if_neg (by omega)]
    · simp only [if_pos (Nat.lt_of_not_le hl)]
      rw [if_neg (by omega)]
  | hobj l ih =>
    intro ts s h
    have e : levels (.obj l) = levels.goM l + 1 := rfl
    simp only [Fed, JVal.toks, norm, List.cons_append, List.append_assoc, List.nil_append]
    rw [jvEvents, jvEvent, if_neg (hroot h), if_neg (hlen h)]
    by_cases hl : s.stack.length + 1 ≤ maxStack
    · have hr : (⟨none, ⟨.obj [], []⟩ :: s.stack⟩ : JState).Ready := by
        refine ⟨rfl, by simpa using hl, ?_⟩
        intro g hg
        rcases List.mem_cons.1 hg with rfl | hg
        · exact .inr ⟨_, rfl⟩
        · exact h.2.2 g hg
      simp only [if_neg (Nat.not_lt.2 hl), h.1]
      obtain ⟨key', hk⟩ := fed_members ih (.endObj :: ts) _ _ _ hr
      rw [hk]
      by_cases h2 : s.stack.length + 1 + levels.goM l ≤ maxStack
      · rw [if_pos h2, if_pos (by omega)]
        simp only [jvEvents, jvEvent]
        rw [if_neg (by simp), if_neg (by simp; omega)]
        congr 1
        obtain ⟨r, st⟩ := s
        have := h.1; simp at this; subst this; rfl
      · rw [if_neg h2, if_neg (by omega)]
    · simp only [if_pos (Nat.lt_of_not_le hl)]
      rw [if_neg (by omega)]

/-- `json_to_jvalue` refuses documents of more than 128 levels and otherwise yields the document, later values of a key
replacing earlier ones. -/
theorem jsonToJvalue_eq (v : JVal) :
    jsonToJvalue v.toks = if levels v ≤ maxStack then .ok (norm v) else .error .unspecific_syntax_error := by
  have h := fed v [] ⟨none, []⟩ ⟨rfl, by simp, by simp⟩
  unfold Fed at h
  rw [List.append_nil] at h
  unfold jsonToJvalue
  rw [h]
  simp only [List.length_nil, Nat.zero_add]
  by_cases hl : levels v ≤ maxStack
  · rw [if_pos hl, if_pos hl]; rfl
  · rw [if_neg hl, if_neg hl]; rfl

theorem assocSet_lookup (k k' : Bytes) (x : JVal) (l : List (Bytes × JVal)) :
    (assocSet k x l).lookup k' = if k' = k then some x else l.lookup k' := by
  induction l with
  | nil =>
    simp only [assocSet, List.lookup]
    by_cases h : k' = k
    · subst h; simp
    · rw [if_neg h]; have : (k' == k) = false := by simpa using h
      rw [this]
  | cons p l ih =>
    obtain ⟨a, b⟩ := p
    simp only [assocSet]
    by_cases ha : a = k
    · subst ha
      rw [if_pos rfl]
      by_cases h : k' = a
      · subst h; simp [List.lookup]
      · have : (k' == a) = false := by simpa using h
        simp only [List.lookup, this, if_neg h]
    · rw [if_neg ha]
      simp only [List.lookup]
      by_cases h : k' = a
      · subst h; simp [ha]
      · have : (k' == a) = false := by simpa using h
        rw [this]; exact ih

theorem norm_goM_lookup (k : Bytes) (l : List (Bytes × JVal)) : ∀ acc,
    (norm.goM acc l).lookup k = match lastValue k l with
      | some v => some (norm v)
      | none => acc.lookup k := by
  induction l with
  | nil => intro acc; rfl
  | cons p l ih =>
    obtain ⟨a, b⟩ := p
    intro acc
    simp only [norm.goM, lastValue]
    rw [ih]
    cases lastValue k l with
    | some v => rfl
    | none =>
      simp only
      rw [assocSet_lookup]
      by_cases h : a = k
      · subst h; simp
      · simp [h, Ne.symm h]

/-- Looking a key up in the jvalue gives its last value in the document. -/
theorem norm_lookup (k : Bytes) (l : List (Bytes × JVal)) :
    (norm.goM [] l).lookup k = (lastValue k l).map norm := by
  rw [norm_goM_lookup]; cases lastValue k l <;> rfl

theorem norm_isNull (v : JVal) : (norm v).isNull = v.isNull := by cases v <;> rfl

theorem assocSet_new {k : Bytes} {x : JVal} {l : List (Bytes × JVal)} (h : k ∉ l.map (·.1)) :
    assocSet k x l = l ++ [(k, x)] := by
  induction l with
  | nil => rfl
  | cons p l ih =>
    obtain ⟨a, b⟩ := p
    simp at h
    rw [assocSet, if_neg (Ne.symm h.1), ih (by simpa using h.2)]; rfl

theorem uniqueKeys_go {l : List JVal} : UniqueKeys.go l ↔ ∀ v ∈ l, UniqueKeys v := by
  induction l with
  | nil => simp [UniqueKeys.go]
  | cons v l ih => simp [UniqueKeys.go, ih]

theorem uniqueKeys_goM {l : List (Bytes × JVal)} : UniqueKeys.goM l ↔ ∀ k v, (k, v) ∈ l → UniqueKeys v := by
  induction l with
  | nil => simp [UniqueKeys.goM]
  | cons p l ih =>
    obtain ⟨a, b⟩ := p
    simp only [UniqueKeys.goM, ih, List.mem_cons, Prod.mk.injEq]
    constructor
    · rintro ⟨h1, h2⟩ k v (⟨rfl, rfl⟩ | h)
      · exact h1
      · exact h2 k v h
    · intro h
      exact ⟨h a b (.inl ⟨rfl, rfl⟩), fun k v hv => h k v (.inr hv)⟩

theorem norm_goM_eq {l : List (Bytes × JVal)} : ∀ acc, (acc.map (·.1) ++ l.map (·.1)).Nodup →
    (∀ k v, (k, v) ∈ l → norm v = v) → norm.goM acc l = acc ++ l := by
  induction l with
  | nil => simp [norm.goM]
  | cons p l ih =>
    obtain ⟨a, b⟩ := p
    intro acc hd hn
    have ha : a ∉ acc.map (·.1) := by
      intro h
      rw [List.nodup_append] at hd
      exact hd.2.2 a h a (by simp) rfl
    simp only [norm.goM]
    rw [hn a b (by simp), assocSet_new ha, ih]
    · simp
    · simpa using hd
    · intro k v hv; exact hn k v (by simp [hv])

/-- A document with unique keys is its own jvalue. -/
theorem norm_eq {v : JVal} (h : UniqueKeys v) : norm v = v := by
  induction v using JVal.ind with
  | hnull => rfl
  | hbool => rfl
  | hstr => rfl
  | harr l ih =>
    rw [norm, norm_go]
    congr 1
    have h' := uniqueKeys_go.1 h
    rw [List.map_congr_left (g := id) (fun v hv => ih v hv (h' v hv))]
    simp
  | hobj l ih =>
    have h' := uniqueKeys_goM.1 h.2
    rw [norm, norm_goM_eq [] (by simpa using h.1) (fun k v hv => ih k v hv (h' k v hv))]
    simp

end Abieos
