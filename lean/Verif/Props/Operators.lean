import Verif.Model.Operators
import Verif.Spec.Order
/-
C47: comparison of reflected structs.
-/
namespace Abieos
open Spec

/-- The `<` and `==` a member has, with the value of `eosio_compare` for it: negative, zero or positive as the order says. -/
def Member.Sound {α : Type} (m : Member α) : Prop :=
  TotalOrder (fun x y => m.compare x y < 0) (fun x y => m.eq x y = true) ∧
    (∀ x y, m.compare x y = 0 ↔ m.eq x y = true) ∧ ∀ x y, m.compare x y > 0 ↔ m.compare y x < 0

theorem structEq_iff {α : Type} (ms : List (Member α)) (a b : α) : structEq ms a b = true ↔ ∀ m ∈ ms, m.eq (m.get a) (m.get b) = true := by
  have : ∀ r, ms.foldl (fun result m => result && m.eq (m.get a) (m.get b)) r = true ↔ r = true ∧ ∀ m ∈ ms, m.eq (m.get a) (m.get b) = true := by
    induction ms with
    | nil => simp
    | cons m ms ih =>
      intro r
      rw [List.foldl_cons, ih, Bool.and_eq_true]
      simp [and_assoc]
  unfold structEq
  rw [this]
  simp

theorem structCompare_nil {α : Type} (a b : α) : structCompare [] a b = 0 := rfl

theorem structCompare_cons {α : Type} (m : Member α) (ms : List (Member α)) (a b : α) :
    structCompare (m :: ms) a b = if m.compare (m.get a) (m.get b) = 0 then structCompare ms a b else m.compare (m.get a) (m.get b) := by
  have : ∀ r : Int, r ≠ 0 → ms.foldl (fun result m => if result = 0 then m.compare (m.get a) (m.get b) else result) r = r := by
    induction ms with
    | nil => simp
    | cons m ms ih =>
      intro r hr
      rw [List.foldl_cons, if_neg hr]
      exact ih r hr
  unfold structCompare
  rw [List.foldl_cons, if_pos rfl]
  by_cases h : m.compare (m.get a) (m.get b) = 0
  · rw [if_pos h, h]
  · rw [if_neg h, this _ h]

/-- **C47, fields with their own operators.** If `<` and `==` of the field's type are a total order, the field is compared soundly. -/
theorem c47_leaf {α β : Type} (get : α → β) {lt eq : β → β → Bool} (h : TotalOrder (fun x y => lt x y = true) (fun x y => eq x y = true)) :
    (Member.leaf get lt eq).Sound ∧ ∀ x y, (Member.leaf get lt eq).compare x y < 0 ↔ lt x y = true := by
  have e : ∀ x y, leafCompare lt x y < 0 ↔ lt x y = true := by
    intro x y
    unfold leafCompare
    by_cases h1 : lt x y = true
    · simp [h1]
    · by_cases h2 : lt y x = true <;> simp [h1, h2]
  refine ⟨⟨?_, ?_, ?_⟩, e⟩
  · show TotalOrder (fun x y => leafCompare lt x y < 0) _
    simp only [e]
    exact h
  · intro x y
    show leafCompare lt x y = 0 ↔ eq x y = true
    unfold leafCompare
    by_cases h1 : lt x y = true
    · have := (h.ltNotEq x y h1).1
      simpa [h1] using this
    · by_cases h2 : lt y x = true
      · have := (h.ltNotEq y x h2).2
        simpa [h1, h2] using this
      · rcases h.some x y with h' | h' | h'
        · exact absurd h' h1
        · simp [h1, h2, h']
        · exact absurd h' h2
  · intro x y
    change β at x y
    show leafCompare lt x y > 0 ↔ leafCompare lt y x < 0
    rw [e]
    unfold leafCompare
    by_cases h1 : lt x y = true
    · have := h.asymm x y h1
      simp [h1, this]
    · by_cases h2 : lt y x = true <;> simp [h1, h2]

section
variable {α : Type}

theorem structCompare_sound : ∀ {ms : List (Member α)}, (∀ m ∈ ms, m.Sound) → ∀ a b,
    (structCompare ms a b = 0 ↔ structEq ms a b = true) ∧ (structCompare ms a b > 0 ↔ structCompare ms b a < 0)
  | [], _, a, b => by simp [structCompare, structEq]
  | m :: ms, h, a, b => by
    obtain ⟨-, h1, h2⟩ := h m (by simp)
    obtain ⟨i1, i2⟩ := structCompare_sound (ms := ms) (fun x hx => h x (by simp [hx])) a b
    rw [structCompare_cons, structCompare_cons, structEq_iff]
    rw [structEq_iff] at i1
    have e1 := h1 (m.get a) (m.get b)
    have e2 := h2 (m.get a) (m.get b)
    have e3 := h2 (m.get b) (m.get a)
    constructor
    · by_cases hz : m.compare (m.get a) (m.get b) = 0
      · simp only [hz, if_true, i1, List.mem_cons, forall_eq_or_imp]
        simp [e1.1 hz]
      · simp only [hz, if_false, List.mem_cons, forall_eq_or_imp, false_iff, not_and]
        exact fun h => absurd (e1.2 h) hz
    · by_cases hz : m.compare (m.get a) (m.get b) = 0
      · have : m.compare (m.get b) (m.get a) = 0 := by omega
        simp only [hz, this, if_true]; exact i2
      · have : m.compare (m.get b) (m.get a) ≠ 0 := by omega
        simp only [hz, this, if_false]; omega

/-- How the structs compare in each field, in the order of the declaration. -/
def fieldOrders (ms : List (Member α)) (a b : α) : List FieldOrder :=
  ms.map fun m => ⟨m.compare (m.get a) (m.get b) < 0, m.eq (m.get a) (m.get b) = true⟩

/-- **C47, lexicographic.** `a < b` exactly when there is a first field in which they are not equal and it is less in `a`. -/
theorem c47_lexicographic : ∀ {ms : List (Member α)}, (∀ m ∈ ms, m.Sound) → ∀ a b, structLt ms a b = true ↔ FirstLess (fieldOrders ms a b)
  | [], _, a, b => by simp [structLt, structCompare, FirstLess, fieldOrders]
  | m :: ms, h, a, b => by
    obtain ⟨ht, h1, -⟩ := h m (by simp)
    have ih := c47_lexicographic (ms := ms) (fun x hx => h x (by simp [hx])) a b
    have e1 := h1 (m.get a) (m.get b)
    unfold structLt at *
    rw [decide_eq_true_eq] at *
    rw [structCompare_cons]
    constructor
    · intro hl
      by_cases hz : m.compare (m.get a) (m.get b) = 0
      · rw [if_pos hz] at hl
        obtain ⟨bf, f, af, g1, g2, g3⟩ := ih.1 hl
        refine ⟨⟨m.compare (m.get a) (m.get b) < 0, m.eq (m.get a) (m.get b) = true⟩ :: bf, f, af, ?_, ?_, g3⟩
        · simp only [fieldOrders, List.map_cons, List.cons_append] at g1 ⊢
          rw [g1]
        · intro g hg
          rcases List.mem_cons.1 hg with rfl | hg
          · exact e1.1 hz
          · exact g2 g hg
      · rw [if_neg hz] at hl
        exact ⟨[], _, _, rfl, by simp, hl⟩
    · rintro ⟨bf, f, af, g1, g2, g3⟩
      cases bf with
      | nil =>
        simp only [fieldOrders, List.map_cons, List.nil_append, List.cons.injEq] at g1
        obtain ⟨rfl, -⟩ := g1
        replace g3 : m.compare (m.get a) (m.get b) < 0 := g3
        rw [if_neg (by omega)]
        exact g3
      | cons x bf =>
        simp only [fieldOrders, List.map_cons, List.cons_append, List.cons.injEq] at g1
        obtain ⟨rfl, g1⟩ := g1
        rw [if_pos (e1.2 (g2 _ List.mem_cons_self))]
        exact ih.2 ⟨bf, f, af, g1, fun g hg => g2 g (List.mem_cons_of_mem _ hg), g3⟩

/-- **C47, equality.** Structs are equal when all fields are. -/
theorem c47_equal (ms : List (Member α)) (a b : α) : structEq ms a b = true ↔ ∀ m ∈ ms, m.eq (m.get a) (m.get b) = true := structEq_iff ms a b

/-- **C47, total order.** If all fields are compared soundly, `<` and `==` of the struct are a total order. -/
theorem c47_total : ∀ {ms : List (Member α)}, (∀ m ∈ ms, m.Sound) →
    TotalOrder (fun a b => structLt ms a b = true) (fun a b => structEq ms a b = true) := by
  intro ms h
  have hs := structCompare_sound h
  unfold structLt
  simp only [decide_eq_true_eq]
  refine ⟨?_, ?_, ?_, ?_, ?_⟩
  · intro a b
    have h1 := hs a b
    rw [← h1.1]
    omega
  · intro a b hl
    have h1 := hs a b
    have h2 := hs b a
    rw [← h1.1, ← h2.1]
    omega
  · intro a b hl
    have h1 := hs a b
    have h2 := hs b a
    omega
  · intro a b c
    clear hs
    induction ms with
    | nil => simp [structCompare]
    | cons m ms ih =>
      have ih := ih fun x hx => h x (by simp [hx])
      obtain ⟨ht, h1, h2⟩ := h m (by simp)
      rw [structCompare_cons, structCompare_cons, structCompare_cons]
      have eab := h1 (m.get a) (m.get b)
      have ebc := h1 (m.get b) (m.get c)
      have eac := h1 (m.get a) (m.get c)
      have sab := h2 (m.get a) (m.get b)
      have sac := h2 (m.get a) (m.get c)
      have scb := h2 (m.get c) (m.get b)
      have sbc := h2 (m.get b) (m.get c)
      have sba := h2 (m.get b) (m.get a)
      have t1 := ht.ltTrans (m.get a) (m.get b) (m.get c)
      have t2 := ht.eqTrans (m.get a) (m.get b) (m.get c)
      have t3 := ht.ltTrans (m.get c) (m.get a) (m.get b)
      have t4 := ht.ltTrans (m.get b) (m.get c) (m.get a)
      have t5 := ht.eqTrans (m.get a) (m.get c) (m.get b)
      have t6 := ht.eqTrans (m.get b) (m.get a) (m.get c)
      have eba := h1 (m.get b) (m.get a)
      have ecb := h1 (m.get c) (m.get b)
      rw [← eab, ← ebc, ← eac] at t2
      rw [← eac, ← ecb, ← eab] at t5
      rw [← eba, ← eac, ← ebc] at t6
      by_cases z1 : m.compare (m.get a) (m.get b) = 0
      · by_cases z2 : m.compare (m.get b) (m.get c) = 0
        · rw [if_pos z1, if_pos z2, if_pos (t2 z1 z2)]
          exact ih
        · rw [if_pos z1, if_neg z2]
          intro g1 g2
          have : m.compare (m.get a) (m.get c) ≠ 0 := fun h => z2 (t6 (by omega) h)
          rw [if_neg this]
          by_cases hc : m.compare (m.get a) (m.get c) > 0
          · have := t4 g2 (sac.1 hc); omega
          · omega
      · by_cases z2 : m.compare (m.get b) (m.get c) = 0
        · rw [if_neg z1, if_pos z2]
          intro g1 g2
          have : m.compare (m.get a) (m.get c) ≠ 0 := fun h => z1 (t5 h (by omega))
          rw [if_neg this]
          by_cases hc : m.compare (m.get a) (m.get c) > 0
          · have := t3 (sac.1 hc) g1; omega
          · omega
        · rw [if_neg z1, if_neg z2]
          intro g1 g2
          have := t1 g1 g2
          rw [if_neg (by omega)]
          exact this
  · intro a b c h1 h2
    rw [structEq_iff] at *
    exact fun m hm => (h m hm).1.eqTrans _ _ _ (h1 m hm) (h2 m hm)

/-- **C47, nested structs.** A field whose type uses EOSIO_COMPARE with soundly compared fields is compared soundly itself. -/
theorem c47_nested {β : Type} (get : α → β) {ms : List (Member β)} (h : ∀ m ∈ ms, m.Sound) : (Member.nested get ms).Sound := by
  refine ⟨?_, fun x y => (structCompare_sound h x y).1, fun x y => (structCompare_sound h x y).2⟩
  have := c47_total h
  unfold structLt at this
  simp only [decide_eq_true_eq] at this
  exact this

/-- **C47, the other operators.** -/
theorem c47_operators {ms : List (Member α)} (h : ∀ m ∈ ms, m.Sound) (a b : α) :
    (structGt ms a b = true ↔ structLt ms b a = true) ∧
    (structLe ms a b = true ↔ structLt ms a b = true ∨ structEq ms a b = true) ∧
    (structGe ms a b = true ↔ structLt ms b a = true ∨ structEq ms a b = true) ∧
    (structNe ms a b = true ↔ ¬ structEq ms a b = true) := by
  have h1 := structCompare_sound h a b
  unfold structGt structLt structLe structGe structNe
  simp only [decide_eq_true_eq, ← h1.1]
  refine ⟨h1.2, by omega, by omega, ?_⟩
  rw [h1.1]
  simp

end

/-! ## Example: `struct { uint64_t a; struct { int32_t x; bool y; } b; }` -/

theorem nat_total : TotalOrder (fun x y : Nat => decide (x < y) = true) (fun x y => (x == y) = true) :=
  ⟨by simp; omega, by simp; omega, by simp; omega, by simp; omega, by simp⟩
theorem int_total : TotalOrder (fun x y : Int => decide (x < y) = true) (fun x y => (x == y) = true) :=
  ⟨by simp; omega, by simp; omega, by simp; omega, by simp; omega, by simp⟩
theorem bool_total : TotalOrder (fun x y : Bool => (!x && y) = true) (fun x y => (x == y) = true) :=
  ⟨by decide, by decide, by decide, by decide, by decide⟩

def exampleInner : List (Member (Int × Bool)) := [.leaf Prod.fst (fun x y => decide (x < y)) (· == ·), .leaf Prod.snd (fun x y => !x && y) (· == ·)]
def exampleOuter : List (Member (Nat × Int × Bool)) := [.leaf Prod.fst (fun x y => decide (x < y)) (· == ·), .nested Prod.snd exampleInner]

example : ∀ m ∈ exampleOuter, m.Sound := by
  intro m hm
  simp only [exampleOuter, List.mem_cons, List.not_mem_nil, or_false] at hm
  rcases hm with rfl | rfl
  · exact (c47_leaf _ nat_total).1
  · refine c47_nested _ fun m hm => ?_
    simp only [exampleInner, List.mem_cons, List.not_mem_nil, or_false] at hm
    rcases hm with rfl | rfl
    · exact (c47_leaf _ int_total).1
    · exact (c47_leaf _ bool_total).1

example : structLt exampleOuter (5, -3, false) (5, -3, true) = true ∧ structLt exampleOuter (5, -3, true) (5, -3, false) = false ∧
    structEq exampleOuter (5, -3, true) (5, -3, true) = true ∧ structGe exampleOuter (6, -3, true) (5, 7, true) = true := by decide

end Abieos
