import Verif.Proofs.AddType
/-! What the table says about the types of a program while they are added. -/
namespace Abieos
open Spec

/-- direct components -/
inductive Comp (P : Prog) : CTy → CTy → Prop
  | vec {t : CTy} : Comp P (.vec t) t
  | opt {t : CTy} : Comp P (.opt t) t
  | ext {t : CTy} : Comp P (.ext t) t
  | alt {ts : List CTy} {t : CTy} : t ∈ ts → Comp P (.variant ts) t
  | field {n m : Bytes} {t : CTy} : (m, t) ∈ P.fields n → Comp P (.struct n) t

theorem uses_comp {P : Prog} {t u w : CTy} (h : Uses P t u) (hc : Comp P u w) : Uses P t w := by
  induction h with
  | self =>
    cases hc with
    | vec => exact .vec .self
    | opt => exact .opt .self
    | ext => exact .ext .self
    | alt h => exact .alt h .self
    | field h => exact .field h .self
  | vec _ ih => exact .vec (ih hc)
  | opt _ ih => exact .opt (ih hc)
  | ext _ ih => exact .ext (ih hc)
  | alt h _ ih => exact .alt h (ih hc)
  | field h _ ih => exact .field h (ih hc)

theorem uses_trans {P : Prog} {t u w : CTy} (h : Uses P t u) (hc : Uses P u w) : Uses P t w := by
  induction h with
  | self => exact hc
  | vec _ ih => exact .vec (ih hc)
  | opt _ ih => exact .opt (ih hc)
  | ext _ ih => exact .ext (ih hc)
  | alt h _ ih => exact .alt h (ih hc)
  | field h _ ih => exact .field h (ih hc)

/-- the entry of a field -/
def fieldOf (f : Bytes × CTy) : Field := ⟨f.1, typeText f.2⟩

/-- the set of types that is being added -/
structure Closed (P : Prog) (R : CTy → Prop) : Prop where
  comp : ∀ u w, R u → Comp P u w → R w
  inj : ∀ u w, R u → R w → typeText u = typeText w → u = w

/-- the entry of a type, when it is there: complete, or that of a struct in `S` which has some of its fields -/
def EntryFits (P : Prog) (T : Table) (S : List Bytes) (u : CTy) : Prop :=
  (T.get (typeText u) = some (shape P u) ∧ (∀ w, Comp P u w → (T.get (typeText w)).isSome) ∧ Nests u) ∨
  (∃ m pre suf, u = .struct m ∧ m ∈ S ∧ T.get m = some (.struct (pre.map fieldOf)) ∧ P.fields m = pre ++ suf ∧ ∀ f ∈ pre, (T.get (typeText f.2)).isSome)

def AddGood (P : Prog) (R : CTy → Prop) (T : Table) (S : List Bytes) : Prop := ∀ u, R u → (T.get (typeText u)).isSome → EntryFits P T S u

/-- only types of `R` are new -/
def Only (R : CTy → Prop) (T T' : Table) : Prop := ∀ k, (T'.get k).isSome → (T.get k).isSome ∨ ∃ u, R u ∧ k = typeText u

theorem Only.refl {R : CTy → Prop} (T : Table) : Only R T T := fun _ h => .inl h
theorem Only.trans {R : CTy → Prop} {A B C : Table} (h : Only R A B) (h' : Only R B C) : Only R A C := by
  intro k hk
  rcases h' k hk with h1 | h1
  · exact h k h1
  · exact .inr h1

theorem EntryFits.grow {P : Prog} {T T' : Table} {S S' : List Bytes} {u : CTy} (h : EntryFits P T S u) (he : T'.get (typeText u) = T.get (typeText u))
    (hp : ∀ k, (T.get k).isSome → (T'.get k).isSome) (hS : ∀ m ∈ S, m ∈ S') : EntryFits P T' S' u := by
  rcases h with ⟨h1, h2, h3⟩ | ⟨m, pre, suf, rfl, h1, h2, h3, h4⟩
  · exact .inl ⟨by rw [he, h1], fun w hw => hp _ (h2 w hw), h3⟩
  · refine .inr ⟨m, pre, suf, rfl, hS m h1, ?_, h3, fun f hf => hp _ (h4 f hf)⟩
    simp only [typeText] at he
    rw [he, h2]

section
variable {P : Prog} {R : CTy → Prop} (hR : Closed P R)
include hR

theorem good_emplace {T : Table} {S : List Bytes} {u : CTy} (hg : AddGood P R T S) (hu : R u) (hc : ∀ w, Comp P u w → (T.get (typeText w)).isSome) (hn : Nests u) :
    AddGood P R (T.emplace (typeText u) (shape P u)) S := by
  intro w hw hs
  have hk := keeps_emplace T (typeText u) (shape P u)
  cases e : T.get (typeText w) with
  | some d => exact (hg w hw (by simp [e])).grow (by rw [hk _ _ e, e]) (fun _ => hk.pres) (fun _ h => h)
  | none =>
    have hg' : (T.emplace (typeText u) (shape P u)).get (typeText w) = if typeText w = typeText u then some (shape P u) else none := by
      rw [Table.get_emplace, e]
    rw [hg'] at hs
    split at hs
    · rename_i e'
      obtain rfl := hR.inj w u hw hu e'
      exact .inl ⟨by rw [hg', if_pos rfl], fun x hx => hk.pres (hc x hx), hn⟩
    · simp at hs

theorem only_emplace {T : Table} {u : CTy} (d : TData) (hu : R u) : Only R T (T.emplace (typeText u) d) := by
  intro k hk
  rw [Table.get_emplace] at hk
  cases e : T.get k with
  | some x => left; rfl
  | none =>
    rw [e] at hk
    simp only at hk
    split at hk
    · exact .inr ⟨u, hu, by assumption⟩
    · simp at hk

theorem some_emplace (T : Table) (k : Bytes) (d : TData) : ((T.emplace k d).get k).isSome := by
  rw [Table.get_emplace]
  cases T.get k <;> simp

theorem good_insert {T : Table} {S : List Bytes} {m : Bytes} (hg : AddGood P R T S) (hm : R (.struct m)) (hn : T.get m = none) :
    AddGood P R (T.insertNew m (.struct [])) (m :: S) := by
  intro w hw hs
  by_cases e : typeText w = m
  · obtain rfl := hR.inj w (.struct m) hw hm (by simp only [typeText]; exact e)
    exact .inr ⟨m, [], P.fields m, rfl, by simp, by rw [Table.get_insertNew _ hn, if_pos rfl]; rfl, rfl, by simp⟩
  · have he : (T.insertNew m (.struct [])).get (typeText w) = T.get (typeText w) := by rw [Table.get_insertNew _ hn, if_neg e]
    rw [he] at hs
    refine (hg w hw hs).grow he (fun k hk => ?_) (fun x hx => by simp [hx])
    rw [Table.get_insertNew _ hn]; split <;> simp [hk]

theorem good_push {T : Table} {S : List Bytes} {m : Bytes} {pre suf : List (Bytes × CTy)} {f : Bytes × CTy} (hg : AddGood P R T (m :: S)) (hm : R (.struct m))
    (hp : P.fields m = pre ++ f :: suf) (h1 : T.get m = some (.struct (pre.map fieldOf))) (h2 : ∀ g ∈ pre, (T.get (typeText g.2)).isSome) (h3 : (T.get (typeText f.2)).isSome) :
    AddGood P R (T.pushField m (fieldOf f)) (m :: S) := by
  intro w hw hs
  by_cases e : typeText w = m
  · obtain rfl := hR.inj w (.struct m) hw hm (by simp only [typeText]; exact e)
    refine .inr ⟨m, pre ++ [f], suf, rfl, by simp, by rw [get_pushField_self h1]; simp, by simp [hp], ?_⟩
    intro g hg'
    apply pres_pushField
    rcases List.mem_append.1 hg' with h | h
    · exact h2 g h
    · simp only [List.mem_singleton] at h; subst h; exact h3
  · have he : (T.pushField m (fieldOf f)).get (typeText w) = T.get (typeText w) := get_pushField _ _ _ _ e
    rw [he] at hs
    exact (hg w hw hs).grow he (fun k hk => pres_pushField _ hk) (fun _ h => h)

/-- what a call does to the table -/
def Effect (P : Prog) (R : CTy → Prop) (S : List Bytes) (T : Table) (t : CTy) (r : Res Ptr) (T' : Table) : Prop :=
  Only R T T' ∧ match r with
    | .ok p => AddGood P R T' S ∧ p = typeText t ∧ (T'.get (typeText t)).isSome
    | .error _ => ∃ S', AddGood P R T' S'

theorem addFields_effect {add : CTy → Table → Res Ptr × Table} (hk : ∀ t T, Keeps T (add t T).2) (ha : ∀ t T S, R t → AddGood P R T S → Effect P R S T t (add t T).1 (add t T).2)
    {m : Bytes} {S : List Bytes} (hm : R (.struct m)) : ∀ (fs pre : List (Bytes × CTy)) (T : Table), P.fields m = pre ++ fs → AddGood P R T (m :: S) →
      T.get m = some (.struct (pre.map fieldOf)) → (∀ g ∈ pre, (T.get (typeText g.2)).isSome) →
      Only R T (addFields add m fs T).2 ∧ match (addFields add m fs T).1 with
        | .ok _ => AddGood P R (addFields add m fs T).2 (m :: S) ∧ (addFields add m fs T).2.get m = some (shape P (.struct m)) ∧
            ∀ g ∈ P.fields m, ((addFields add m fs T).2.get (typeText g.2)).isSome
        | .error _ => ∃ S', AddGood P R (addFields add m fs T).2 S'
  | [], pre, T, hp, hg, h1, h2 => by
    rw [List.append_nil] at hp
    refine ⟨Only.refl T, hg, ?_, ?_⟩
    · rw [addFields, h1, shape, hp]; rfl
    · rw [hp]; exact h2
  | (n, t) :: fs, pre, T, hp, hg, h1, h2 => by
    have ht : R t := hR.comp _ _ hm (.field (m := n) (by rw [hp]; simp))
    have h3 := ha t T (m :: S) ht hg
    have h4 := hk t T
    rw [addFields]
    cases e : add t T with
    | mk r T' =>
    rw [e] at h3 h4
    simp only at h3 h4
    obtain ⟨h5, h6⟩ := h3
    cases r with
    | error x => exact ⟨h5, h6⟩
    | ok p =>
      simp only at h6 ⊢
      obtain ⟨h6, rfl, h7⟩ := h6
      have k1 := h4 _ _ h1
      have k2 : ∀ g ∈ pre, (T'.get (typeText g.2)).isSome := fun g hg => h4.pres (h2 g hg)
      have ih := addFields_effect hk ha hm fs (pre ++ [(n, t)]) (T'.pushField m (fieldOf (n, t))) (by simp [hp]) (good_push hR h6 hm (suf := fs) (f := (n, t)) (by simp [hp]) k1 k2 h7)
        (by rw [get_pushField_self k1]; simp) (by
          intro g hg'
          apply pres_pushField
          rcases List.mem_append.1 hg' with h | h
          · exact k2 g h
          · simp only [List.mem_singleton] at h; subst h; exact h7)
      refine ⟨(h5.trans ?_).trans ih.1, ih.2⟩
      intro k hk'
      by_cases e : k = m
      · subst e; left; simp [k1]
      · rw [get_pushField _ _ _ _ e] at hk'; exact .inl hk'

theorem addAlts_effect {add : CTy → Table → Res Ptr × Table} (hk : ∀ t T, Keeps T (add t T).2) (ha : ∀ t T S, R t → AddGood P R T S → Effect P R S T t (add t T).1 (add t T).2)
    {S : List Bytes} : ∀ (ts : List CTy) (T : Table), (∀ t ∈ ts, R t) → AddGood P R T S →
      Only R T (addAlts add ts T).2 ∧ match (addAlts add ts T).1 with
        | .ok l => AddGood P R (addAlts add ts T).2 S ∧ l = ts.map (fun t => ⟨typeText t, typeText t⟩) ∧ ∀ t ∈ ts, ((addAlts add ts T).2.get (typeText t)).isSome
        | .error _ => ∃ S', AddGood P R (addAlts add ts T).2 S'
  | [], T, _, hg => ⟨Only.refl T, hg, rfl, by simp⟩
  | t :: ts, T, hts, hg => by
    have h3 := ha t T S (hts t (by simp)) hg
    rw [addAlts]
    cases e : add t T with
    | mk r T' =>
    rw [e] at h3
    simp only at h3
    obtain ⟨h5, h6⟩ := h3
    cases r with
    | error x => exact ⟨h5, h6⟩
    | ok p =>
      simp only at h6 ⊢
      obtain ⟨h6, rfl, h7⟩ := h6
      have ih := addAlts_effect hk ha ts T' (fun u hu => hts u (by simp [hu])) h6
      have h8 := addAlts_keeps hk ts T'
      cases e' : addAlts add ts T' with
      | mk r T'' =>
      rw [e'] at ih h8
      obtain ⟨i1, i2⟩ := ih
      cases r with
      | error x => exact ⟨h5.trans i1, i2⟩
      | ok l =>
        simp only at i2 ⊢
        obtain ⟨i2, rfl, i3⟩ := i2
        refine ⟨h5.trans i1, i2, rfl, ?_⟩
        intro u hu
        rcases List.mem_cons.1 hu with rfl | hu
        · exact h8.pres h7
        · exact i3 u hu

omit hR in
theorem wrapper_of {T : Table} {S : List Bytes} {t : CTy} (h : EntryFits P T S t) :
    (T.isWrapperAt (typeText t) = false ↔ Nests (.vec t)) ∧ (T.isWrapperAt (typeText t) = false ↔ Nests (.opt t)) ∧ (T.isExtAt (typeText t) = false ↔ Nests (.ext t)) := by
  unfold Table.isWrapperAt Table.isExtAt
  rcases h with ⟨h, -, -⟩ | ⟨m, pre, suf, rfl, -, h, -⟩
  · rw [h]; cases t <;> simp [shape, Nests]
  · simp only [typeText]; rw [h]; simp [Nests]

theorem addType_effect : ∀ (n : Nat) (t : CTy) (T : Table) (S : List Bytes), R t → AddGood P R T S → Effect P R S T t (addType P n t T).1 (addType P n t T).2
  | 0, t, T, S, _, hg => by rw [addType]; exact ⟨Only.refl T, S, hg⟩
  | n + 1, .leaf k, T, S, _, hg => by
    rw [addType]
    split
    · exact ⟨Only.refl T, S, hg⟩
    · rename_i d hd
      refine ⟨Only.refl T, hg, by simp only [typeText], ?_⟩
      simp only [typeText]; rw [hd]; rfl
  | n + 1, .struct m, T, S, ht, hg => by
    rw [addType]
    cases hm : T.get m with
    | some d => exact ⟨Only.refl T, hg, by simp only [typeText], by simp only [typeText]; rw [hm]; rfl⟩
    | none =>
      have hins : (T.insertNew m (.struct [])).get m = some (.struct []) := by rw [Table.get_insertNew _ hm, if_pos rfl]
      have h := addFields_effect hR (addType_keeps P n) (fun t T S => addType_effect n t T S) (S := S) ht (P.fields m) [] (T.insertNew m (.struct [])) rfl
        (good_insert hR hg ht hm) hins (by simp)
      have ho : Only R T (T.insertNew m (.struct [])) := by
        intro k hk
        rw [Table.get_insertNew _ hm] at hk
        split at hk
        · exact .inr ⟨.struct m, ht, by simp only [typeText]; assumption⟩
        · exact .inl hk
      simp only
      cases e : addFields (addType P n) m (P.fields m) (T.insertNew m (.struct [])) with
      | mk r T' =>
      rw [e] at h
      obtain ⟨h1, h2⟩ := h
      cases r with
      | error x => exact ⟨ho.trans h1, h2⟩
      | ok x =>
        simp only at h2 ⊢
        obtain ⟨h2, h3, h4⟩ := h2
        refine ⟨ho.trans h1, ?_, by simp only [typeText], by simp only [typeText]; rw [h3]; rfl⟩
        intro u hu hs
        rcases h2 u hu hs with h5 | ⟨m', pre, suf, rfl, h5, h6, h7, h8⟩
        · exact .inl h5
        · by_cases e' : m' = m
          · subst e'
            refine .inl ⟨by simpa only [typeText] using h3, ?_, by simp [Nests]⟩
            intro w hw
            cases hw with
            | field hw => exact h4 _ hw
          · exact .inr ⟨m', pre, suf, rfl, by simpa [e'] using h5, h6, h7, h8⟩
  | n + 1, .vec t, T, S, ht, hg => by
    have htt := hR.comp _ _ ht .vec
    have h := addType_effect n t T S htt hg
    rw [addType]
    cases e : addType P n t T with
    | mk r T' =>
    rw [e] at h
    obtain ⟨h1, h2⟩ := h
    cases r with
    | error x => exact ⟨h1, h2⟩
    | ok p =>
      simp only at h2 ⊢
      obtain ⟨h2, rfl, h3⟩ := h2
      have hw := wrapper_of (h2 t htt h3)
      split
      · exact ⟨h1, S, h2⟩
      · rename_i hc
        rw [name_eq]
        have hn : Nests (.vec t) := hw.1.1 (by simpa using hc)
        have hsh : TData.array (typeText t) = shape P (.vec t) := by simp only [shape]
        rw [hsh]
        exact ⟨h1.trans (only_emplace hR _ ht), good_emplace hR h2 ht (by intro w hw; cases hw; exact h3) hn, rfl, some_emplace hR _ _ _⟩
  | n + 1, .opt t, T, S, ht, hg => by
    have htt := hR.comp _ _ ht .opt
    have h := addType_effect n t T S htt hg
    rw [addType]
    cases e : addType P n t T with
    | mk r T' =>
    rw [e] at h
    obtain ⟨h1, h2⟩ := h
    cases r with
    | error x => exact ⟨h1, h2⟩
    | ok p =>
      simp only at h2 ⊢
      obtain ⟨h2, rfl, h3⟩ := h2
      have hw := wrapper_of (h2 t htt h3)
      split
      · exact ⟨h1, S, h2⟩
      · rename_i hc
        rw [name_eq]
        have hn : Nests (.opt t) := hw.2.1.1 (by simpa using hc)
        have hsh : TData.optional (typeText t) = shape P (.opt t) := by simp only [shape]
        rw [hsh]
        exact ⟨h1.trans (only_emplace hR _ ht), good_emplace hR h2 ht (by intro w hw; cases hw; exact h3) hn, rfl, some_emplace hR _ _ _⟩
  | n + 1, .ext t, T, S, ht, hg => by
    have htt := hR.comp _ _ ht .ext
    have h := addType_effect n t T S htt hg
    rw [addType]
    cases e : addType P n t T with
    | mk r T' =>
    rw [e] at h
    obtain ⟨h1, h2⟩ := h
    cases r with
    | error x => exact ⟨h1, h2⟩
    | ok p =>
      simp only at h2 ⊢
      obtain ⟨h2, rfl, h3⟩ := h2
      have hw := wrapper_of (h2 t htt h3)
      split
      · exact ⟨h1, S, h2⟩
      · rename_i hc
        have hn : Nests (.ext t) := hw.2.2.1 (by simpa using hc)
        have hsh : TData.extension (typeText t) = shape P (.ext t) := by simp only [shape]
        have hnm : typeText t ++ str "$" = typeText (.ext t) := by simp only [typeText]
        rw [hsh, hnm]
        exact ⟨h1.trans (only_emplace hR _ ht), good_emplace hR h2 ht (by intro w hw; cases hw; exact h3) hn, rfl, some_emplace hR _ _ _⟩
  | n + 1, .variant ts, T, S, ht, hg => by
    have h := addAlts_effect hR (addType_keeps P n) (fun t T S => addType_effect n t T S) (S := S) ts T (fun t h => hR.comp _ _ ht (.alt h)) hg
    rw [addType]
    cases e : addAlts (addType P n) ts T with
    | mk r T' =>
    rw [e] at h
    obtain ⟨h1, h2⟩ := h
    cases r with
    | error x => exact ⟨h1, h2⟩
    | ok l =>
      simp only at h2 ⊢
      obtain ⟨h2, rfl, h3⟩ := h2
      rw [name_eq]
      have hsh : TData.variant (ts.map fun t => ⟨typeText t, typeText t⟩) = shape P (.variant ts) := by simp only [shape]
      rw [hsh]
      exact ⟨h1.trans (only_emplace hR _ ht), good_emplace hR h2 ht (by intro w hw; cases hw with | alt hw => exact h3 _ hw) (by simp [Nests]), rfl, some_emplace hR _ _ _⟩

/-! ## no errors -/

theorem addFields_noError {add : CTy → Table → Res Ptr × Table} (hk : ∀ t T, Keeps T (add t T).2) (ha : ∀ t T S, R t → AddGood P R T S → Effect P R S T t (add t T).1 (add t T).2)
    (hne : ∀ t T S, R t → AddGood P R T S → (∀ k, R (.leaf k) → (T.get k.typeName).isSome) → ∀ e, (add t T).1 = .error e → e = .ub)
    {m : Bytes} {S : List Bytes} (hm : R (.struct m)) : ∀ (fs pre : List (Bytes × CTy)) (T : Table), P.fields m = pre ++ fs → AddGood P R T (m :: S) →
      T.get m = some (.struct (pre.map fieldOf)) → (∀ g ∈ pre, (T.get (typeText g.2)).isSome) → (∀ k, R (.leaf k) → (T.get k.typeName).isSome) →
      ∀ e, (addFields add m fs T).1 = .error e → e = .ub
  | [], pre, T, _, _, _, _, _ => by intro e h; cases h
  | (n, t) :: fs, pre, T, hp, hg, h1, h2, hl => by
    have ht : R t := hR.comp _ _ hm (.field (m := n) (by rw [hp]; simp))
    have h3 := ha t T (m :: S) ht hg
    have h4 := hk t T
    have h5 := hne t T (m :: S) ht hg hl
    rw [addFields]
    cases e : add t T with
    | mk r T' =>
    rw [e] at h3 h4 h5
    simp only at h3 h4 h5
    obtain ⟨-, h6⟩ := h3
    cases r with
    | error x => intro e he; simp only [Except.error.injEq] at he; subst he; exact h5 _ rfl
    | ok p =>
      simp only at h6 ⊢
      obtain ⟨h6, rfl, h7⟩ := h6
      have k1 := h4 _ _ h1
      have k2 : ∀ g ∈ pre, (T'.get (typeText g.2)).isSome := fun g hg => h4.pres (h2 g hg)
      exact addFields_noError hk ha hne hm fs (pre ++ [(n, t)]) (T'.pushField m (fieldOf (n, t))) (by simp [hp]) (good_push hR h6 hm (suf := fs) (f := (n, t)) (by simp [hp]) k1 k2 h7)
        (by rw [get_pushField_self k1]; simp) (by
          intro g hg'
          apply pres_pushField
          rcases List.mem_append.1 hg' with h | h
          · exact k2 g h
          · simp only [List.mem_singleton] at h; subst h; exact h7) (fun k hk' => pres_pushField _ (h4.pres (hl k hk')))

theorem addAlts_noError {add : CTy → Table → Res Ptr × Table} (hk : ∀ t T, Keeps T (add t T).2) (ha : ∀ t T S, R t → AddGood P R T S → Effect P R S T t (add t T).1 (add t T).2)
    (hne : ∀ t T S, R t → AddGood P R T S → (∀ k, R (.leaf k) → (T.get k.typeName).isSome) → ∀ e, (add t T).1 = .error e → e = .ub)
    {S : List Bytes} : ∀ (ts : List CTy) (T : Table), (∀ t ∈ ts, R t) → AddGood P R T S → (∀ k, R (.leaf k) → (T.get k.typeName).isSome) →
      ∀ e, (addAlts add ts T).1 = .error e → e = .ub
  | [], T, _, _, _ => by intro e h; cases h
  | t :: ts, T, hts, hg, hl => by
    have h3 := ha t T S (hts t (by simp)) hg
    have h4 := hk t T
    have h5 := hne t T S (hts t (by simp)) hg hl
    rw [addAlts]
    cases e : add t T with
    | mk r T' =>
    rw [e] at h3 h4 h5
    simp only at h3 h4 h5
    obtain ⟨-, h6⟩ := h3
    cases r with
    | error x => intro e he; simp only [Except.error.injEq] at he; subst he; exact h5 _ rfl
    | ok p =>
      simp only at h6 ⊢
      have ih := addAlts_noError hk ha hne ts T' (fun u hu => hts u (by simp [hu])) h6.1 (fun k hk' => h4.pres (hl k hk'))
      cases e' : addAlts add ts T' with
      | mk r T'' =>
      rw [e'] at ih
      cases r with
      | error x => intro e he; simp only [Except.error.injEq] at he; subst he; exact ih _ rfl
      | ok l => intro e he; cases he

theorem addType_noError (hn : ∀ u, R u → Nests u) : ∀ (n : Nat) (t : CTy) (T : Table) (S : List Bytes), R t → AddGood P R T S →
    (∀ k, R (.leaf k) → (T.get k.typeName).isSome) → ∀ e, (addType P n t T).1 = .error e → e = .ub
  | 0, t, T, S, _, _, _ => by intro e h; rw [addType] at h; simp only [Except.error.injEq] at h; exact h.symm
  | n + 1, .leaf k, T, S, ht, _, hl => by
    intro e
    rw [addType]
    have := hl k ht
    split
    · rename_i hk; rw [hk] at this; cases this
    · nofun
  | n + 1, .struct m, T, S, ht, hg, hl => by
    rw [addType]
    cases hm : T.get m with
    | some d => nofun
    | none =>
      have hins : (T.insertNew m (.struct [])).get m = some (.struct []) := by rw [Table.get_insertNew _ hm, if_pos rfl]
      have h := addFields_noError hR (addType_keeps P n) (addType_effect hR n) (addType_noError hn n) (S := S) ht (P.fields m) [] (T.insertNew m (.struct [])) rfl
        (good_insert hR hg ht hm) hins (by simp) (fun k hk => by rw [Table.get_insertNew _ hm]; split <;> simp [hl k hk])
      simp only
      cases e : addFields (addType P n) m (P.fields m) (T.insertNew m (.struct [])) with
      | mk r T' =>
      rw [e] at h
      cases r with
      | error x => intro e he; simp only [Except.error.injEq] at he; subst he; exact h _ rfl
      | ok x => nofun
  | n + 1, .vec t, T, S, ht, hg, hl => by
    have htt := hR.comp _ _ ht .vec
    have h := addType_effect hR n t T S htt hg
    have h' := addType_noError hn n t T S htt hg hl
    rw [addType]
    cases e : addType P n t T with
    | mk r T' =>
    rw [e] at h h'
    cases r with
    | error x => intro e he; simp only [Except.error.injEq] at he; subst he; exact h' _ rfl
    | ok p =>
      simp only [Effect] at h ⊢
      obtain ⟨-, h2, rfl, h3⟩ := h
      rw [if_neg (by simp [(wrapper_of (h2 t htt h3)).1.2 (hn _ ht)])]
      nofun
  | n + 1, .opt t, T, S, ht, hg, hl => by
    have htt := hR.comp _ _ ht .opt
    have h := addType_effect hR n t T S htt hg
    have h' := addType_noError hn n t T S htt hg hl
    rw [addType]
    cases e : addType P n t T with
    | mk r T' =>
    rw [e] at h h'
    cases r with
    | error x => intro e he; simp only [Except.error.injEq] at he; subst he; exact h' _ rfl
    | ok p =>
      simp only [Effect] at h ⊢
      obtain ⟨-, h2, rfl, h3⟩ := h
      rw [if_neg (by simp [(wrapper_of (h2 t htt h3)).2.1.2 (hn _ ht)])]
      nofun
  | n + 1, .ext t, T, S, ht, hg, hl => by
    have htt := hR.comp _ _ ht .ext
    have h := addType_effect hR n t T S htt hg
    have h' := addType_noError hn n t T S htt hg hl
    rw [addType]
    cases e : addType P n t T with
    | mk r T' =>
    rw [e] at h h'
    cases r with
    | error x => intro e he; simp only [Except.error.injEq] at he; subst he; exact h' _ rfl
    | ok p =>
      simp only [Effect] at h ⊢
      obtain ⟨-, h2, rfl, h3⟩ := h
      rw [if_neg (by simp [(wrapper_of (h2 t htt h3)).2.2.2 (hn _ ht)])]
      nofun
  | n + 1, .variant ts, T, S, ht, hg, hl => by
    have h := addAlts_noError hR (addType_keeps P n) (addType_effect hR n) (addType_noError hn n) (S := S) ts T (fun t h => hR.comp _ _ ht (.alt h)) hg hl
    rw [addType]
    cases e : addAlts (addType P n) ts T with
    | mk r T' =>
    rw [e] at h
    cases r with
    | error x => intro e he; simp only [Except.error.injEq] at he; subst he; exact h _ rfl
    | ok l => nofun

end

end Abieos
