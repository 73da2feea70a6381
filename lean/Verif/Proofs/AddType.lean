import Verif.Spec.AddType
import Verif.Proofs.Loader
import Verif.Proofs.Table
/-! Adding C++ types to the type table. -/
namespace Abieos
open Spec

/-! ## names -/

theorem joinWith_go (x : Bytes) : ∀ ts : List CTy, (∀ t ∈ ts, t.name = typeText t) → joinWith (str "_") (x :: typeText.go ts) = x ++ CTy.altNames ts
  | [], _ => by simp [typeText.go, joinWith, CTy.altNames]
  | t :: ts, h => by
    rw [typeText.go, show joinWith (str "_") (x :: typeText t :: typeText.go ts) = x ++ (str "_" ++ joinWith (str "_") (typeText t :: typeText.go ts)) from by simp [joinWith],
      joinWith_go (typeText t) ts (fun u hu => h u (by simp [hu])), CTy.altNames, h t (by simp)]
    simp [str]

mutual
theorem name_eq : ∀ t : CTy, t.name = typeText t
  | .leaf k => by simp only [CTy.name, typeText]
  | .struct n => by simp only [CTy.name, typeText]
  | .vec t => by simp only [CTy.name, typeText, name_eq t]
  | .opt t => by simp only [CTy.name, typeText, name_eq t]
  | .ext t => by simp only [CTy.name, typeText, name_eq t]
  | .variant ts => by simp only [CTy.name, typeText]; rw [joinWith_go _ ts (names_eq ts)]
theorem names_eq : ∀ ts : List CTy, ∀ t ∈ ts, t.name = typeText t
  | [], _, h => by simp at h
  | t :: ts, u, h => by
    rcases List.mem_cons.1 h with h | h
    · rw [h]; exact name_eq t
    · exact names_eq ts u h
end

/-! ## what was there stays -/

theorem Spec.Keeps.refl (T : Table) : Keeps T T := fun _ _ h => h
theorem Spec.Keeps.trans {A B C : Table} (h : Keeps A B) (h' : Keeps B C) : Keeps A C := fun k d e => h' k d (h k d e)

theorem keeps_emplace (T : Table) (k : Bytes) (d : TData) : Keeps T (T.emplace k d) := by
  intro k' d' h
  rw [Table.get_emplace, h]

theorem get_pushField (k : Bytes) (f : Field) (T : Table) (k' : Bytes) (h : k' ≠ k) : (T.pushField k f).get k' = T.get k' := by
  unfold Table.pushField
  split
  · rw [Table.get_set, if_neg h]
  · rfl

theorem get_pushField_self {k : Bytes} {f : Field} {T : Table} {fs : List Field} (h : T.get k = some (.struct fs)) : (T.pushField k f).get k = some (.struct (fs ++ [f])) := by
  unfold Table.pushField
  rw [h]
  simp only
  rw [Table.get_set, if_pos rfl, h]; rfl

theorem pres_pushField {k : Bytes} {f : Field} {T : Table} (k' : Bytes) (h : (T.get k').isSome) : ((T.pushField k f).get k').isSome := by
  by_cases e : k' = k
  · subst e
    unfold Table.pushField
    split
    · rw [Table.get_set, if_pos rfl]; simp [h]
    · exact h
  · rw [get_pushField _ _ _ _ e]; exact h

theorem addFields_keeps {add : CTy → Table → Res Ptr × Table} (h : ∀ t T, Keeps T (add t T).2) (k : Bytes) :
    ∀ (fs : List (Bytes × CTy)) (T : Table) (k' : Bytes) (d : TData), k' ≠ k → T.get k' = some d → (addFields add k fs T).2.get k' = some d
  | [], T, k', d, _, hd => hd
  | (n, t) :: fs, T, k', d, hk, hd => by
    have h1 := h t T k' d hd
    rw [addFields]
    split
    · rename_i e; rw [e] at h1; exact h1
    · rename_i e; rw [e] at h1
      exact addFields_keeps h k fs _ _ _ hk (by rw [get_pushField _ _ _ _ hk]; exact h1)

theorem addFields_pres {add : CTy → Table → Res Ptr × Table} (h : ∀ t T, Keeps T (add t T).2) (k : Bytes) :
    ∀ (fs : List (Bytes × CTy)) (T : Table) (k' : Bytes), (T.get k').isSome → ((addFields add k fs T).2.get k').isSome
  | [], T, k', hd => hd
  | (n, t) :: fs, T, k', hd => by
    obtain ⟨d, hd⟩ := Option.isSome_iff_exists.1 hd
    have h1 := h t T k' d hd
    rw [addFields]
    split
    · rename_i e; rw [e] at h1; simp [h1]
    · rename_i e; rw [e] at h1
      exact addFields_pres h k fs _ _ (pres_pushField _ (by simp [h1]))

theorem addAlts_keeps {add : CTy → Table → Res Ptr × Table} (h : ∀ t T, Keeps T (add t T).2) : ∀ (ts : List CTy) (T : Table), Keeps T (addAlts add ts T).2
  | [], T => Keeps.refl T
  | t :: ts, T => by
    have h1 := h t T
    rw [addAlts]
    split
    · rename_i e; rw [e] at h1; exact h1
    · rename_i T' e; rw [e] at h1
      have h2 := addAlts_keeps h ts T'
      split
      · rename_i e'; rw [e'] at h2; exact h1.trans h2
      · rename_i e'; rw [e'] at h2; exact h1.trans h2

theorem addType_keeps (P : Prog) : ∀ (n : Nat) (t : CTy) (T : Table), Keeps T (addType P n t T).2
  | 0, t, T => by rw [addType]; exact Keeps.refl T
  | n + 1, .leaf k, T => by rw [addType]; split <;> exact Keeps.refl T
  | n + 1, .struct m, T => by
    rw [addType]
    split
    · exact Keeps.refl T
    · rename_i hm
      have h : Keeps T (addFields (addType P n) m (P.fields m) (T.insertNew m (.struct []))).2 := by
        intro k d hd
        have hk : k ≠ m := by rintro rfl; rw [hd] at hm; cases hm
        exact addFields_keeps (addType_keeps P n) m _ _ _ _ hk (by rw [Table.get_insertNew _ hm, if_neg hk]; exact hd)
      split
      · rename_i e; rw [e] at h; exact h
      · rename_i e; rw [e] at h; exact h
  | n + 1, .vec t, T => by
    have h := addType_keeps P n t T
    rw [addType]
    split
    · rename_i e; rw [e] at h; exact h
    · rename_i e; rw [e] at h
      split
      · exact h
      · exact h.trans (keeps_emplace _ _ _)
  | n + 1, .opt t, T => by
    have h := addType_keeps P n t T
    rw [addType]
    split
    · rename_i e; rw [e] at h; exact h
    · rename_i e; rw [e] at h
      split
      · exact h
      · exact h.trans (keeps_emplace _ _ _)
  | n + 1, .ext t, T => by
    have h := addType_keeps P n t T
    rw [addType]
    split
    · rename_i e; rw [e] at h; exact h
    · rename_i e; rw [e] at h
      split
      · exact h
      · exact h.trans (keeps_emplace _ _ _)
  | n + 1, .variant ts, T => by
    have h := addAlts_keeps (addType_keeps P n) ts T
    rw [addType]
    split
    · rename_i e; rw [e] at h; exact h
    · rename_i e; rw [e] at h
      exact h.trans (keeps_emplace _ _ _)

theorem Spec.Keeps.pres {T T' : Table} (h : Keeps T T') {k : Bytes} (hk : (T.get k).isSome) : (T'.get k).isSome := by
  obtain ⟨d, hd⟩ := Option.isSome_iff_exists.1 hk
  rw [h k d hd]; rfl

/-! ## the calls end -/

theorem addFields_mono {a b : CTy → Table → Res Ptr × Table} (h : ∀ t T, (a t T).1 ≠ .error .ub → b t T = a t T) (k : Bytes) :
    ∀ (fs : List (Bytes × CTy)) (T : Table), (addFields a k fs T).1 ≠ .error .ub → addFields b k fs T = addFields a k fs T
  | [], _, _ => rfl
  | (n, t) :: fs, T, hn => by
    have h1 := h t T
    rw [addFields] at hn ⊢
    cases e : a t T with
    | mk r T' =>
    rw [e] at hn h1
    cases r with
    | error x =>
      simp only at hn
      rw [h1 (by simpa using hn), addFields, e]
    | ok p =>
      simp only at hn
      rw [h1 (by simp), addFields, e]
      exact addFields_mono h k fs _ hn

theorem addAlts_mono {a b : CTy → Table → Res Ptr × Table} (h : ∀ t T, (a t T).1 ≠ .error .ub → b t T = a t T) :
    ∀ (ts : List CTy) (T : Table), (addAlts a ts T).1 ≠ .error .ub → addAlts b ts T = addAlts a ts T
  | [], _, _ => rfl
  | t :: ts, T, hn => by
    have h1 := h t T
    rw [addAlts] at hn ⊢
    cases e : a t T with
    | mk r T' =>
    rw [e] at hn h1
    cases r with
    | error x =>
      simp only at hn
      rw [h1 (by simpa using hn), addAlts, e]
    | ok p =>
      simp only at hn
      rw [h1 (by simp), addAlts, e]
      simp only
      rw [addAlts_mono h ts T' ?_]
      intro hc
      cases e' : addAlts a ts T' with
      | mk r T'' =>
      rw [e'] at hn hc
      simp only at hc
      subst hc
      exact hn rfl

theorem addType_mono (P : Prog) : ∀ (n : Nat) (t : CTy) (T : Table), (addType P n t T).1 ≠ .error .ub → addType P (n + 1) t T = addType P n t T
  | 0, t, T, h => by rw [addType] at h; exact absurd rfl h
  | n + 1, .leaf k, T, _ => by rw [addType, addType]
  | n + 1, .struct m, T, h => by
    rw [addType] at h ⊢
    rw [addType]
    cases hm : T.get m with
    | some d => rfl
    | none =>
      rw [hm] at h
      simp only at h ⊢
      rw [addFields_mono (addType_mono P n)]
      intro hc
      cases e : addFields (addType P n) m (P.fields m) (T.insertNew m (.struct [])) with
      | mk r T' =>
      rw [e] at h hc
      simp only at hc; subst hc; exact h rfl
  | n + 1, .vec t, T, h => by
    rw [addType] at h ⊢
    rw [addType, addType_mono P n]
    intro hc
    cases e : addType P n t T with
    | mk r T' =>
    rw [e] at h hc
    simp only at hc; subst hc; exact h rfl
  | n + 1, .opt t, T, h => by
    rw [addType] at h ⊢
    rw [addType, addType_mono P n]
    intro hc
    cases e : addType P n t T with
    | mk r T' =>
    rw [e] at h hc
    simp only at hc; subst hc; exact h rfl
  | n + 1, .ext t, T, h => by
    rw [addType] at h ⊢
    rw [addType, addType_mono P n]
    intro hc
    cases e : addType P n t T with
    | mk r T' =>
    rw [e] at h hc
    simp only at hc; subst hc; exact h rfl
  | n + 1, .variant ts, T, h => by
    rw [addType] at h ⊢
    rw [addType, addAlts_mono (addType_mono P n)]
    intro hc
    cases e : addAlts (addType P n) ts T with
    | mk r T' =>
    rw [e] at h hc
    simp only at hc; subst hc; exact h rfl

theorem addType_stable {P : Prog} {n : Nat} {t : CTy} {T : Table} (h : (addType P n t T).1 ≠ .error .ub) : ∀ m, n ≤ m → addType P m t T = addType P n t T := by
  intro m hm
  induction hm with
  | refl => rfl
  | @step k _ ih => rw [addType_mono P k t T (by rw [ih]; exact h), ih]

/-- number of nested calls for one type, without those for structs -/
def CTy.size : CTy → Nat
  | .leaf _ | .struct _ => 1
  | .vec t | .opt t | .ext t => t.size + 1
  | .variant ts => go ts + 1
where
  go : List CTy → Nat
    | [] => 0
    | t :: ts => max t.size (go ts)

theorem size_alt {t : CTy} : ∀ {ts : List CTy}, t ∈ ts → t.size ≤ CTy.size.go ts
  | [], h => by simp at h
  | u :: ts, h => by
    rw [CTy.size.go]
    rcases List.mem_cons.1 h with rfl | h
    · omega
    · have := size_alt h; omega

/-- structs of the program not in the table -/
def missing (P : Prog) (T : Table) : Nat := (P.filter fun s => (T.get s.1).isNone).length

theorem missing_le {P : Prog} {T T' : Table} (h : ∀ k, (T.get k).isSome → (T'.get k).isSome) : missing P T' ≤ missing P T := by
  unfold missing
  induction P with
  | nil => simp
  | cons s P ih =>
    simp only [List.filter_cons]
    have := h s.1
    cases h1 : T.get s.1 <;> cases h2 : T'.get s.1 <;> simp_all <;> omega

theorem missing_lt {P : Prog} {T T' : Table} (h : ∀ k, (T.get k).isSome → (T'.get k).isSome) {m : Bytes} {fs : List (Bytes × CTy)} (hm : (m, fs) ∈ P) (h1 : T.get m = none)
    (h2 : (T'.get m).isSome) : missing P T' < missing P T := by
  unfold missing
  induction P with
  | nil => simp at hm
  | cons s P ih =>
    simp only [List.filter_cons]
    have hle := missing_le (P := P) h
    unfold missing at hle
    rcases List.mem_cons.1 hm with rfl | hm
    · have : (T'.get m).isNone = false := by cases hx : T'.get m <;> simp_all
      simp only [h1, this]; simp; omega
    · have := ih hm
      have h3 := h s.1
      cases h1 : T.get s.1 <;> cases h2 : T'.get s.1 <;> simp_all <;> omega

theorem fields_mem {P : Prog} {m : Bytes} {f : Bytes × CTy} (h : f ∈ P.fields m) : ∃ fs, (m, fs) ∈ P ∧ f ∈ fs := by
  unfold Prog.fields at h
  cases e : P.lookup m with
  | none => rw [e] at h; simp at h
  | some fs =>
    rw [e] at h
    refine ⟨fs, ?_, h⟩
    clear h
    induction P with
    | nil => simp at e
    | cons s P ih =>
      obtain ⟨a, b⟩ := s
      rw [List.lookup] at e
      split at e
      · rename_i hab
        have : m = a := by simpa using hab
        subst this
        injection e with e; subst e; simp
      · simp [ih e]

/-- every type of a field has at most this size -/
def maxField (P : Prog) : Nat := (P.flatMap fun s => s.2.map fun f => f.2.size).foldr max 0

theorem le_foldr_max {x : Nat} : ∀ {l : List Nat}, x ∈ l → x ≤ l.foldr max 0
  | [], h => by simp at h
  | y :: l, h => by
    rw [List.foldr]
    rcases List.mem_cons.1 h with rfl | h
    · omega
    · have := le_foldr_max h; omega

theorem size_field {P : Prog} {m : Bytes} {f : Bytes × CTy} (h : f ∈ P.fields m) : f.2.size ≤ maxField P := by
  obtain ⟨fs, h1, h2⟩ := fields_mem h
  exact le_foldr_max (List.mem_flatMap.2 ⟨(m, fs), h1, List.mem_map.2 ⟨f, h2, rfl⟩⟩)

theorem addFields_fuel {P : Prog} {add : CTy → Table → Res Ptr × Table} {c : Nat} (hk : ∀ t T, Keeps T (add t T).2) (k : Bytes) :
    ∀ (fs : List (Bytes × CTy)) (T : Table), (∀ f ∈ fs, ∀ T', missing P T' ≤ c → (add f.2 T').1 ≠ .error .ub) → missing P T ≤ c → (addFields add k fs T).1 ≠ .error .ub
  | [], T, _, _ => by simp [addFields]
  | (n, t) :: fs, T, h, hc => by
    have h1 := h (n, t) (by simp) T hc
    have h2 := hk t T
    rw [addFields]
    cases e : add t T with
    | mk r T' =>
    rw [e] at h1 h2
    cases r with
    | error x => simpa using h1
    | ok p =>
      simp only
      refine addFields_fuel hk k fs _ (fun f hf => h f (by simp [hf])) (Nat.le_trans (missing_le (T := T) ?_) hc)
      exact fun k' hk' => pres_pushField _ (h2.pres hk')

theorem addAlts_fuel {P : Prog} {add : CTy → Table → Res Ptr × Table} {c : Nat} (hk : ∀ t T, Keeps T (add t T).2) :
    ∀ (ts : List CTy) (T : Table), (∀ t ∈ ts, ∀ T', missing P T' ≤ c → (add t T').1 ≠ .error .ub) → missing P T ≤ c → (addAlts add ts T).1 ≠ .error .ub
  | [], T, _, _ => by simp [addAlts]
  | t :: ts, T, h, hc => by
    have h1 := h t (by simp) T hc
    have h2 := hk t T
    rw [addAlts]
    cases e : add t T with
    | mk r T' =>
    rw [e] at h1 h2
    cases r with
    | error x => simpa using h1
    | ok p =>
      simp only
      have h3 := addAlts_fuel (P := P) (c := c) hk ts T' (fun f hf => h f (by simp [hf])) (Nat.le_trans (missing_le (T := T) fun _ => h2.pres) hc)
      cases e' : addAlts add ts T' with
      | mk r T'' =>
      rw [e'] at h3
      cases r with
      | error x => simpa using h3
      | ok l => simp

theorem addType_fuel (P : Prog) : ∀ (n : Nat) (t : CTy) (T : Table), missing P T * (maxField P + 1) + t.size ≤ n → (addType P n t T).1 ≠ .error .ub
  | 0, t, T, h => by
    exfalso
    have : 1 ≤ t.size := by cases t <;> simp only [CTy.size] <;> omega
    omega
  | n + 1, .leaf k, T, _ => by rw [addType]; split <;> simp
  | n + 1, .struct m, T, h => by
    rw [addType]
    cases hm : T.get m with
    | some d => simp
    | none =>
      simp only
      have hf : (addFields (addType P n) m (P.fields m) (T.insertNew m (.struct []))).1 ≠ .error .ub := by
        apply addFields_fuel (P := P) (c := missing P (T.insertNew m (.struct []))) (addType_keeps P n)
        · intro f hf T' hT'
          apply addType_fuel P n
          obtain ⟨fs, h1, -⟩ := fields_mem hf
          have hlt : missing P (T.insertNew m (.struct [])) < missing P T := by
            refine missing_lt (fun k hk => ?_) h1 hm (by rw [Table.get_insertNew _ hm, if_pos rfl]; rfl)
            rw [Table.get_insertNew _ hm]; split <;> simp [hk]
          have hs := size_field hf
          have : (missing P T' + 1) * (maxField P + 1) ≤ missing P T * (maxField P + 1) := Nat.mul_le_mul_right _ (by omega)
          rw [Nat.add_mul] at this
          simp only [CTy.size] at h
          omega
        · exact Nat.le_refl _
      cases e : addFields (addType P n) m (P.fields m) (T.insertNew m (.struct [])) with
      | mk r T' =>
      rw [e] at hf
      cases r with
      | error x => simpa using hf
      | ok _ => simp
  | n + 1, .vec t, T, h => by
    have h1 := addType_fuel P n t T (by simp only [CTy.size] at h; omega)
    rw [addType]
    cases e : addType P n t T with
    | mk r T' =>
    rw [e] at h1
    cases r with
    | error x => simpa using h1
    | ok _ => simp only; split <;> simp
  | n + 1, .opt t, T, h => by
    have h1 := addType_fuel P n t T (by simp only [CTy.size] at h; omega)
    rw [addType]
    cases e : addType P n t T with
    | mk r T' =>
    rw [e] at h1
    cases r with
    | error x => simpa using h1
    | ok _ => simp only; split <;> simp
  | n + 1, .ext t, T, h => by
    have h1 := addType_fuel P n t T (by simp only [CTy.size] at h; omega)
    rw [addType]
    cases e : addType P n t T with
    | mk r T' =>
    rw [e] at h1
    cases r with
    | error x => simpa using h1
    | ok _ => simp only; split <;> simp
  | n + 1, .variant ts, T, h => by
    have h1 : (addAlts (addType P n) ts T).1 ≠ .error .ub := by
      apply addAlts_fuel (P := P) (c := missing P T) (addType_keeps P n)
      · intro t ht T' hT'
        apply addType_fuel P n
        have := size_alt ht
        have := Nat.mul_le_mul_right (maxField P + 1) hT'
        simp only [CTy.size] at h
        omega
      · exact Nat.le_refl _
    rw [addType]
    cases e : addAlts (addType P n) ts T with
    | mk r T' =>
    rw [e] at h1
    cases r with
    | error x => simpa using h1
    | ok _ => simp

/-- `add_type` ends, and with one outcome -/
theorem addType_ends (P : Prog) (t : CTy) (T : Table) : ∃ n, (addType P n t T).1 ≠ .error .ub ∧ AddType P t T (addType P n t T).1 (addType P n t T).2 := by
  have h := addType_fuel P _ t T (Nat.le_refl _)
  exact ⟨_, h, _, addType_stable h⟩

theorem addType_some {P : Prog} {t : CTy} {T T' : Table} {r : Res Ptr} (h : AddType P t T r T') : ∃ n, addType P n t T = (r, T') ∧ r ≠ .error .ub := by
  obtain ⟨n, h1, m, h2⟩ := addType_ends P t T
  obtain ⟨k, h3⟩ := h
  have e1 := h2 (max m k) (by omega)
  have e2 := h3 (max m k) (by omega)
  refine ⟨max m k, e2, ?_⟩
  rw [e1] at e2
  have : r = (addType P n t T).1 := by rw [← (Prod.mk.inj e2).1]
  rw [this]; exact h1

end Abieos
