import Verif.Proofs.Encodes
/-
The ordered conversion of a document that has an encoding and is in ABI order can fail only because of its depth.
-/
namespace Abieos

open Spec

section
variable {T : Table}

/-- success, or refusal because of depth -/
def OkOrDeep {α : Type} (r : Res α) : Prop := (∃ x, r = .ok x) ∨ r = .error .recursion_limit_reached

theorem OkOrDeep.bind {α β : Type} {r : Res α} {f : α → Res β} (h : OkOrDeep r) (hf : ∀ a, OkOrDeep (f a)) : OkOrDeep (r >>= f) := by
  rcases h with ⟨x, rfl⟩ | rfl
  · exact hf x
  · exact .inr rfl

theorem OkOrDeep.ok {α : Type} (a : α) : OkOrDeep (.ok a : Res α) := .inl ⟨a, rfl⟩

theorem okOrDeep_members {E : Bool → Ptr → JVal → Res (List Piece × Bool)} {E' : Bool → Ptr → JVal → Bytes → Prop}
    {O : Ptr → JVal → Prop} {allow : Bool} {lvl : Nat}
    (hE : ∀ a f v b, E' a f v b → O f v → OkOrDeep (E a f v)) :
    ∀ (fs : List Field) (ms pre : List (Bytes × JVal)) (i : Nat) (b : Bytes),
      i + fs.length < 2147483648 → (fs.map (·.name)).Nodup → (∀ f ∈ fs, f.name ∉ pre.map (·.1)) →
      EncFields T E' allow (pre ++ ms) fs b → (ms.map (·.1)).Sublist (fs.map (·.name)) →
      (∀ f ∈ fs, ∀ x, (f.name, x) ∈ ms → O f.type x) →
      OkOrDeep (encOMembers T E lvl allow fs ms ((i : Int) - 1)) := by
  intro fs
  induction fs with
  | nil =>
    rintro ms pre i b hi - - rfl hs -
    have : ms = [] := by simpa using hs
    subst this
    simp at hi
    rw [encOMembers.eq_def]
    simp only
    rw [incInt_of (by omega)]
    exact .ok _
  | cons f fs ih =>
    intro ms pre i b hi hd hp h hs hO
    simp at hi
    have ei : ((i : Int) - 1 + 1) = ((i + 1 : Nat) : Int) - 1 := by omega
    rcases h with ⟨ha, hx, rfl⟩ | ⟨x, b1, b2, hlast, h1, h2, rfl⟩
    · have : ms = [] := by
        cases ms with
        | nil => rfl
        | cons m ms =>
          exfalso
          have hm : m.1 ∈ (f :: fs).map (·.name) := hs.subset (by simp)
          obtain ⟨g, hg, e⟩ := List.mem_map.1 hm
          have := (hx g hg).2
          rw [lastValue_none_iff] at this
          apply this
          simp [e]
      subst this
      obtain ⟨q, hq⟩ := (hx f (by simp)).1
      rw [encOMembers.eq_def]
      simp only
      rw [incInt_of (by omega)]
      simp only [bind_ok, hq, TData.isExt, ha]
      exact .ok _
    · simp only [List.map_cons, List.nodup_cons] at hd
      have hmem : f.name ∈ ms.map (·.1) := by
        have : ¬ lastValue f.name (pre ++ ms) = none := by rw [hlast]; simp
        rw [lastValue_none_iff] at this
        simp only [not_not, List.map_append, List.mem_append] at this
        exact this.resolve_left (hp f (by simp))
      cases ms with
      | nil => simp at hmem
      | cons m ms =>
        obtain ⟨k, v⟩ := m
        have hkf : k = f.name ∧ (ms.map (·.1)).Sublist (fs.map (·.name)) := by
          simp only [List.map_cons] at hs hmem
          cases hs with
          | cons _ hs' => exact absurd (hs'.subset hmem) hd.1
          | cons_cons _ hs' => exact ⟨rfl, hs'⟩
        obtain ⟨rfl, hs'⟩ := hkf
        have hnot : f.name ∉ ms.map (·.1) := fun hm => hd.1 (hs'.subset hm)
        rw [lastValue_append_new hnot] at hlast
        simp only [Option.some.injEq] at hlast
        subst hlast
        have e1 := hE _ _ _ _ h1 (hO f (by simp) v (by simp))
        have e2 := ih ms (pre ++ [(f.name, v)]) (i + 1) b2 (by omega) hd.2 (by
          intro g hg
          have h1 := hp g (by simp [hg])
          have h2 : g.name ≠ f.name := fun e => hd.1 (e ▸ List.mem_map.2 ⟨g, hg, rfl⟩)
          simp at h1 ⊢
          exact ⟨h1, h2⟩) (by rw [List.append_assoc]; exact h2) hs'
          (fun g hg x hm => hO g (by simp [hg]) x (by simp [hm]))
        rw [encOMembers.eq_def]
        simp only
        rw [incInt_of (by omega)]
        simp only [bind_ok, if_true]
        split
        · rw [ei]
          exact e1.bind fun _ => e2.bind fun _ => .ok _
        · exact .inr rfl

theorem okOrDeep_elems {E : JVal → Res (List Piece × Bool)} {E' : JVal → Bytes → Prop} {O : JVal → Prop}
    (hE : ∀ v b, E' v b → O v → OkOrDeep (E v)) :
    ∀ (l : List JVal) (i : Nat) (b : Bytes), i + l.length < 2147483648 → EncElems E' l b → (∀ x ∈ l, O x) →
      OkOrDeep (encOElems E l ((i : Int) - 1)) := by
  intro l
  induction l with
  | nil =>
    rintro i b hi rfl -
    simp at hi
    rw [encOElems, incInt, if_neg (by omega)]
    exact .ok _
  | cons v l ih =>
    rintro i b hi ⟨b1, b2, h1, h2, rfl⟩ hO
    simp at hi
    have e1 := hE _ _ h1 (hO v (by simp))
    have e2 := ih (i + 1) b2 (by omega) h2 (fun x hx => hO x (by simp [hx]))
    have ei : ((i : Int) - 1 + 1) = ((i + 1 : Nat) : Int) - 1 := by omega
    rw [encOElems, incInt, if_neg (by omega), bind_ok, ei]
    exact e1.bind fun _ => e2.bind fun _ => .ok _

theorem encO_okOrDeep {L : Leaves} (hdf : DistinctFields T) (hsm : Small T) :
    ∀ (n lvl : Nat) (allow : Bool) (ty : Ptr) (v : JVal) (b : Bytes),
    Enc T L n allow ty v b → InOrderTo T n ty v → OkOrDeep (encO T L n lvl allow ty v) := by
  intro n
  induction n with
  | zero => intro lvl allow ty v b h; exact h.elim
  | succ n ih =>
    intro lvl allow ty v b h ho
    unfold Enc at h
    unfold InOrderTo at ho
    unfold encO
    split at h
    · rename_i k hk
      obtain ⟨s, rfl, h⟩ := h
      simp only [hk]
      rw [leafEnc_ofScalar, h]
      exact .ok _
    · rename_i p hk
      simp only [hk] at ho ⊢
      rcases h with ⟨rfl, rfl⟩ | ⟨hv, b', rfl, h⟩
      · exact .ok _
      · rw [if_neg (fun e => hv (isNull_iff.1 e))]
        exact (ih _ _ _ _ _ h ho).bind fun _ => .ok _
    · rename_i p hk
      simp only [hk] at ho ⊢
      exact ih _ _ _ _ _ h ho
    · rename_i fs hk
      obtain ⟨ms, rfl, h⟩ := h
      simp only [hk] at ho ⊢
      exact okOrDeep_members (E' := Enc T L n) (O := InOrderTo T n) (fun a f v b h h2 => ih _ _ _ _ _ h h2) fs ms [] 0 b
        (by simpa using hsm _ _ hk) (hdf _ _ hk) (by simp) h ho.1 ho.2
    · rename_i p hk
      obtain ⟨l, c, b', rfl, hlen, hc, h, rfl⟩ := h
      simp only [hk] at ho ⊢
      split
      · exact (okOrDeep_elems (E := encO T L n (lvl + 1) false p) (E' := Enc T L n false p) (O := InOrderTo T n p)
          (fun v b h h2 => ih _ _ _ _ _ h h2) l 0 b' (by omega) h ho).bind fun _ => .ok _
      · exact .inr rfl
    · rename_i alts hk
      obtain ⟨name, x, i, f, c, b', rfl, hf, hc, h, rfl⟩ := h
      simp only [hk] at ho ⊢
      split
      · simp only [hf, hc, bind_ok]
        exact (ih _ _ _ _ _ h (ho i f hf)).bind fun _ => .ok _
      · exact .inr rfl
    · exact h.elim

end

end Abieos
