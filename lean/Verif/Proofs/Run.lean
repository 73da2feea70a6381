import Verif.Model.AbiType
/-
Reasoning about loops: reachability and total correctness.
-/
namespace Abieos

variable {σ α β : Type} {step : σ → Res (Option σ)}

/-- Finitely many steps lead from one state to the other. -/
inductive Reach (step : σ → Res (Option σ)) : σ → σ → Prop
  | refl (s : σ) : Reach step s s
  | head {s s' t : σ} : step s = .ok (some s') → Reach step s' t → Reach step s t

theorem Reach.trans {a b c : σ} (h : Reach step a b) (h' : Reach step b c) : Reach step a c := by
  induction h with
  | refl => exact h'
  | head hs _ ih => exact .head hs (ih h')

theorem Ends.head {s s' : σ} {r : Res σ} (hs : step s = .ok (some s')) (h : Ends step s' r) : Ends step s r := by
  obtain ⟨n, hn⟩ := h
  exact ⟨n + 1, by simp [iter, hs, hn]⟩

theorem Reach.ends {s t : σ} {r : Res σ} (h : Reach step s t) (h' : Ends step t r) : Ends step s r := by
  induction h with
  | refl => exact h'
  | head hs _ ih => exact .head hs (ih h')

theorem iter_mono {n : Nat} {s : σ} {r : Res σ} (h : iter step n s = some r) (k : Nat) : iter step (n + k) s = some r := by
  induction n generalizing s with
  | zero => simp [iter] at h
  | succ n ih =>
    rw [Nat.succ_add]
    unfold iter at h ⊢
    split at h <;> simp_all

/-- A loop ends in at most one way. -/
theorem Ends.unique {s : σ} {r r' : Res σ} (h : Ends step s r) (h' : Ends step s r') : r = r' := by
  obtain ⟨n, hn⟩ := h
  obtain ⟨m, hm⟩ := h'
  have h1 := iter_mono hn m
  have h2 := iter_mono hm n
  rw [Nat.add_comm, h2] at h1
  exact (Option.some.inj h1).symm

/-- Started in `s`, the loop computes `r`: it fails with the error of `r`, or reaches a state described by `F`. -/
def Runs (step : σ → Res (Option σ)) (s : σ) (r : Res α) (F : α → σ → Prop) : Prop :=
  match r with
  | .error e => Ends step s (.error e)
  | .ok a => ∃ s', Reach step s s' ∧ F a s'

theorem Runs.pure {s : σ} {a : α} {F : α → σ → Prop} (h : F a s) : Runs step s (.ok a) F := ⟨s, .refl s, h⟩

theorem Runs.next {s s' : σ} {r : Res α} {F : α → σ → Prop} (hs : step s = .ok (some s')) (h : Runs step s' r F) :
    Runs step s r F := by
  unfold Runs at h ⊢
  split at h
  · exact .head hs h
  · obtain ⟨t, h1, h2⟩ := h; exact ⟨t, .head hs h1, h2⟩

theorem Runs.fail {s : σ} {e : Err} {F : α → σ → Prop} (hs : step s = .error e) : Runs step s (.error e) F :=
  ⟨1, by simp [iter, hs]⟩

theorem Runs.reach {s s' : σ} {r : Res α} {F : α → σ → Prop} (hs : Reach step s s') (h : Runs step s' r F) :
    Runs step s r F := by
  induction hs with
  | refl => exact h
  | head hs _ ih => exact .next hs (ih h)

theorem Runs.bind {s : σ} {r : Res α} {g : α → Res β} {F : α → σ → Prop} {G : β → σ → Prop}
    (h : Runs step s r F) (k : ∀ a s', F a s' → Runs step s' (g a) G) : Runs step s (r >>= g) G := by
  cases r with
  | error e => exact h
  | ok a => obtain ⟨s', h1, h2⟩ := h; exact .reach h1 (k a s' h2)

theorem Runs.bind' {s : σ} {r : Res α} {g : α → Res β} {F : α → σ → Prop} {G : β → σ → Prop}
    (h : Runs step s r F) (k : ∀ a s', r = .ok a → F a s' → Runs step s' (g a) G) : Runs step s (r >>= g) G := by
  cases r with
  | error e => exact h
  | ok a => obtain ⟨s', h1, h2⟩ := h; exact .reach h1 (k a s' rfl h2)

theorem Runs.mono {s : σ} {r : Res α} {F G : α → σ → Prop} (h : Runs step s r F) (k : ∀ a s', F a s' → G a s') :
    Runs step s r G := by
  cases r with
  | error e => exact h
  | ok a => obtain ⟨s', h1, h2⟩ := h; exact ⟨s', h1, k a s' h2⟩

theorem Runs.mono' {s : σ} {r : Res α} {F G : α → σ → Prop} (h : Runs step s r F)
    (k : ∀ a s', r = .ok a → F a s' → G a s') : Runs step s r G := by
  cases r with
  | error e => exact h
  | ok a => obtain ⟨s', h1, h2⟩ := h; exact ⟨s', h1, k a s' rfl h2⟩

/-- If the loop computes `r` and stops there, it ends with what `r` says, and in no other way. -/
theorem Runs.ends_iff {s : σ} {r : Res α} {F : α → σ → Prop} {out : σ → β} {g : α → β} (h : Runs step s r F)
    (hstop : ∀ a s', F a s' → step s' = .ok none ∧ out s' = g a) (q : Res β) :
    (∃ r', Ends step s r' ∧ q = r'.map out) ↔ q = r.map g := by
  cases r with
  | error e =>
    constructor
    · rintro ⟨r', h1, rfl⟩
      rw [← Ends.unique h h1]; rfl
    · rintro rfl
      exact ⟨_, h, rfl⟩
  | ok a =>
    obtain ⟨s', h1, h2⟩ := h
    obtain ⟨h3, h4⟩ := hstop a s' h2
    have he : Ends step s (.ok s') := h1.ends ⟨1, by simp [iter, h3]⟩
    constructor
    · rintro ⟨r', h5, rfl⟩
      rw [← Ends.unique he h5]; simp [Except.map, h4]
    · rintro rfl
      exact ⟨_, he, by simp [Except.map, h4]⟩

@[simp] theorem map_ok {γ δ : Type} (f : γ → δ) (a : γ) : f <$> (Except.ok a : Res γ) = .ok (f a) := rfl
@[simp] theorem map_error {γ δ : Type} (f : γ → δ) (e : Err) : f <$> (Except.error e : Res γ) = .error e := rfl

theorem incInt_ok {p q : Int} : incInt p = .ok q ↔ p ≠ 2147483647 ∧ q = p + 1 := by
  unfold incInt; split <;> simp_all [eq_comm]

end Abieos
