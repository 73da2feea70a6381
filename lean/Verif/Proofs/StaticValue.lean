import Verif.Model.StaticValue
import Verif.Spec.StaticValue
import Verif.Props.StaticBin
import Verif.Proofs.StaticJson
/-! `to_bin` of C++ values: what is written does not depend on the stream. -/
namespace Abieos
open Spec

mutual
/-- the bytes of a value -/
def binOf (P : Prog) : CTy → SVal → Res Bytes
  | t, .leaf b =>
    match t.strip with
    | .leaf _ => .ok b
    | _ => .error .ub
  | t, .vec l =>
    match t.strip with
    | .vec u => do
      let h ← varuint32ToBin l.length
      let b ← binElems P u l
      .ok (h ++ b)
    | _ => .error .ub
  | t, .absent =>
    match t.strip with
    | .opt _ => .ok [0]
    | _ => .error .ub
  | t, .present v =>
    match t.strip with
    | .opt u => do
      let b ← binOf P u v
      .ok (1 :: b)
    | _ => .error .ub
  | t, .alt i v =>
    match t.strip with
    | .variant ts =>
      match ts[i]? with
      | none => .error .ub
      | some u => do
        let h ← varuint32ToBin i
        let b ← binOf P u v
        .ok (h ++ b)
    | _ => .error .ub
  | t, .struct l =>
    match t.strip with
    | .struct n => binMembers P (P.fields n) l
    | _ => .error .ub
  | _, .unset => .error .ub
def binElems (P : Prog) (t : CTy) : List SVal → Res Bytes
  | [] => .ok []
  | v :: l => do
    let b ← binOf P t v
    let c ← binElems P t l
    .ok (b ++ c)
def binMembers (P : Prog) : List (Bytes × CTy) → List SVal → Res Bytes
  | [], [] => .ok []
  | f :: fs, v :: l => do
    let b ← binOf P f.2 v
    let c ← binMembers P fs l
    .ok (b ++ c)
  | _, _ => .error .ub
end

section
variable {P : Prog} {σ : Type} {w : Writer σ} {Fits : Bytes → Prop} {Has : Bytes → σ → Prop}

/-- a stream that keeps what is written, as long as it fits -/
structure Keeper (w : Writer σ) (Fits : Bytes → Prop) (Has : Bytes → σ → Prop) : Prop where
  cut : ∀ {a b}, Fits (a ++ b) → Fits a
  write : ∀ {b c s}, Has b s → Fits (b ++ c) → ∃ s', w c s = .ok s' ∧ Has (b ++ c) s'

theorem Keeper.each (k : Keeper w Fits Has) : ∀ (c b : Bytes) (s : σ), Has b s → Fits (b ++ c) → ∃ s', writeEach w c s = .ok s' ∧ Has (b ++ c) s'
  | [], b, s, h, _ => ⟨s, rfl, by simpa using h⟩
  | x :: c, b, s, h, hf => by
    rw [show b ++ x :: c = (b ++ [x]) ++ c by simp] at hf ⊢
    obtain ⟨s1, h1, h2⟩ := k.write h (k.cut hf)
    obtain ⟨s2, h3, h4⟩ := k.each c _ s1 h2 hf
    exact ⟨s2, by rw [writeEach, h1, bind_ok, h3], h4⟩

theorem Keeper.size (k : Keeper w Fits Has) {n : Nat} {c b : Bytes} {s : σ} (hc : varuint32ToBin n = .ok c) (h : Has b s) (hf : Fits (b ++ c)) :
    ∃ s', varuint32Write w n s = .ok s' ∧ Has (b ++ c) s' := by
  unfold varuint32Write
  rw [hc, bind_ok]
  exact k.each c b s h hf

mutual
theorem keeps_ok (k : Keeper w Fits Has) : ∀ (v : SVal) (t : CTy) (c b : Bytes) (s : σ), binOf P t v = .ok c → Has b s → Fits (b ++ c) →
    ∃ s', toBinS P w t v s = .ok s' ∧ Has (b ++ c) s'
  | .leaf x, t, c, b, s, h, hs, hf => by
    rw [binOf] at h; rw [toBinS]
    revert h; generalize t.strip = q; intro h
    cases q
    case leaf q =>
      simp only at h ⊢
      injection h with h; subst h; exact k.write hs hf
    all_goals simp at h
  | .vec l, t, c, b, s, h, hs, hf => by
    rw [binOf] at h; rw [toBinS]
    revert h; generalize t.strip = q; intro h
    cases q
    case vec u =>
      simp only at h ⊢
      obtain ⟨x, h1, h⟩ := bind_eq_ok.1 h
      obtain ⟨y, h2, h⟩ := bind_eq_ok.1 h
      injection h with h; subst h
      rw [← List.append_assoc] at hf ⊢
      obtain ⟨s1, e1, k1⟩ := k.size h1 hs (k.cut hf)
      rw [e1, bind_ok]
      exact keepsElems_ok k l u y _ s1 h2 k1 hf
    all_goals simp at h
  | .absent, t, c, b, s, h, hs, hf => by
    rw [binOf] at h; rw [toBinS]
    revert h; generalize t.strip = q; intro h
    cases q
    case opt u =>
      simp only at h ⊢
      injection h with h; subst h; exact k.write hs hf
    all_goals simp at h
  | .present v, t, c, b, s, h, hs, hf => by
    rw [binOf] at h; rw [toBinS]
    revert h; generalize t.strip = q; intro h
    cases q
    case opt u =>
      simp only at h ⊢
      obtain ⟨y, h2, h⟩ := bind_eq_ok.1 h
      injection h with h; subst h
      rw [show b ++ 1 :: y = (b ++ [1]) ++ y by simp] at hf ⊢
      obtain ⟨s1, e1, k1⟩ := k.write hs (k.cut hf)
      rw [e1, bind_ok]
      exact keeps_ok k v u y _ s1 h2 k1 hf
    all_goals simp at h
  | .alt i v, t, c, b, s, h, hs, hf => by
    rw [binOf] at h; rw [toBinS]
    revert h; generalize t.strip = q; intro h
    cases q
    case variant us =>
      simp only at h ⊢
      cases eu : us[i]? with
      | none => rw [eu] at h; simp at h
      | some u =>
        rw [eu] at h
        simp only at h ⊢
        obtain ⟨x, h1, h⟩ := bind_eq_ok.1 h
        obtain ⟨y, h2, h⟩ := bind_eq_ok.1 h
        injection h with h; subst h
        rw [← List.append_assoc] at hf ⊢
        obtain ⟨s1, e1, k1⟩ := k.size h1 hs (k.cut hf)
        rw [e1, bind_ok]
        exact keeps_ok k v u y _ s1 h2 k1 hf
    all_goals simp at h
  | .struct l, t, c, b, s, h, hs, hf => by
    rw [binOf] at h; rw [toBinS]
    revert h; generalize t.strip = q; intro h
    cases q
    case struct n =>
      simp only at h ⊢
      exact keepsMembers_ok k l _ c b s h hs hf
    all_goals simp at h
  | .unset, t, c, b, s, h, hs, hf => by rw [binOf] at h; simp at h
theorem keepsElems_ok (k : Keeper w Fits Has) : ∀ (l : List SVal) (t : CTy) (c b : Bytes) (s : σ), binElems P t l = .ok c → Has b s → Fits (b ++ c) →
    ∃ s', toBinElems P w t l s = .ok s' ∧ Has (b ++ c) s'
  | [], t, c, b, s, h, hs, hf => by
    rw [binElems] at h; injection h with h; subst h; rw [toBinElems]; exact ⟨s, rfl, by simpa using hs⟩
  | v :: l, t, c, b, s, h, hs, hf => by
    rw [binElems] at h; rw [toBinElems]
    obtain ⟨x, h1, h⟩ := bind_eq_ok.1 h
    obtain ⟨y, h2, h⟩ := bind_eq_ok.1 h
    injection h with h; subst h
    rw [← List.append_assoc] at hf ⊢
    obtain ⟨s1, e1, k1⟩ := keeps_ok k v t x b s h1 hs (k.cut hf)
    rw [e1, bind_ok]
    exact keepsElems_ok k l t y _ s1 h2 k1 hf
theorem keepsMembers_ok (k : Keeper w Fits Has) : ∀ (l : List SVal) (fs : List (Bytes × CTy)) (c b : Bytes) (s : σ), binMembers P fs l = .ok c → Has b s → Fits (b ++ c) →
    ∃ s', toBinMembers P w fs l s = .ok s' ∧ Has (b ++ c) s'
  | [], [], c, b, s, h, hs, hf => by
    rw [binMembers] at h; injection h with h; subst h; rw [toBinMembers]; exact ⟨s, rfl, by simpa using hs⟩
  | v :: l, f :: fs, c, b, s, h, hs, hf => by
    rw [binMembers] at h; rw [toBinMembers]
    obtain ⟨x, h1, h⟩ := bind_eq_ok.1 h
    obtain ⟨y, h2, h⟩ := bind_eq_ok.1 h
    injection h with h; subst h
    rw [← List.append_assoc] at hf ⊢
    obtain ⟨s1, e1, k1⟩ := keeps_ok k v f.2 x b s h1 hs (k.cut hf)
    rw [e1, bind_ok]
    exact keepsMembers_ok k l fs y _ s1 h2 k1 hf
  | [], _ :: _, c, b, s, h, hs, hf => by simp [binMembers] at h
  | _ :: _, [], c, b, s, h, hs, hf => by simp [binMembers] at h
end

theorem Keeper.size_err {n : Nat} {e : Err} {s : σ} (hc : varuint32ToBin n = .error e) : varuint32Write w n s = .error e := by
  unfold varuint32Write; rw [hc]; rfl

mutual
theorem keeps_err (k : Keeper w Fits Has) (hf : ∀ b, Fits b) : ∀ (v : SVal) (t : CTy) (e : Err) (b : Bytes) (s : σ), binOf P t v = .error e → Has b s →
    toBinS P w t v s = .error e
  | .leaf x, t, e, b, s, h, hs => by
    rw [binOf] at h; rw [toBinS]
    revert h; generalize t.strip = q; intro h
    cases q
    case leaf q =>
      simp only at h ⊢
      simp at h
    all_goals simpa using h
  | .vec l, t, e, b, s, h, hs => by
    rw [binOf] at h; rw [toBinS]
    revert h; generalize t.strip = q; intro h
    cases q
    case vec u =>
      simp only at h ⊢
      cases h1 : varuint32ToBin l.length with
      | error e' => rw [h1] at h; rw [Keeper.size_err h1]; simpa [bind_error] using h
      | ok x =>
        rw [h1, bind_ok] at h
        obtain ⟨s1, e1, k1⟩ := k.size h1 hs (hf _)
        rw [e1, bind_ok]
        cases h2 : binElems P _ l with
        | error e' => rw [h2] at h; rw [keepsElems_err k hf l _ e' _ s1 h2 k1]; simpa [bind_error] using h
        | ok y => rw [h2] at h; simp at h
    all_goals simpa using h
  | .absent, t, e, b, s, h, hs => by
    rw [binOf] at h; rw [toBinS]
    revert h; generalize t.strip = q; intro h
    cases q
    case opt u =>
      simp only at h ⊢
      simp at h
    all_goals simpa using h
  | .present v, t, e, b, s, h, hs => by
    rw [binOf] at h; rw [toBinS]
    revert h; generalize t.strip = q; intro h
    cases q
    case opt u =>
      simp only at h ⊢
      obtain ⟨s1, e1, k1⟩ := k.write (c := [1]) hs (hf _)
      rw [e1, bind_ok]
      cases h2 : binOf P _ v with
      | error e' => rw [h2] at h; rw [keeps_err k hf v _ e' _ s1 h2 k1]; simpa [bind_error] using h
      | ok y => rw [h2] at h; simp at h
    all_goals simpa using h
  | .alt i v, t, e, b, s, h, hs => by
    rw [binOf] at h; rw [toBinS]
    revert h; generalize t.strip = q; intro h
    cases q
    case variant us =>
      simp only at h ⊢
      cases eu : us[i]? with
      | none => rw [eu] at h; simpa using h
      | some u =>
        rw [eu] at h
        simp only at h ⊢
        cases h1 : varuint32ToBin i with
        | error e' => rw [h1] at h; rw [Keeper.size_err h1]; simpa [bind_error] using h
        | ok x =>
          rw [h1, bind_ok] at h
          obtain ⟨s1, e1, k1⟩ := k.size h1 hs (hf _)
          rw [e1, bind_ok]
          cases h2 : binOf P _ v with
          | error e' => rw [h2] at h; rw [keeps_err k hf v _ e' _ s1 h2 k1]; simpa [bind_error] using h
          | ok y => rw [h2] at h; simp at h
    all_goals simpa using h
  | .struct l, t, e, b, s, h, hs => by
    rw [binOf] at h; rw [toBinS]
    revert h; generalize t.strip = q; intro h
    cases q
    case struct n =>
      simp only at h ⊢
      exact keepsMembers_err k hf l _ e b s h hs
    all_goals simpa using h
  | .unset, t, e, b, s, h, hs => by rw [binOf] at h; rw [toBinS]; simpa [bind_error] using h
theorem keepsElems_err (k : Keeper w Fits Has) (hf : ∀ b, Fits b) : ∀ (l : List SVal) (t : CTy) (e : Err) (b : Bytes) (s : σ), binElems P t l = .error e → Has b s →
    toBinElems P w t l s = .error e
  | [], t, e, b, s, h, hs => by simp [binElems] at h
  | v :: l, t, e, b, s, h, hs => by
    rw [binElems] at h; rw [toBinElems]
    cases h1 : binOf P t v with
    | error e' => rw [h1] at h; rw [keeps_err k hf v _ e' _ s h1 hs]; simpa [bind_error] using h
    | ok x =>
      rw [h1, bind_ok] at h
      obtain ⟨s1, e1, k1⟩ := keeps_ok k v t x b s h1 hs (hf _)
      rw [e1, bind_ok]
      cases h2 : binElems P t l with
      | error e' => rw [h2] at h; rw [keepsElems_err k hf l _ e' _ s1 h2 k1]; simpa [bind_error] using h
      | ok y => rw [h2] at h; simp at h
theorem keepsMembers_err (k : Keeper w Fits Has) (hf : ∀ b, Fits b) : ∀ (l : List SVal) (fs : List (Bytes × CTy)) (e : Err) (b : Bytes) (s : σ), binMembers P fs l = .error e → Has b s →
    toBinMembers P w fs l s = .error e
  | [], [], e, b, s, h, hs => by simp [binMembers] at h
  | v :: l, f :: fs, e, b, s, h, hs => by
    rw [binMembers] at h; rw [toBinMembers]
    cases h1 : binOf P f.2 v with
    | error e' => rw [h1] at h; rw [keeps_err k hf v _ e' _ s h1 hs]; simpa [bind_error] using h
    | ok x =>
      rw [h1, bind_ok] at h
      obtain ⟨s1, e1, k1⟩ := keeps_ok k v f.2 x b s h1 hs (hf _)
      rw [e1, bind_ok]
      cases h2 : binMembers P fs l with
      | error e' => rw [h2] at h; rw [keepsMembers_err k hf l _ e' _ s1 h2 k1]; simpa [bind_error] using h
      | ok y => rw [h2] at h; simp at h
  | [], _ :: _, e, b, s, h, hs => by simpa [binMembers, toBinMembers] using h
  | _ :: _, [], e, b, s, h, hs => by simpa [binMembers, toBinMembers] using h
end
end

/-- both passes -/
theorem convertToBinS_eq (P : Prog) (t : CTy) (v : SVal) (bin : Bytes) : convertToBinS P t v bin = (binOf P t v).map (bin ++ ·) := by
  unfold convertToBinS
  have k1 : Keeper sizeWrite (fun _ => True) HasSize := ⟨fun _ => trivial, fun h _ => size_has h⟩
  have k2 : ∀ N, Keeper fixedWrite (fun b => b.length ≤ N) (HasBuf N) := fun N => ⟨fun h => by rw [List.length_append] at h; omega, buf_has⟩
  cases h : binOf P t v with
  | error e => rw [keeps_err k1 (fun _ => trivial) v t e [] 0 h rfl]; rfl
  | ok c =>
    obtain ⟨s1, e1, h1⟩ := keeps_ok k1 v t c [] 0 h rfl trivial
    rw [List.nil_append] at h1
    obtain ⟨s2, e2, h2, h3⟩ := keeps_ok (k2 s1) v t c [] ⟨[], s1⟩ h ⟨rfl, rfl⟩ (by rw [List.nil_append, h1])
    rw [List.nil_append] at h2 h3
    rw [e1, bind_ok, e2, bind_ok, show (s2.room == 0) = true by simp only [HasSize] at h1; simp only [beq_iff_eq]; omega, check_true, bind_ok, h2]
    rfl

end Abieos
