import Verif.Spec.StaticJson
/-! The JSON writer of C++ values: what is written to a stream is a layout of the tree of the value. -/
namespace Abieos
open Spec

/-! ## the tree of a value, computed -/

mutual
def treeOf (P : Prog) : CTy → SVal → Res Tree
  | .leaf k, .leaf b => do
    match ← builtinFromBin k b with
    | (t, []) => .ok (.atom t)
    | _ => .error .ub
  | .vec t, .vec l => do
    let x ← treeElems P t l
    .ok (.arr x)
  | .opt _, .absent => .ok (.atom (str "null"))
  | .opt t, .present v => treeOf P t v
  | .variant ts, .alt i v =>
    match ts[i]? with
    | none => .error .ub
    | some t => do
      let x ← treeOf P t v
      .ok (.arr [.atom (jsonString t.name), x])
  | .struct n, .struct l => do
    let x ← treeFields P (P.fields n) l
    .ok (.obj x)
  | _, _ => .error .ub

def treeElems (P : Prog) (t : CTy) : List SVal → Res (List Tree)
  | [] => .ok []
  | v :: l => do
    let x ← treeOf P t v
    let r ← treeElems P t l
    .ok (x :: r)

def treeFields (P : Prog) : List (Bytes × CTy) → List SVal → Res (List (Bytes × Tree))
  | [], [] => .ok []
  | (n, t) :: fs, v :: l => do
    let x ← treeOf P t v
    let r ← treeFields P fs l
    .ok ((jsonString n, x) :: r)
  | _, _ => .error .ub
end

mutual
theorem treeOf_shows (P : Prog) : ∀ (v : SVal) (t : CTy) (x : Tree), treeOf P t v = .ok x → Shows P t v x
  | .leaf b, t, x, h => by
    cases t <;> simp only [treeOf, reduceCtorEq] at h
    obtain ⟨⟨u, r⟩, h1, h2⟩ := bind_eq_ok.1 h
    cases r with
    | nil => injection h2 with h2; subst h2; exact .leaf h1
    | cons => cases h2
  | .vec l, t, x, h => by
    cases t <;> simp only [treeOf, reduceCtorEq] at h
    obtain ⟨r, h1, h2⟩ := bind_eq_ok.1 h
    injection h2 with h2; subst h2
    exact .vec (treeElems_shows P l _ _ h1)
  | .absent, t, x, h => by
    cases t <;> simp only [treeOf, reduceCtorEq] at h
    injection h with h; subst h; exact .absent
  | .present v, t, x, h => by
    cases t <;> simp only [treeOf, reduceCtorEq] at h
    exact .present (treeOf_shows P v _ _ h)
  | .alt i v, t, x, h => by
    cases t <;> simp only [treeOf, reduceCtorEq] at h
    split at h
    · cases h
    · rename_i u hu
      obtain ⟨r, h1, h2⟩ := bind_eq_ok.1 h
      injection h2 with h2; subst h2
      exact .alt hu (treeOf_shows P v _ _ h1)
  | .struct l, t, x, h => by
    cases t <;> simp only [treeOf, reduceCtorEq] at h
    obtain ⟨r, h1, h2⟩ := bind_eq_ok.1 h
    injection h2 with h2; subst h2
    exact .struct (treeFields_shows P l _ _ h1)
  | .unset, t, x, h => by cases t <;> simp [treeOf] at h

theorem treeElems_shows (P : Prog) : ∀ (l : List SVal) (t : CTy) (x : List Tree), treeElems P t l = .ok x → ShowsAll P t l x
  | [], t, x, h => by simp only [treeElems] at h; injection h with h; subst h; exact .nil
  | v :: l, t, x, h => by
    simp only [treeElems] at h
    obtain ⟨y, h1, h2⟩ := bind_eq_ok.1 h
    obtain ⟨r, h3, h4⟩ := bind_eq_ok.1 h2
    injection h4 with h4; subst h4
    exact .cons (treeOf_shows P v _ _ h1) (treeElems_shows P l _ _ h3)

theorem treeFields_shows (P : Prog) : ∀ (l : List SVal) (fs : List (Bytes × CTy)) (x : List (Bytes × Tree)), treeFields P fs l = .ok x → ShowsFields P fs l x
  | [], fs, x, h => by
    cases fs with
    | nil => simp only [treeFields] at h; injection h with h; subst h; exact .nil
    | cons f fs => simp [treeFields] at h
  | v :: l, fs, x, h => by
    cases fs with
    | nil => simp [treeFields] at h
    | cons f fs =>
      obtain ⟨n, t⟩ := f
      simp only [treeFields] at h
      obtain ⟨y, h1, h2⟩ := bind_eq_ok.1 h
      obtain ⟨r, h3, h4⟩ := bind_eq_ok.1 h2
      injection h4 with h4; subst h4
      exact .cons (treeOf_shows P v _ _ h1) (treeFields_shows P l _ _ h3)
end

mutual
theorem shows_treeOf {P : Prog} : ∀ {t : CTy} {v : SVal} {x : Tree}, Shows P t v x → treeOf P t v = .ok x
  | _, _, _, .leaf h => by simp only [treeOf, h, bind_ok]
  | _, _, _, .vec h => by simp only [treeOf, showsAll_tree h, bind_ok]
  | _, _, _, .absent => by simp only [treeOf]
  | _, _, _, .present h => by simp only [treeOf, shows_treeOf h]
  | _, _, _, .alt h h' => by simp only [treeOf, h, shows_treeOf h', bind_ok]
  | _, _, _, .struct h => by simp only [treeOf, showsFields_tree h, bind_ok]

theorem showsAll_tree {P : Prog} : ∀ {t : CTy} {v : List SVal} {x : List Tree}, ShowsAll P t v x → treeElems P t v = .ok x
  | _, _, _, .nil => by simp only [treeElems]
  | _, _, _, .cons h h' => by simp only [treeElems, shows_treeOf h, showsAll_tree h', bind_ok]

theorem showsFields_tree {P : Prog} : ∀ {t : List (Bytes × CTy)} {v : List SVal} {x : List (Bytes × Tree)}, ShowsFields P t v x → treeFields P t v = .ok x
  | _, _, _, .nil => by simp only [treeFields]
  | _, _, _, .cons h h' => by simp only [treeFields, shows_treeOf h, showsFields_tree h', bind_ok]
end

theorem shows_iff {P : Prog} {t : CTy} {v : SVal} {x : Tree} : Shows P t v x ↔ treeOf P t v = .ok x := ⟨shows_treeOf, treeOf_shows P v t x⟩

/-! ## layouts -/

/-- A layout: what a new line at some level and a colon are. -/
structure Style where
  nl : Nat → Bytes
  col : Bytes

mutual
def emit (y : Style) (d : Nat) : Tree → Bytes
  | .atom t => t
  | .arr l => str "[" ++ (emitElems y d true l ++ ((if l.isEmpty then [] else y.nl d) ++ str "]"))
  | .obj l => str "{" ++ (emitMembers y d true l ++ ((if l.isEmpty then [] else y.nl d) ++ str "}"))

def emitElems (y : Style) (d : Nat) (first : Bool) : List Tree → Bytes
  | [] => []
  | x :: l => (if first then [] else str ",") ++ (y.nl (d + 1) ++ (emit y (d + 1) x ++ emitElems y d false l))

def emitMembers (y : Style) (d : Nat) (first : Bool) : List (Bytes × Tree) → Bytes
  | [] => []
  | (k, x) :: l => (if first then [] else str ",") ++ (y.nl (d + 1) ++ (k ++ (y.col ++ (emit y (d + 1) x ++ emitMembers y d false l))))
end

/-- A stream: `Has d b s` says that `b` was written, at level `d`; `Fits b` that there is room for `b` in all. -/
structure Law {σ : Type} (S : JStream σ) (y : Style) (Fits : Bytes → Prop) (Has : Nat → Bytes → σ → Prop) : Prop where
  write : ∀ {d b c s}, Has d b s → Fits (b ++ c) → ∃ s', S.write c s = .ok s' ∧ Has d (b ++ c) s'
  inc : ∀ {d b s}, Has d b s → ∃ s', S.inc s = .ok s' ∧ Has (d + 1) b s'
  dec : ∀ {d b s}, Has (d + 1) b s → ∃ s', S.dec s = .ok s' ∧ Has d b s'
  colon : ∀ {d b s}, Has d b s → Fits (b ++ y.col) → ∃ s', S.colon s = .ok s' ∧ Has d (b ++ y.col) s'
  newline : ∀ {d b s}, Has d b s → Fits (b ++ y.nl d) → ∃ s', S.newline s = .ok s' ∧ Has d (b ++ y.nl d) s'
  cut : ∀ {a b}, Fits (a ++ b) → Fits a


section
variable {σ : Type} {P : Prog} {S : JStream σ} {y : Style} {Fits : Bytes → Prop} {Has : Nat → Bytes → σ → Prop}

theorem Law.cut' (law : Law S y Fits Has) {a b c : Bytes} (h : Fits (a ++ (b ++ c))) : Fits (a ++ b) := by
  rw [← List.append_assoc] at h; exact law.cut h

/-- the start of the loops: one level deeper before the first element, a comma before the others -/
theorem law_lead (law : Law S y Fits Has) {first : Bool} {d : Nat} {b : Bytes} {s : σ} (hs : Has (if first then d else d + 1) b s)
    (hf : Fits (b ++ ((if first then [] else str ",") ++ y.nl (d + 1)))) :
    ∃ s2, S.lead first s = .ok s2 ∧ Has (d + 1) (b ++ ((if first then [] else str ",") ++ y.nl (d + 1))) s2 := by
  unfold JStream.lead
  cases first with
  | true =>
    obtain ⟨s1, h1, h2⟩ := law.inc hs
    obtain ⟨s2, h3, h4⟩ := law.newline h2 (by simpa using hf)
    exact ⟨s2, by simp only [↓reduceIte, h1, bind_ok, h3], by simpa using h4⟩
  | false =>
    simp only [Bool.false_eq_true, ↓reduceIte] at hs hf ⊢
    obtain ⟨s1, h1, h2⟩ := law.write hs (law.cut' hf)
    obtain ⟨s2, h3, h4⟩ := law.newline h2 (by rw [List.append_assoc]; exact hf)
    exact ⟨s2, by rw [h1, bind_ok, h3], by rw [← List.append_assoc]; exact h4⟩

/-- the end of a container -/
theorem law_close (law : Law S y Fits Has) {e : Bool} {d : Nat} {b c : Bytes} {s : σ} (hs : Has (if e then d else d + 1) b s)
    (hf : Fits (b ++ ((if e then [] else y.nl d) ++ c))) :
    ∃ s1 s2, S.close e s = .ok s1 ∧ S.write c s1 = .ok s2 ∧ Has d (b ++ ((if e then [] else y.nl d) ++ c)) s2 := by
  unfold JStream.close
  cases e with
  | true =>
    obtain ⟨s2, h3, h4⟩ := law.write hs (by simpa using hf)
    exact ⟨s, s2, rfl, h3, by simpa using h4⟩
  | false =>
    simp only [Bool.false_eq_true, ↓reduceIte] at hs hf ⊢
    obtain ⟨s1, h1, h2⟩ := law.dec hs
    obtain ⟨s2, h3, h4⟩ := law.newline h2 (law.cut' hf)
    obtain ⟨s3, h5, h6⟩ := law.write h4 (by rw [List.append_assoc]; exact hf)
    exact ⟨s2, s3, by rw [h1, bind_ok, h3], h5, by rw [← List.append_assoc]; exact h6⟩

theorem ifFirst {b : Bool} {d : Nat} : (if b = true then d else d) = d := by split <;> rfl

mutual
theorem emit_ok (law : Law S y Fits Has) : ∀ (v : SVal) (t : CTy) (x : Tree) (d : Nat) (b : Bytes) (s : σ), treeOf P t v = .ok x →
    Has d b s → Fits (b ++ emit y d x) → ∃ s', toJsonG P S t v s = .ok s' ∧ Has d (b ++ emit y d x) s'
  | .leaf w, t, x, d, b, s, h, hs, hf => by
    cases t <;> simp only [treeOf, reduceCtorEq] at h
    obtain ⟨⟨u, r⟩, h1, h2⟩ := bind_eq_ok.1 h
    cases r with
    | nil =>
      injection h2 with h2; subst h2
      simp only [emit] at hf ⊢
      simp only [toJsonG, h1, bind_ok]
      exact law.write hs hf
    | cons => cases h2
  | .vec l, t, x, d, b, s, h, hs, hf => by
    cases t <;> simp only [treeOf, reduceCtorEq] at h
    obtain ⟨r, h1, h2⟩ := bind_eq_ok.1 h
    injection h2 with h2; subst h2
    simp only [emit] at hf ⊢
    obtain ⟨s1, h3, h4⟩ := law.write hs (law.cut' hf)
    rw [← List.append_assoc] at hf
    obtain ⟨s2, h5, h6⟩ := emitElems_ok law l _ r d true _ s1 h1 h4 (law.cut' hf)
    rw [← List.append_assoc] at hf
    have he : l.isEmpty = r.isEmpty := by
      cases l with
      | nil => simp only [treeElems] at h1; injection h1 with h1; subst h1; rfl
      | cons v l =>
        simp only [treeElems] at h1
        obtain ⟨_, _, h1⟩ := bind_eq_ok.1 h1
        obtain ⟨_, _, h1⟩ := bind_eq_ok.1 h1
        injection h1 with h1; subst h1; rfl
    rw [he] at h6
    obtain ⟨s3, s4, h7, h8, h9⟩ := law_close law (by simpa using h6) hf
    refine ⟨s4, ?_, by simpa only [List.append_assoc] using h9⟩
    simp only [toJsonG, h3, bind_ok, h5, he, h7, h8]
  | .absent, t, x, d, b, s, h, hs, hf => by
    cases t <;> simp only [treeOf, reduceCtorEq] at h
    injection h with h; subst h
    simp only [emit] at hf ⊢
    simp only [toJsonG]
    exact law.write hs hf
  | .present v, t, x, d, b, s, h, hs, hf => by
    cases t <;> simp only [treeOf, reduceCtorEq] at h
    simp only [toJsonG]
    exact emit_ok law v _ _ _ _ _ h hs hf
  | .alt i v, t, x, d, b, s, h, hs, hf => by
    cases t <;> simp only [treeOf, reduceCtorEq] at h
    split at h
    · cases h
    rename_i u hu
    obtain ⟨r, h1, h2⟩ := bind_eq_ok.1 h
    injection h2 with h2; subst h2
    simp only [emit, emitElems, List.isEmpty_cons, Bool.false_eq_true, ↓reduceIte, List.nil_append, List.append_assoc] at hf ⊢
    obtain ⟨s1, e1, k1⟩ := law.write hs (law.cut' hf)
    obtain ⟨s2, e2, k2⟩ := law.inc k1
    rw [← List.append_assoc] at hf
    obtain ⟨s3, e3, k3⟩ := law.newline k2 (law.cut' hf)
    rw [← List.append_assoc] at hf
    obtain ⟨s4, e4, k4⟩ := law.write k3 (law.cut' hf)
    rw [← List.append_assoc] at hf
    obtain ⟨s5, e5, k5⟩ := law.write k4 (law.cut' hf)
    rw [← List.append_assoc] at hf
    obtain ⟨s6, e6, k6⟩ := law.newline k5 (law.cut' hf)
    rw [← List.append_assoc] at hf
    obtain ⟨s7, e7, k7⟩ := emit_ok law v _ _ _ _ _ h1 k6 (law.cut' hf)
    rw [← List.append_assoc] at hf
    obtain ⟨s8, e8, k8⟩ := law.dec k7
    obtain ⟨s9, e9, k9⟩ := law.newline k8 (law.cut' hf)
    rw [← List.append_assoc] at hf
    obtain ⟨s10, e10, k10⟩ := law.write k9 hf
    refine ⟨s10, ?_, by simpa only [List.append_assoc] using k10⟩
    simp only [toJsonG, hu, e1, bind_ok, e2, e3, e4, e5, e6, e7, e8, e9, e10]
  | .struct l, t, x, d, b, s, h, hs, hf => by
    cases t <;> simp only [treeOf, reduceCtorEq] at h
    obtain ⟨r, h1, h2⟩ := bind_eq_ok.1 h
    injection h2 with h2; subst h2
    simp only [emit] at hf ⊢
    obtain ⟨s1, h3, h4⟩ := law.write hs (law.cut' hf)
    rw [← List.append_assoc] at hf
    obtain ⟨s2, h5, h6⟩ := emitMembers_ok law l _ r d true _ s1 h1 h4 (law.cut' hf)
    rw [← List.append_assoc] at hf
    have he : l.isEmpty = r.isEmpty := by
      generalize P.fields _ = fs at h1
      cases l with
      | nil =>
        cases fs with
        | nil => simp only [treeFields] at h1; injection h1 with h1; subst h1; rfl
        | cons f fs => simp [treeFields] at h1
      | cons v l =>
        cases fs with
        | nil => simp [treeFields] at h1
        | cons f fs =>
          simp only [treeFields] at h1
          obtain ⟨_, _, h1⟩ := bind_eq_ok.1 h1
          obtain ⟨_, _, h1⟩ := bind_eq_ok.1 h1
          injection h1 with h1; subst h1; rfl
    rw [he] at h6
    obtain ⟨s3, s4, h7, h8, h9⟩ := law_close law (by simpa using h6) hf
    refine ⟨s4, ?_, by simpa only [List.append_assoc] using h9⟩
    simp only [toJsonG, h3, bind_ok, h5, he, h7, h8]
  | .unset, t, x, d, b, s, h, hs, hf => by cases t <;> simp [treeOf] at h

theorem emitElems_ok (law : Law S y Fits Has) : ∀ (l : List SVal) (t : CTy) (x : List Tree) (d : Nat) (first : Bool) (b : Bytes) (s : σ),
    treeElems P t l = .ok x → Has (if first then d else d + 1) b s → Fits (b ++ emitElems y d first x) →
    ∃ s', toJsonElems P S t first l s = .ok s' ∧ Has (if l.isEmpty then (if first then d else d + 1) else d + 1) (b ++ emitElems y d first x) s'
  | [], t, x, d, first, b, s, h, hs, hf => by
    simp only [treeElems] at h
    injection h with h; subst h
    exact ⟨s, by simp only [toJsonElems], by simpa only [List.isEmpty_nil, ↓reduceIte, emitElems, List.append_nil] using hs⟩
  | v :: l, t, x, d, first, b, s, h, hs, hf => by
    simp only [treeElems] at h
    obtain ⟨z, h1, h2⟩ := bind_eq_ok.1 h
    obtain ⟨r, h3, h4⟩ := bind_eq_ok.1 h2
    injection h4 with h4; subst h4
    simp only [emitElems] at hf ⊢
    rw [← List.append_assoc (if first = true then [] else str ",")] at hf ⊢
    obtain ⟨s2, e2, k2⟩ := law_lead law hs (law.cut' hf)
    rw [← List.append_assoc] at hf
    obtain ⟨s3, e3, k3⟩ := emit_ok law v _ _ _ _ _ h1 k2 (law.cut' hf)
    rw [← List.append_assoc] at hf
    obtain ⟨s4, e4, k4⟩ := emitElems_ok law l _ _ d false _ _ h3 (by simpa using k3) hf
    refine ⟨s4, ?_, ?_⟩
    · simp only [toJsonElems, e2, e3, e4, bind_ok]
    · simp only [List.isEmpty_cons, Bool.false_eq_true, ↓reduceIte, ifFirst] at k4 ⊢
      simpa only [List.append_assoc] using k4

theorem emitMembers_ok (law : Law S y Fits Has) : ∀ (l : List SVal) (fs : List (Bytes × CTy)) (x : List (Bytes × Tree)) (d : Nat) (first : Bool) (b : Bytes) (s : σ),
    treeFields P fs l = .ok x → Has (if first then d else d + 1) b s → Fits (b ++ emitMembers y d first x) →
    ∃ s', toJsonFields P S fs first l s = .ok s' ∧ Has (if l.isEmpty then (if first then d else d + 1) else d + 1) (b ++ emitMembers y d first x) s'
  | [], fs, x, d, first, b, s, h, hs, hf => by
    cases fs with
    | cons f fs => simp [treeFields] at h
    | nil =>
      simp only [treeFields] at h
      injection h with h; subst h
      exact ⟨s, by simp only [toJsonFields], by simpa only [List.isEmpty_nil, ↓reduceIte, emitMembers, List.append_nil] using hs⟩
  | v :: l, fs, x, d, first, b, s, h, hs, hf => by
    cases fs with
    | nil => simp [treeFields] at h
    | cons f fs =>
      obtain ⟨n, t⟩ := f
      simp only [treeFields] at h
      obtain ⟨z, h1, h2⟩ := bind_eq_ok.1 h
      obtain ⟨r, h3, h4⟩ := bind_eq_ok.1 h2
      injection h4 with h4; subst h4
      simp only [emitMembers] at hf ⊢
      rw [← List.append_assoc (if first = true then [] else str ",")] at hf ⊢
      obtain ⟨s2, e2, k2⟩ := law_lead law hs (law.cut' hf)
      rw [← List.append_assoc] at hf
      obtain ⟨s3, e3, k3⟩ := law.write k2 (law.cut' hf)
      rw [← List.append_assoc] at hf
      obtain ⟨s4, e4, k4⟩ := law.colon k3 (law.cut' hf)
      rw [← List.append_assoc] at hf
      obtain ⟨s5, e5, k5⟩ := emit_ok law v _ _ _ _ _ h1 k4 (law.cut' hf)
      rw [← List.append_assoc] at hf
      obtain ⟨s6, e6, k6⟩ := emitMembers_ok law l _ _ d false _ _ h3 (by simpa using k5) hf
      refine ⟨s6, ?_, ?_⟩
      · simp only [toJsonFields, e2, e3, e4, e5, e6, bind_ok]
      · simp only [List.isEmpty_cons, Bool.false_eq_true, ↓reduceIte, ifFirst] at k6 ⊢
        simpa only [List.append_assoc] using k6
end

mutual
theorem emit_err (law : Law S y Fits Has) (hf : ∀ b, Fits b) : ∀ (v : SVal) (t : CTy) (e : Err) (d : Nat) (b : Bytes) (s : σ),
    treeOf P t v = .error e → Has d b s → toJsonG P S t v s = .error e
  | .leaf w, t, e, d, b, s, h, hs => by
    cases t <;> simp only [treeOf, toJsonG] at h ⊢ <;> try (injection h with h; rw [h])
    cases h1 : builtinFromBin _ w with
    | error e' => rw [h1, bind_error] at h; rw [bind_error]; cases h; rfl
    | ok z =>
      obtain ⟨u, r⟩ := z
      rw [h1, bind_ok] at h
      rw [bind_ok]
      cases r with
      | nil => cases h
      | cons => cases h; rfl
  | .vec l, t, e, d, b, s, h, hs => by
    cases t <;> simp only [treeOf, toJsonG] at h ⊢ <;> try (injection h with h; rw [h])
    obtain ⟨s1, h3, h4⟩ := law.write hs (hf _)
    rw [h3, bind_ok]
    cases h1 : treeElems P _ l with
    | ok x => rw [h1] at h; cases h
    | error e' =>
      rw [h1] at h
      injection h with h; subst h
      rw [emitElems_err law hf l _ _ d true _ s1 h1 h4, bind_error]
  | .absent, t, e, d, b, s, h, hs => by
    cases t <;> simp only [treeOf, toJsonG] at h ⊢ <;> try (injection h with h; rw [h])
    cases h
  | .present v, t, e, d, b, s, h, hs => by
    cases t <;> simp only [treeOf, toJsonG] at h ⊢ <;> try (injection h with h; rw [h])
    exact emit_err law hf v _ _ _ _ _ h hs
  | .alt i v, t, e, d, b, s, h, hs => by
    cases t <;> simp only [treeOf, toJsonG] at h ⊢ <;> try (injection h with h; rw [h])
    split at h
    · rename_i hu; rw [hu]; injection h with h; simp only [h]
    · rename_i u hu
      rw [hu]
      obtain ⟨s1, e1, k1⟩ := law.write (c := str "[") hs (hf _)
      obtain ⟨s2, e2, k2⟩ := law.inc k1
      obtain ⟨s3, e3, k3⟩ := law.newline k2 (hf _)
      obtain ⟨s4, e4, k4⟩ := law.write (c := jsonString u.name) k3 (hf _)
      obtain ⟨s5, e5, k5⟩ := law.write (c := str ",") k4 (hf _)
      obtain ⟨s6, e6, k6⟩ := law.newline k5 (hf _)
      simp only [e1, bind_ok, e2, e3, e4, e5, e6]
      cases h1 : treeOf P _ v with
      | ok x => rw [h1] at h; cases h
      | error e' =>
        rw [h1] at h
        injection h with h; subst h
        rw [emit_err law hf v _ _ _ _ _ h1 k6, bind_error]
  | .struct l, t, e, d, b, s, h, hs => by
    cases t <;> simp only [treeOf, toJsonG] at h ⊢ <;> try (injection h with h; rw [h])
    obtain ⟨s1, h3, h4⟩ := law.write hs (hf _)
    rw [h3, bind_ok]
    cases h1 : treeFields P _ l with
    | ok x => rw [h1] at h; cases h
    | error e' =>
      rw [h1] at h
      injection h with h; subst h
      rw [emitMembers_err law hf l _ _ d true _ s1 h1 h4, bind_error]
  | .unset, t, e, d, b, s, h, hs => by cases t <;> simp only [treeOf, toJsonG] at h ⊢ <;> (injection h with h; rw [h])

theorem emitElems_err (law : Law S y Fits Has) (hf : ∀ b, Fits b) : ∀ (l : List SVal) (t : CTy) (e : Err) (d : Nat) (first : Bool) (b : Bytes) (s : σ),
    treeElems P t l = .error e → Has (if first then d else d + 1) b s → toJsonElems P S t first l s = .error e
  | [], t, e, d, first, b, s, h, hs => by simp [treeElems] at h
  | v :: l, t, e, d, first, b, s, h, hs => by
    simp only [treeElems] at h
    obtain ⟨s2, e2, k2⟩ := law_lead law hs (hf _)
    simp only [toJsonElems, bind_ok, e2]
    cases h1 : treeOf P t v with
    | error e' =>
      rw [h1] at h; injection h with h; subst h
      rw [emit_err law hf v _ _ _ _ _ h1 k2, bind_error]
    | ok z =>
      rw [h1, bind_ok] at h
      obtain ⟨s3, e3, k3⟩ := emit_ok law v _ _ _ _ _ h1 k2 (hf _)
      rw [e3, bind_ok]
      cases h2 : treeElems P t l with
      | ok x => rw [h2] at h; cases h
      | error e' =>
        rw [h2] at h; injection h with h; subst h
        exact emitElems_err law hf l _ _ d false _ _ h2 (by simpa using k3)

theorem emitMembers_err (law : Law S y Fits Has) (hf : ∀ b, Fits b) : ∀ (l : List SVal) (fs : List (Bytes × CTy)) (e : Err) (d : Nat) (first : Bool) (b : Bytes) (s : σ),
    treeFields P fs l = .error e → Has (if first then d else d + 1) b s → toJsonFields P S fs first l s = .error e
  | [], fs, e, d, first, b, s, h, hs => by
    cases fs with
    | nil => simp [treeFields] at h
    | cons f fs => simp only [treeFields, toJsonFields] at h ⊢; injection h with h; rw [h]
  | v :: l, fs, e, d, first, b, s, h, hs => by
    cases fs with
    | nil => simp only [treeFields, toJsonFields] at h ⊢; injection h with h; rw [h]
    | cons f fs =>
      obtain ⟨n, t⟩ := f
      simp only [treeFields] at h
      obtain ⟨s2, e2, k2⟩ := law_lead law hs (hf _)
      obtain ⟨s3, e3, k3⟩ := law.write (c := jsonString n) k2 (hf _)
      obtain ⟨s4, e4, k4⟩ := law.colon k3 (hf _)
      simp only [toJsonFields, bind_ok, e2, e3, e4]
      cases h1 : treeOf P t v with
      | error e' =>
        rw [h1] at h; injection h with h; subst h
        rw [emit_err law hf v _ _ _ _ _ h1 k4, bind_error]
      | ok z =>
        rw [h1, bind_ok] at h
        obtain ⟨s5, e5, k5⟩ := emit_ok law v _ _ _ _ _ h1 k4 (hf _)
        rw [e5, bind_ok]
        cases h2 : treeFields P fs l with
        | ok x => rw [h2] at h; cases h
        | error e' =>
          rw [h2] at h; injection h with h; subst h
          exact emitMembers_err law hf l _ _ d false _ _ h2 (by simpa using k5)
end

end

/-! ## the streams -/

def plainStyle : Style := ⟨fun _ => [], str ":"⟩
def prettyStyle : Style := ⟨line, str ": "⟩

theorem law_plain {σ : Type} {w : Writer σ} {Fits : Bytes → Prop} {Has : Bytes → σ → Prop} (cut : ∀ {a b}, Fits (a ++ b) → Fits a)
    (hw : ∀ {b c s}, Has b s → Fits (b ++ c) → ∃ s', w c s = .ok s' ∧ Has (b ++ c) s') : Law (plainStream w) plainStyle Fits (fun _ => Has) where
  write := hw
  inc := fun h => ⟨_, rfl, h⟩
  dec := fun h => ⟨_, rfl, h⟩
  colon := hw
  newline := fun h _ => ⟨_, rfl, by simpa [plainStyle] using h⟩
  cut := cut

theorem law_pretty {σ : Type} {w : Writer σ} {Fits : Bytes → Prop} {Has : Bytes → σ → Prop} (cut : ∀ {a b}, Fits (a ++ b) → Fits a)
    (hw : ∀ {b c s}, Has b s → Fits (b ++ c) → ∃ s', w c s = .ok s' ∧ Has (b ++ c) s') :
    Law (prettyStream w) prettyStyle Fits (fun d b s => Has b s.1 ∧ s.2 = List.replicate (4 * d) 32) where
  write := by
    rintro d b c ⟨s, i⟩ ⟨h, h'⟩ hf
    obtain ⟨s', h1, h2⟩ := hw h hf
    exact ⟨(s', i), by simp only [prettyStream, h1, bind_ok], h2, h'⟩
  inc := by
    rintro d b ⟨s, i⟩ ⟨h, h'⟩
    refine ⟨_, rfl, h, ?_⟩
    simp only at h' ⊢
    rw [h', List.replicate_append_replicate]
    congr 1
  dec := by
    rintro d b ⟨s, i⟩ ⟨h, h'⟩
    simp only at h h'
    refine ⟨(s, List.replicate (4 * d) 32), ?_, h, rfl⟩
    simp only [prettyStream, h', List.length_replicate, List.take_replicate]
    rw [show decide (4 ≤ 4 * (d + 1)) = true by simp; omega, check_true, bind_ok, Nat.min_eq_left (by omega)]
    congr 3
  colon := by
    rintro d b ⟨s, i⟩ ⟨h, h'⟩ hf
    obtain ⟨s', h1, h2⟩ := hw h hf
    exact ⟨(s', i), by simp only [prettyStream]; rw [show str ": " = prettyStyle.col from rfl, h1, bind_ok], h2, h'⟩
  newline := by
    rintro d b ⟨s, i⟩ ⟨h, h'⟩ hf
    simp only at h h'
    have hf' : Fits ((b ++ str "\n") ++ List.replicate (4 * d) 32) := by simpa [prettyStyle, line] using hf
    obtain ⟨s1, h1, h2⟩ := hw h (cut hf')
    obtain ⟨s2, h3, h4⟩ := hw h2 hf'
    refine ⟨(s2, i), by simp only [prettyStream, h1, bind_ok, h', h3], ?_, h'⟩
    simpa [prettyStyle, line] using h4
  cut := cut

def HasSize (b : Bytes) (n : Nat) : Prop := n = b.length
def HasBuf (N : Nat) (b : Bytes) (s : FixedBuf) : Prop := s.written = b ∧ s.room + b.length = N

theorem size_has {b c : Bytes} {s : Nat} (h : HasSize b s) : ∃ s', sizeWrite c s = .ok s' ∧ HasSize (b ++ c) s' :=
  ⟨_, rfl, by simp only [HasSize, List.length_append] at h ⊢; omega⟩

theorem buf_has {N : Nat} {b c : Bytes} {s : FixedBuf} (h : HasBuf N b s) (hf : (b ++ c).length ≤ N) :
    ∃ s', fixedWrite c s = .ok s' ∧ HasBuf N (b ++ c) s' := by
  obtain ⟨rfl, h2⟩ := h
  rw [List.length_append] at hf
  refine ⟨⟨s.written ++ c, s.room - c.length⟩, ?_, rfl, by simp only [List.length_append]; omega⟩
  unfold fixedWrite
  rw [if_pos (by omega)]

end Abieos
