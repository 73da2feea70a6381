import Verif.Spec.StaticJson
import Verif.Props.AbiDefJson
/-! The JSON reader of C++ values, on the tokens of a document. -/
namespace Abieos
open Spec

section
variable {P : Prog} {F : Floats}

/-- the tokens of `d` are read into `o`, which becomes `v` -/
def Rd (P : Prog) (F : Floats) (n : Nat) (t : CTy) (o : SVal) (d : JVal) (v : SVal) : Prop := fromJsonC P F n t o d.toks = .ok (v, [])

/-- a reader takes the tokens of one document, whatever follows -/
def Takes (r : TokReader SVal) : Prop := ∀ (o : SVal) (d : JVal) (rest : List Tok) (v : SVal) (rest' : List Tok), r o (d.toks ++ rest) = .ok (v, rest') ↔ rest' = rest ∧ r o d.toks = .ok (v, [])

/-- a reader does not take the end of an array -/
def NoEnd (r : TokReader SVal) : Prop := ∀ o rest v rest', r o (.endArr :: rest) ≠ .ok (v, rest')

inductive AllRd (R : JVal → SVal → Prop) : List JVal → List SVal → Prop
  | nil : AllRd R [] []
  | cons {d : JVal} {l : List JVal} {v : SVal} {vs : List SVal} : R d v → AllRd R l vs → AllRd R (d :: l) (v :: vs)

theorem vecLoop_takes {r : TokReader SVal} (h : Takes r) : ∀ (l : List JVal) (n : Nat) (acc : List SVal) (rest : List Tok) (w : List SVal) (rest' : List Tok), l.length < n →
    (vecLoop .unset r n acc (JVal.toks.go l ++ (.endArr :: rest)) = .ok (w, rest') ↔
      rest' = rest ∧ ∃ vs, AllRd (fun d v => r .unset d.toks = .ok (v, [])) l vs ∧ w = acc ++ vs)
  | [], n + 1, acc, rest, w, rest', _ => by
    simp only [JVal.toks.go, List.nil_append, vecLoop, Except.ok.injEq, Prod.mk.injEq]
    constructor
    · rintro ⟨rfl, rfl⟩; exact ⟨rfl, [], .nil, by simp⟩
    · rintro ⟨rfl, vs, h1, h2⟩; cases h1; simpa using h2.symm
  | d :: l, n + 1, acc, rest, w, rest', hn => by
    obtain ⟨t, ts, ht, h1, h2⟩ := toks_head d
    have hl : vecLoop .unset r (n + 1) acc (JVal.toks.go (d :: l) ++ (.endArr :: rest)) =
        (do let (a, ts) ← r .unset (d.toks ++ (JVal.toks.go l ++ (.endArr :: rest))); vecLoop .unset r n (acc ++ [a]) ts) := by
      rw [JVal.toks.go, List.append_assoc, ht, List.cons_append, vecLoop]
      · exact h1
    rw [hl, bind_eq_ok]
    constructor
    · rintro ⟨⟨a, ts'⟩, h3, h4⟩
      obtain ⟨rfl, h5⟩ := (h _ _ _ _ _).1 h3
      obtain ⟨rfl, vs, h6, rfl⟩ := (vecLoop_takes h l n _ _ _ _ (by simpa using hn)).1 h4
      exact ⟨rfl, a :: vs, .cons h5 h6, by simp⟩
    · rintro ⟨rfl, vs, h3, rfl⟩
      cases h3 with
      | @cons _ _ v vs h3 h4 =>
      refine ⟨(v, JVal.toks.go l ++ (.endArr :: rest')), (h _ _ _ _ _).2 ⟨rfl, h3⟩, ?_⟩
      exact (vecLoop_takes h l n _ _ _ _ (by simpa using hn)).2 ⟨rfl, vs, h4, by simp⟩
  | _, 0, _, _, _, _, hn => by omega

/-- the members one after the other -/
inductive Steps (f : Bytes → Option (TokReader SVal)) : List (Bytes × JVal) → SVal → SVal → Prop
  | nil {o : SVal} : Steps f [] o o
  | skip {k : Bytes} {d : JVal} {l : List (Bytes × JVal)} {o o' : SVal} : f k = none → Steps f l o o' → Steps f ((k, d) :: l) o o'
  | take {k : Bytes} {d : JVal} {l : List (Bytes × JVal)} {o o1 o' : SVal} {r : TokReader SVal} : f k = some r → r o d.toks = .ok (o1, []) → Steps f l o1 o' →
      Steps f ((k, d) :: l) o o'

theorem objLoop_takes {f : Bytes → Option (TokReader SVal)} (h : ∀ k r, f k = some r → Takes r) :
    ∀ (l : List (Bytes × JVal)) (n : Nat) (o : SVal) (rest : List Tok) (o' : SVal) (rest' : List Tok), l.length < n →
      (objLoop f n o (JVal.toks.goM l ++ (.endObj :: rest)) = .ok (o', rest') ↔ rest' = rest ∧ Steps f l o o')
  | [], n + 1, o, rest, o', rest', _ => by
    simp only [JVal.toks.goM, List.nil_append, objLoop, Except.ok.injEq, Prod.mk.injEq]
    constructor
    · rintro ⟨rfl, rfl⟩; exact ⟨rfl, .nil⟩
    · rintro ⟨rfl, h1⟩; cases h1; exact ⟨rfl, rfl⟩
  | (k, d) :: l, n + 1, o, rest, o', rest', hn => by
    rw [JVal.toks.goM, List.cons_append, List.append_assoc, objLoop]
    cases hk : f k with
    | none =>
      simp only [skip_value, bind_ok]
      rw [objLoop_takes h l n o rest o' rest' (by simpa using hn)]
      constructor
      · rintro ⟨rfl, h1⟩; exact ⟨rfl, .skip hk h1⟩
      · rintro ⟨rfl, h1⟩
        cases h1 with
        | skip _ h1 => exact ⟨rfl, h1⟩
        | take h2 => rw [hk] at h2; cases h2
    | some r =>
      simp only
      rw [bind_eq_ok]
      constructor
      · rintro ⟨⟨a, ts'⟩, h3, h4⟩
        obtain ⟨rfl, h5⟩ := (h k r hk _ _ _ _ _).1 h3
        obtain ⟨rfl, h6⟩ := (objLoop_takes h l n _ _ _ _ (by simpa using hn)).1 h4
        exact ⟨rfl, .take hk h5 h6⟩
      · rintro ⟨rfl, h1⟩
        cases h1 with
        | skip h2 => rw [hk] at h2; cases h2
        | @take _ _ _ _ o1 _ r' h2 h3 h4 =>
          rw [hk] at h2; cases h2
          refine ⟨(o1, _), (h k r hk _ _ _ _ _).2 ⟨rfl, h3⟩, ?_⟩
          exact (objLoop_takes h l n _ _ _ _ (by simpa using hn)).2 ⟨rfl, h4⟩
  | _, 0, _, _, _, _, hn => by omega

theorem noEnd_all : ∀ (n : Nat) (t : CTy), NoEnd (fromJsonC P F n t)
  | 0, t => by intro o rest v rest' h; simp [fromJsonC] at h
  | n + 1, t => by
    intro o rest v rest' h
    cases t with
    | leaf k => simp [fromJsonC, leafFromJson] at h
    | struct m => simp [fromJsonC, objFromJson] at h
    | vec t =>
      simp only [fromJsonC] at h
      obtain ⟨_, h1, -⟩ := bind_eq_ok.1 h
      simp [vecFromJson] at h1
    | opt t =>
      simp only [fromJsonC] at h
      obtain ⟨⟨a, b⟩, h1, -⟩ := bind_eq_ok.1 h
      exact noEnd_all n t _ _ _ _ h1
    | variant us => simp [fromJsonC] at h
    | ext t => exact noEnd_all n t _ _ _ _ (by simpa only [fromJsonC] using h)

theorem takes_member {get : SVal → SVal} {set : SVal → SVal → SVal} {r : TokReader SVal} (h : Takes r) : Takes (member get set r) := by
  intro o d rest v rest'
  simp only [member, bind_eq_ok]
  constructor
  · rintro ⟨⟨a, b⟩, h1, h2⟩
    obtain ⟨rfl, h3⟩ := (h _ _ _ _ _).1 h1
    simp only [Except.ok.injEq, Prod.mk.injEq] at h2
    obtain ⟨rfl, rfl⟩ := h2
    exact ⟨rfl, (a, []), h3, rfl⟩
  · rintro ⟨rfl, ⟨a, b⟩, h1, h2⟩
    simp only [Except.ok.injEq, Prod.mk.injEq] at h2
    obtain ⟨rfl, rfl⟩ := h2
    exact ⟨(a, rest'), (h _ _ _ _ _).2 ⟨rfl, h1⟩, rfl⟩

theorem structKeyS_some {r : CTy → TokReader SVal} {N : Nat} : ∀ {fs : List (Bytes × CTy)} {i : Nat} {k : Bytes} {q : TokReader SVal},
    structKeyS r N fs i k = some q → ∃ j t, fs[j]? = some (k, t) ∧ FirstField fs j k ∧
      q = member (fun o => (o.fields N).getD (i + j) .unset) (fun o x => .struct ((o.fields N).set (i + j) x)) (r t)
  | [], i, k, q, h => by simp [structKeyS] at h
  | (m, t) :: fs, i, k, q, h => by
    rw [structKeyS] at h
    split at h
    · rename_i e; subst e
      injection h with h
      exact ⟨0, t, rfl, by intro j u hj; omega, h.symm⟩
    · rename_i e
      obtain ⟨j, u, h1, h2, rfl⟩ := structKeyS_some h
      refine ⟨j + 1, u, by simpa using h1, ?_, by rw [show i + (j + 1) = i + 1 + j by omega]⟩
      intro j' u' hj hu
      cases j' with
      | zero => simp at hu; exact e hu.1.symm
      | succ j' => exact h2 j' u' (by omega) (by simpa using hu)

theorem structKeyS_none {r : CTy → TokReader SVal} {N : Nat} : ∀ {fs : List (Bytes × CTy)} {i : Nat} {k : Bytes},
    structKeyS r N fs i k = none ↔ k ∉ fs.map Prod.fst
  | [], i, k => by simp [structKeyS]
  | (m, t) :: fs, i, k => by
    rw [structKeyS]
    split
    · rename_i e; simp [e]
    · rename_i e
      rw [structKeyS_none]
      simp [e]

theorem variant_takes {n : Nat} {us : List CTy} (h : ∀ t, Takes (fromJsonC P F n t)) (o : SVal) (l : List JVal) (rest : List Tok) (v : SVal) (rest' : List Tok) :
    fromJsonC P F (n + 1) (.variant us) o ((JVal.arr l).toks ++ rest) = .ok (v, rest') ↔
      rest' = rest ∧ ∃ s d i t w, l = [.str s, d] ∧ findName s us 0 = some (i, t) ∧ fromJsonC P F n t .unset d.toks = .ok (w, []) ∧ v = .alt i w := by
  simp only [JVal.toks, List.cons_append, fromJsonC, List.append_assoc, List.nil_append]
  cases l with
  | nil => simp [JVal.toks.go, getString, bind, Except.bind]
  | cons x l =>
    cases x with
    | str s =>
      simp only [JVal.toks.go, JVal.toks, List.cons_append, List.nil_append, getString, bind_ok]
      cases hf : findName s us 0 with
      | none =>
        simp only [reduceCtorEq, false_iff]
        rintro ⟨-, s', d, i, t, w, e, h2, -⟩
        simp only [List.cons.injEq, JVal.str.injEq] at e
        rw [← e.1, hf] at h2; cases h2
      | some p =>
        obtain ⟨i, t⟩ := p
        simp only
        cases l with
        | nil =>
          simp only [JVal.toks.go, List.nil_append]
          constructor
          · intro h1
            obtain ⟨⟨a, b⟩, h2, -⟩ := bind_eq_ok.1 h1
            exact absurd h2 (noEnd_all _ _ _ _ _ _)
          · rintro ⟨-, s', d, i, t, w, e, -⟩; simp at e
        | cons d l =>
          simp only [JVal.toks.go, List.append_assoc, bind_eq_ok]
          constructor
          · rintro ⟨⟨a, b⟩, h1, h2⟩
            obtain ⟨rfl, h3⟩ := (h t _ _ _ _ _).1 h1
            cases l with
            | nil =>
              simp only [JVal.toks.go, List.nil_append, Except.ok.injEq, Prod.mk.injEq] at h2
              obtain ⟨rfl, rfl⟩ := h2
              exact ⟨rfl, s, d, i, t, a, rfl, hf, h3, rfl⟩
            | cons y l =>
              obtain ⟨z, zs, hz, h4, h5⟩ := toks_head y
              simp only [JVal.toks.go, hz, List.cons_append] at h2
              cases z <;> simp at h2 h4
          · rintro ⟨rfl, s', d', i', t', w, e, h2, h3, rfl⟩
            simp only [List.cons.injEq, JVal.str.injEq] at e
            obtain ⟨rfl, rfl, rfl⟩ := e
            rw [hf] at h2; cases h2
            exact ⟨(w, .endArr :: rest'), (h _ _ _ _ _ _).2 ⟨rfl, h3⟩, rfl⟩
    | _ =>
      simp only [JVal.toks.go, JVal.toks, List.cons_append, List.nil_append, getString, bind_error, reduceCtorEq, List.cons.injEq, false_and,
        exists_false, and_false]

theorem takes_all : ∀ (n : Nat) (t : CTy), Takes (fromJsonC P F n t)
  | 0, t => by intro o d rest v rest'; simp [fromJsonC]
  | n + 1, t => by
    intro o d rest v rest'
    cases t with
    | leaf k =>
      cases d with
      | bool x => cases h : builtinToBin F k (.bool x) <;> simp [fromJsonC, leafFromJson, JVal.toks, h, bind, Except.bind]; grind
      | str x => cases h : builtinToBin F k (.str x) <;> simp [fromJsonC, leafFromJson, JVal.toks, h, bind, Except.bind]; grind
      | _ => simp [fromJsonC, leafFromJson, JVal.toks]
    | struct m =>
      cases d with
      | obj l =>
        have hk : ∀ k r, structKeyS (fromJsonC P F n) (P.fields m).length (P.fields m) 0 k = some r → Takes r := by
          intro k r hr
          obtain ⟨j, u, -, -, rfl⟩ := structKeyS_some hr
          exact takes_member (takes_all n u)
        simp only [fromJsonC, JVal.toks, List.cons_append, objFromJson, List.append_assoc]
        have hlen := goM_length l
        rw [objLoop_takes hk l _ _ _ _ _ (by simp; omega)]
        have := objLoop_takes hk l ((JVal.toks.goM l ++ [Tok.endObj]).length + 1) (.struct (o.fields (P.fields m).length)) [] v [] (by simp; omega)
        rw [this]
        simp
      | _ => simp [fromJsonC, objFromJson, JVal.toks]
    | vec t =>
      cases d with
      | arr l =>
        simp only [fromJsonC, JVal.toks, List.cons_append, vecFromJson, List.append_assoc, bind_eq_ok]
        have hlen := go_length l
        constructor
        · rintro ⟨⟨w, ts⟩, h1, h2⟩
          rw [vecLoop_takes (takes_all n t) l _ _ _ _ _ (by simp; omega)] at h1
          obtain ⟨rfl, vs, h3, rfl⟩ := h1
          simp only [Except.ok.injEq, Prod.mk.injEq] at h2
          obtain ⟨rfl, rfl⟩ := h2
          exact ⟨rfl, (o.elems ++ vs, []), (vecLoop_takes (takes_all n t) l _ _ [] _ _ (by simp; omega)).2 ⟨rfl, vs, h3, rfl⟩, rfl⟩
        · rintro ⟨rfl, ⟨w, ts⟩, h1, h2⟩
          have h1 := (vecLoop_takes (takes_all n t) l _ _ [] _ _ (by simp; omega)).1 h1
          obtain ⟨rfl, vs, h3, rfl⟩ := h1
          simp only [Except.ok.injEq, Prod.mk.injEq, and_true] at h2
          subst h2
          exact ⟨(o.elems ++ vs, rest'), (vecLoop_takes (takes_all n t) l _ _ _ _ _ (by simp; omega)).2 ⟨rfl, vs, h3, rfl⟩, rfl⟩
      | _ => simp [fromJsonC, vecFromJson, JVal.toks, bind, Except.bind]
    | opt t =>
      have hn : d ≠ .null → ∀ rest, fromJsonC P F (n + 1) (.opt t) o (d.toks ++ rest) =
          (do let (v, ts) ← fromJsonC P F n t .unset (d.toks ++ rest); .ok (.present v, ts)) := by
        intro hd rest
        cases d with
        | null => exact absurd rfl hd
        | _ => simp [fromJsonC, JVal.toks]
      by_cases hd : d = .null
      · subst hd; simp [fromJsonC, JVal.toks]; grind
      · have h0 := hn hd []
        rw [List.append_nil] at h0
        rw [hn hd, h0, bind_eq_ok, bind_eq_ok]
        constructor
        · rintro ⟨⟨a, b⟩, h1, h2⟩
          obtain ⟨rfl, h3⟩ := (takes_all n t _ _ _ _ _).1 h1
          simp only [Except.ok.injEq, Prod.mk.injEq] at h2
          obtain ⟨rfl, rfl⟩ := h2
          exact ⟨rfl, (a, []), h3, rfl⟩
        · rintro ⟨rfl, ⟨a, b⟩, h1, h2⟩
          simp only [Except.ok.injEq, Prod.mk.injEq] at h2
          obtain ⟨rfl, rfl⟩ := h2
          exact ⟨(a, rest'), (takes_all n t _ _ _ _ _).2 ⟨rfl, h1⟩, rfl⟩
    | variant us =>
      cases d with
      | arr l =>
        have h0 := variant_takes (us := us) (takes_all n) o l [] v []
        rw [List.append_nil] at h0
        rw [variant_takes (takes_all n), h0]
        simp
      | _ => simp [fromJsonC, JVal.toks]
    | ext t => simpa only [fromJsonC] using takes_all n t o d rest v rest'

theorem rd_vec {n : Nat} {t : CTy} {o v : SVal} {l : List JVal} :
    Rd P F (n + 1) (.vec t) o (.arr l) v ↔ ∃ vs, AllRd (Rd P F n t .unset) l vs ∧ v = .vec (o.elems ++ vs) := by
  have hlen := go_length l
  simp only [Rd, fromJsonC, JVal.toks, vecFromJson, bind_eq_ok]
  constructor
  · rintro ⟨⟨w, ts⟩, h1, h2⟩
    rw [vecLoop_takes (takes_all n t) l _ _ _ _ _ (by simp; omega)] at h1
    obtain ⟨rfl, vs, h3, rfl⟩ := h1
    simp only [Except.ok.injEq, Prod.mk.injEq, and_true] at h2
    exact ⟨vs, h3, h2.symm⟩
  · rintro ⟨vs, h3, rfl⟩
    exact ⟨(o.elems ++ vs, []), (vecLoop_takes (takes_all n t) l _ _ _ _ _ (by simp; omega)).2 ⟨rfl, vs, h3, rfl⟩, rfl⟩

theorem rd_struct {n : Nat} {m : Bytes} {o v : SVal} {l : List (Bytes × JVal)} :
    Rd P F (n + 1) (.struct m) o (.obj l) v ↔
      Steps (structKeyS (fromJsonC P F n) (P.fields m).length (P.fields m) 0) l (.struct (o.fields (P.fields m).length)) v := by
  have hk : ∀ k r, structKeyS (fromJsonC P F n) (P.fields m).length (P.fields m) 0 k = some r → Takes r := by
    intro k r hr
    obtain ⟨j, u, -, -, rfl⟩ := structKeyS_some hr
    exact takes_member (takes_all n u)
  have hlen := goM_length l
  simp only [Rd, fromJsonC, JVal.toks, objFromJson]
  rw [objLoop_takes hk l _ _ _ _ _ (by simp; omega)]
  simp

theorem rd_variant {n : Nat} {us : List CTy} {o v : SVal} {l : List JVal} :
    Rd P F (n + 1) (.variant us) o (.arr l) v ↔ ∃ s d i t w, l = [.str s, d] ∧ findName s us 0 = some (i, t) ∧ Rd P F n t .unset d w ∧ v = .alt i w := by
  have h0 := variant_takes (us := us) (takes_all (P := P) (F := F) n) o l [] v []
  rw [List.append_nil] at h0
  unfold Rd
  rw [h0]; simp

theorem rd_opt {n : Nat} {t : CTy} {o v : SVal} {d : JVal} :
    Rd P F (n + 1) (.opt t) o d v ↔ (d = .null ∧ v = .absent) ∨ (d ≠ .null ∧ ∃ w, Rd P F n t .unset d w ∧ v = .present w) := by
  have hn : d ≠ .null → fromJsonC P F (n + 1) (.opt t) o d.toks = (do let (v, ts) ← fromJsonC P F n t .unset d.toks; .ok (.present v, ts)) := by
    intro hd
    cases d with
    | null => exact absurd rfl hd
    | _ => simp [fromJsonC, JVal.toks]
  unfold Rd
  by_cases hd : d = .null
  · subst hd; simp [fromJsonC, JVal.toks]; grind
  · rw [hn hd, bind_eq_ok]
    constructor
    · rintro ⟨⟨a, b⟩, h1, h2⟩
      simp only [Except.ok.injEq, Prod.mk.injEq] at h2
      obtain ⟨rfl, rfl⟩ := h2
      exact .inr ⟨hd, a, h1, rfl⟩
    · rintro (⟨h, -⟩ | ⟨-, a, h1, rfl⟩)
      · exact absurd h hd
      · exact ⟨(a, []), h1, rfl⟩

theorem rd_leaf {n : Nat} {k : Builtin} {o v : SVal} {d : JVal} :
    Rd P F (n + 1) (.leaf k) o d v ↔ (∃ x b, d = .bool x ∧ builtinToBin F k (.bool x) = .ok b ∧ v = .leaf b) ∨ (∃ x b, d = .str x ∧ builtinToBin F k (.str x) = .ok b ∧ v = .leaf b) := by
  unfold Rd
  cases d with
  | bool x => cases h : builtinToBin F k (.bool x) <;> simp [fromJsonC, leafFromJson, JVal.toks, h, bind, Except.bind]; grind
  | str x => cases h : builtinToBin F k (.str x) <;> simp [fromJsonC, leafFromJson, JVal.toks, h, bind, Except.bind]; grind
  | _ => simp [fromJsonC, leafFromJson, JVal.toks]

/-- documents of another kind are not read -/
theorem rd_kind {n : Nat} {t : CTy} {o v : SVal} {d : JVal} (h : Rd P F (n + 1) t o d v) :
    match t with
    | .vec _ | .variant _ => ∃ l, d = .arr l
    | .struct _ => ∃ l, d = .obj l
    | _ => True := by
  unfold Rd at h
  cases t with
  | vec t => cases d <;> simp [fromJsonC, vecFromJson, JVal.toks, bind, Except.bind] at h ⊢
  | variant t => cases d <;> simp [fromJsonC, JVal.toks] at h ⊢
  | struct t => cases d <;> simp [fromJsonC, objFromJson, JVal.toks] at h ⊢
  | _ => trivial

theorem allRd_mono {R R' : JVal → SVal → Prop} (h : ∀ d v, R d v → R' d v) {l : List JVal} {vs : List SVal} (ha : AllRd R l vs) : AllRd R' l vs := by
  induction ha with
  | nil => exact .nil
  | cons h1 _ ih => exact .cons (h _ _ h1) ih

theorem structKeyS_map {r r' : CTy → TokReader SVal} {N : Nat} (h : ∀ t o (d : JVal) v, r t o d.toks = .ok (v, []) → r' t o d.toks = .ok (v, [])) :
    ∀ {fs : List (Bytes × CTy)} {i : Nat} {k : Bytes} {q : TokReader SVal}, structKeyS r N fs i k = some q →
      ∃ q', structKeyS r' N fs i k = some q' ∧ ∀ o (d : JVal) v, q o d.toks = .ok (v, []) → q' o d.toks = .ok (v, [])
  | [], i, k, q, hq => by simp [structKeyS] at hq
  | (m, t) :: fs, i, k, q, hq => by
    rw [structKeyS] at hq ⊢
    split at hq
    · rename_i e
      injection hq with hq; subst hq
      refine ⟨_, if_pos e, fun o d v hv => ?_⟩
      simp only [member, bind_eq_ok] at hv ⊢
      obtain ⟨⟨a, b⟩, h1, h2⟩ := hv
      simp only [Except.ok.injEq, Prod.mk.injEq] at h2
      obtain ⟨rfl, rfl⟩ := h2
      exact ⟨(a, []), h _ _ _ _ h1, rfl⟩
    · rename_i e
      rw [if_neg e]
      exact structKeyS_map h hq

theorem steps_mono {n : Nat} {N : Nat} {fs : List (Bytes × CTy)} (h : ∀ t o v d, Rd P F n t o d v → Rd P F (n + 1) t o d v) {l : List (Bytes × JVal)} {o o' : SVal}
    (hs : Steps (structKeyS (fromJsonC P F n) N fs 0) l o o') : Steps (structKeyS (fromJsonC P F (n + 1)) N fs 0) l o o' := by
  induction hs with
  | nil => exact .nil
  | skip h1 _ ih => exact .skip (structKeyS_none.2 (structKeyS_none.1 h1)) ih
  | take h1 h2 _ ih =>
    obtain ⟨q', h3, h4⟩ := structKeyS_map (r' := fromJsonC P F (n + 1)) (fun t o d v => h t o v d) h1
    exact .take h3 (h4 _ _ _ h2) ih

theorem rd_mono : ∀ {n : Nat} {t : CTy} {o v : SVal} {d : JVal}, Rd P F n t o d v → Rd P F (n + 1) t o d v
  | 0, t, o, v, d, h => by simp [Rd, fromJsonC] at h
  | n + 1, t, o, v, d, h => by
    cases t with
    | leaf k => rw [rd_leaf] at h ⊢; exact h
    | vec t =>
      obtain ⟨l, rfl⟩ := rd_kind h
      rw [rd_vec] at h ⊢
      obtain ⟨vs, h1, h2⟩ := h
      exact ⟨vs, allRd_mono (fun _ _ => rd_mono) h1, h2⟩
    | variant us =>
      obtain ⟨l, rfl⟩ := rd_kind h
      rw [rd_variant] at h ⊢
      obtain ⟨s, d, i, t, w, h1, h2, h3, h4⟩ := h
      exact ⟨s, d, i, t, w, h1, h2, rd_mono h3, h4⟩
    | opt t =>
      rw [rd_opt] at h ⊢
      rcases h with h | ⟨h1, w, h2, h3⟩
      · exact .inl h
      · exact .inr ⟨h1, w, rd_mono h2, h3⟩
    | ext t => simp only [Rd, fromJsonC] at h ⊢; exact rd_mono h
    | struct m =>
      obtain ⟨l, rfl⟩ := rd_kind h
      rw [rd_struct] at h ⊢
      generalize SVal.struct (o.fields (P.fields m).length) = o' at h ⊢
      exact steps_mono (fun _ _ _ _ => rd_mono) h

theorem rd_mono_le {n m : Nat} (hm : n ≤ m) {t : CTy} {o v : SVal} {d : JVal} (h : Rd P F n t o d v) : Rd P F m t o d v := by
  induction hm with
  | refl => exact h
  | step _ ih => exact rd_mono ih

theorem findName_some {s : Bytes} : ∀ {ts : List CTy} {i j : Nat} {t : CTy}, findName s ts i = some (j, t) ↔
    ∃ p, j = i + p ∧ ts[p]? = some t ∧ t.name = s ∧ FirstAlt ts p s
  | [], i, j, t => by simp [findName]
  | u :: ts, i, j, t => by
    rw [findName]
    split
    · rename_i e
      constructor
      · intro h
        cases h
        exact ⟨0, rfl, rfl, e, by intro p' u' hp; omega⟩
      · rintro ⟨p, rfl, h1, h2, h3⟩
        cases p with
        | zero => simp at h1; simp [h1]
        | succ p => exact absurd e (h3 0 u (by omega) rfl)
    · rename_i e
      rw [findName_some]
      constructor
      · rintro ⟨p, rfl, h1, h2, h3⟩
        refine ⟨p + 1, by omega, by simpa using h1, h2, ?_⟩
        intro p' u' hp hu
        cases p' with
        | zero => simp at hu; subst hu; exact e
        | succ p' => exact h3 p' u' (by omega) (by simpa using hu)
      · rintro ⟨p, rfl, h1, h2, h3⟩
        cases p with
        | zero => simp at h1; subst h1; exact absurd h2 e
        | succ p =>
          refine ⟨p, by omega, by simpa using h1, h2, ?_⟩
          intro p' u' hp hu
          exact h3 (p' + 1) u' (by omega) (by simpa using hu)

theorem firstField_unique {fs : List (Bytes × CTy)} {i j : Nat} {k : Bytes} {t u : CTy} (hi : fs[i]? = some (k, t)) (hj : fs[j]? = some (k, u))
    (fi : FirstField fs i k) (fj : FirstField fs j k) : i = j := by
  rcases Nat.lt_trichotomy i j with h | h | h
  · exact absurd hi (fun h' => fj i t h h')
  · exact h
  · exact absurd hj (fun h' => fi j u h h')

theorem firstField_exists {fs : List (Bytes × CTy)} {k : Bytes} (h : k ∈ fs.map Prod.fst) : ∃ j t, fs[j]? = some (k, t) ∧ FirstField fs j k := by
  induction fs with
  | nil => simp at h
  | cons p fs ih =>
    obtain ⟨m, t⟩ := p
    by_cases e : m = k
    · subst e; exact ⟨0, t, rfl, by intro j u hj; omega⟩
    · obtain ⟨j, u, h1, h2⟩ := ih (by simp at h; simp; rcases h with h | h; exact absurd h.symm e; exact h)
      refine ⟨j + 1, u, by simpa using h1, ?_⟩
      intro j' u' hj hu
      cases j' with
      | zero => simp at hu; exact e hu.1
      | succ j' => exact h2 j' u' (by omega) (by simpa using hu)

theorem structKeyS_of_first {r : CTy → TokReader SVal} {N : Nat} {fs : List (Bytes × CTy)} {k : Bytes} {j : Nat} {t : CTy} (h : fs[j]? = some (k, t)) (hf : FirstField fs j k) :
    structKeyS r N fs 0 k = some (member (fun o => (o.fields N).getD j .unset) (fun o x => .struct ((o.fields N).set j x)) (r t)) := by
  cases hq : structKeyS r N fs 0 k with
  | none =>
    rw [structKeyS_none] at hq
    exact absurd (List.mem_map.2 ⟨(k, t), List.mem_of_getElem? h, rfl⟩) hq
  | some q =>
    obtain ⟨j', u, h1, h2, rfl⟩ := structKeyS_some hq
    obtain rfl := firstField_unique h h1 hf h2
    rw [h] at h1; cases h1
    simp

/-- what the members make of a struct, when no name occurs twice -/
theorem steps_iff {n : Nat} {fs : List (Bytes × CTy)} : ∀ (l : List (Bytes × JVal)) (us : List SVal) (o' : SVal), us.length = fs.length → (l.map Prod.fst).Nodup →
    (∀ k d j t, (k, d) ∈ l → fs[j]? = some (k, t) → FirstField fs j k → us[j]? = some .unset) →
    (Steps (structKeyS (fromJsonC P F n) fs.length fs 0) l (.struct us) o' ↔
      ∃ vs, o' = .struct vs ∧ vs.length = fs.length ∧
        (∀ i m t v d, fs[i]? = some (m, t) → vs[i]? = some v → FirstField fs i m → (m, d) ∈ l → Rd P F n t .unset d v) ∧
        (∀ i m t, fs[i]? = some (m, t) → ¬ FirstField fs i m ∨ m ∉ l.map Prod.fst → vs[i]? = us[i]?))
  | [], us, o', hl, _, _ => by
    constructor
    · intro h; cases h
      exact ⟨us, rfl, hl, by simp, fun _ _ _ _ _ => rfl⟩
    · rintro ⟨vs, rfl, h1, -, h3⟩
      have : vs = us := by
        apply List.ext_getElem?
        intro i
        by_cases hi : i < fs.length
        · exact h3 i fs[i].1 fs[i].2 (by simp [hi]) (by simp)
        · rw [List.getElem?_eq_none (by omega), List.getElem?_eq_none (by omega)]
      subst this; exact .nil
  | (k, d) :: l, us, o', hl, hnd, hu => by
    simp only [List.map_cons, List.nodup_cons] at hnd
    obtain ⟨hk, hnd⟩ := hnd
    by_cases hm : k ∈ fs.map Prod.fst
    · obtain ⟨j, t, hj, hf⟩ := firstField_exists hm
      have hu0 : us[j]? = some .unset := hu k d j t (by simp) hj hf
      have hq := structKeyS_of_first (r := fromJsonC P F n) (N := fs.length) hj hf
      have hlt : j < us.length := by
        rcases Nat.lt_or_ge j us.length with h | h
        · exact h
        · rw [List.getElem?_eq_none h] at hu0; cases hu0
      have ih := fun x => steps_iff (n := n) (fs := fs) l (us.set j x) o' (by simpa using hl) hnd (by
        intro k' d' j' t' hk' hj' hf'
        have hne : j ≠ j' := by
          rintro rfl
          rw [hj] at hj'; cases hj'
          exact hk (List.mem_map.2 ⟨(k, d'), hk', rfl⟩)
        rw [List.getElem?_set_ne hne]
        exact hu k' d' j' t' (by simp [hk']) hj' hf')
      have hstep : ∀ o1 : SVal, member (fun o : SVal => (o.fields fs.length).getD j .unset) (fun (o : SVal) (x : SVal) => SVal.struct ((o.fields fs.length).set j x)) (fromJsonC P F n t) (.struct us) d.toks = .ok (o1, []) ↔
          ∃ x, Rd P F n t .unset d x ∧ o1 = .struct (us.set j x) := by
        intro o1
        simp only [member, bind_eq_ok, SVal.fields, List.getD_eq_getElem?_getD, hu0, Option.getD_some]
        constructor
        · rintro ⟨⟨a, b⟩, h1, h2⟩
          simp only [Except.ok.injEq, Prod.mk.injEq] at h2
          obtain ⟨rfl, rfl⟩ := h2
          exact ⟨a, h1, rfl⟩
        · rintro ⟨x, h1, rfl⟩; exact ⟨(x, []), h1, rfl⟩
      constructor
      · intro h
        cases h with
        | skip h1 => rw [hq] at h1; cases h1
        | @take _ _ _ _ o1 _ r h1 h2 h3 =>
          rw [hq] at h1; cases h1
          obtain ⟨x, hx, rfl⟩ := (hstep o1).1 h2
          obtain ⟨vs, rfl, h4, h5, h6⟩ := (ih x).1 h3
          have hvj : vs[j]? = some x := by rw [h6 j k t hj (.inr hk), List.getElem?_set_self hlt]
          refine ⟨vs, rfl, h4, ?_, ?_⟩
          · intro i m u v e hi hv hfi hmem
            rcases List.mem_cons.1 hmem with he | hmem
            · cases he
              obtain rfl := firstField_unique hi hj hfi hf
              rw [hi] at hj; cases hj
              rw [hvj] at hv; cases hv
              exact hx
            · exact h5 i m u v e hi hv hfi hmem
          · intro i m u hi hm'
            have hne : j ≠ i := by
              rintro rfl
              rw [hj] at hi; cases hi
              rcases hm' with h | h
              · exact h hf
              · simp at h
            rw [h6 i m u hi (by rcases hm' with h | h; exact .inl h; exact .inr (by simp at h ⊢; exact h.2)), List.getElem?_set_ne hne]
      · rintro ⟨vs, rfl, h4, h5, h6⟩
        have hjv : j < vs.length := by rw [h4, ← hl]; exact hlt
        have hx := h5 j k t vs[j] d hj (by simp [hjv]) hf (by simp)
        refine .take hq ((hstep _).2 ⟨_, hx, rfl⟩) ((ih _).2 ⟨vs, rfl, h4, fun i m u v e hi hv hfi hmem => h5 i m u v e hi hv hfi (by simp [hmem]), ?_⟩)
        intro i m u hi hm'
        by_cases hne : j = i
        · subst hne
          rw [List.getElem?_set_self hlt]
          simp [hjv]
        · rw [List.getElem?_set_ne hne]
          apply h6 i m u hi
          rcases hm' with h | h
          · exact .inl h
          · by_cases e : m = k
            · subst e
              left; intro hfi
              exact hne (firstField_unique hj hi hf hfi)
            · right; simp at h ⊢; exact ⟨e, h⟩
    · have hq : structKeyS (fromJsonC P F n) fs.length fs 0 k = none := structKeyS_none.2 hm
      have ih := steps_iff (n := n) (fs := fs) l us o' hl hnd (fun k' d' j' t' hk' => hu k' d' j' t' (by simp [hk']))
      have hne : ∀ {i : Nat} {m : Bytes} {t : CTy}, fs[i]? = some (m, t) → m ≠ k := by
        rintro i m t hi rfl
        exact hm (List.mem_map.2 ⟨(m, t), List.mem_of_getElem? hi, rfl⟩)
      constructor
      · intro h
        cases h with
        | take h1 => rw [hq] at h1; cases h1
        | skip _ h1 =>
          obtain ⟨vs, rfl, h4, h5, h6⟩ := ih.1 h1
          refine ⟨vs, rfl, h4, ?_, ?_⟩
          · intro i m u v e hi hv hfi hmem
            rcases List.mem_cons.1 hmem with he | hmem
            · cases he; exact absurd rfl (hne hi)
            · exact h5 i m u v e hi hv hfi hmem
          · intro i m u hi hm'
            exact h6 i m u hi (by rcases hm' with h | h; exact .inl h; exact .inr (by simp at h ⊢; exact h.2))
      · rintro ⟨vs, rfl, h4, h5, h6⟩
        refine .skip hq (ih.2 ⟨vs, rfl, h4, fun i m u v e hi hv hfi hmem => h5 i m u v e hi hv hfi (by simp [hmem]), ?_⟩)
        intro i m u hi hm'
        exact h6 i m u hi (by rcases hm' with h | h; exact .inl h; exact .inr (by simp at h ⊢; exact ⟨hne hi, h⟩))

theorem nodup_member {l : List (Bytes × JVal)} (h : (l.map Prod.fst).Nodup) {k : Bytes} {d d' : JVal} (h1 : (k, d) ∈ l) (h2 : (k, d') ∈ l) : d = d' := by
  induction l with
  | nil => simp at h1
  | cons x l ih =>
    simp only [List.map_cons, List.nodup_cons] at h
    rcases List.mem_cons.1 h1 with e1 | h1 <;> rcases List.mem_cons.1 h2 with e2 | h2
    · rw [← e1] at e2; cases e2; rfl
    · rw [← e1] at h; exact absurd (List.mem_map.2 ⟨_, h2, rfl⟩) h.1
    · rw [← e2] at h; exact absurd (List.mem_map.2 ⟨_, h1, rfl⟩) h.1
    · exact ih h.2 h1 h2

theorem uniqueKeys_elem {l : List JVal} (h : UniqueKeys.go l) : ∀ d ∈ l, UniqueKeys d := by
  induction l with
  | nil => simp
  | cons x l ih =>
    intro d hd
    rcases List.mem_cons.1 hd with rfl | hd
    · exact h.1
    · exact ih h.2 d hd

theorem uniqueKeys_member {l : List (Bytes × JVal)} (h : UniqueKeys.goM l) : ∀ k d, (k, d) ∈ l → UniqueKeys d := by
  induction l with
  | nil => simp
  | cons x l ih =>
    intro k d hd
    rcases List.mem_cons.1 hd with rfl | hd
    · exact h.1
    · exact ih h.2 k d hd

theorem given_of_rd : ∀ {n : Nat} {t : CTy} {v : SVal} {d : JVal}, UniqueKeys d → Rd P F n t .unset d v → Given P F t d v
  | 0, t, v, d, _, h => by simp [Rd, fromJsonC] at h
  | n + 1, t, v, d, hd, h => by
    cases t with
    | leaf k =>
      rw [rd_leaf] at h
      rcases h with ⟨x, b, rfl, h, rfl⟩ | ⟨x, b, rfl, h, rfl⟩
      · exact .bool h
      · exact .str h
    | vec t =>
      obtain ⟨l, rfl⟩ := rd_kind h
      rw [rd_vec] at h
      obtain ⟨vs, h1, rfl⟩ := h
      simp only [SVal.elems, List.nil_append]
      refine .vec ?_
      have hd' : ∀ d ∈ l, UniqueKeys d := uniqueKeys_elem (by simpa only [UniqueKeys] using hd)
      clear hd
      induction h1 with
      | nil => exact .nil
      | cons h1 _ ih => exact .cons (given_of_rd (hd' _ (by simp)) h1) (ih (fun d hd => hd' d (by simp [hd])))
    | variant us =>
      obtain ⟨l, rfl⟩ := rd_kind h
      rw [rd_variant] at h
      obtain ⟨s, d, i, t, w, rfl, h2, h3, rfl⟩ := h
      obtain ⟨p, rfl, h4, rfl, h5⟩ := findName_some.1 h2
      rw [Nat.zero_add]
      exact .alt h4 h5 (given_of_rd (uniqueKeys_elem (by simpa only [UniqueKeys] using hd) d (by simp)) h3)
    | opt t =>
      rw [rd_opt] at h
      rcases h with ⟨rfl, rfl⟩ | ⟨h1, w, h2, rfl⟩
      · exact .absent
      · exact .present h1 (given_of_rd hd h2)
    | ext t => exact .ext (given_of_rd hd (by simpa only [Rd, fromJsonC] using h))
    | struct m =>
      obtain ⟨l, rfl⟩ := rd_kind h
      rw [rd_struct, SVal.fields] at h
      · simp only [UniqueKeys] at hd
        rw [steps_iff l _ _ (by simp) hd.1 (by
          intro k e j t hk hj hf
          have : j < (P.fields m).length := by
            rcases Nat.lt_or_ge j (P.fields m).length with h | h
            · exact h
            · rw [List.getElem?_eq_none h] at hj; cases hj
          simp [this])] at h
        obtain ⟨vs, rfl, h1, h2, h3⟩ := h
        refine .struct h1 (fun i m' t v e hi hv hf hm => given_of_rd (uniqueKeys_member hd.2 _ _ hm) (h2 i m' t v e hi hv hf hm)) ?_
        intro i m' t v hi hv hc
        have := h3 i m' t hi hc
        rw [hv] at this
        have hlt : i < (P.fields m).length := by
          rcases Nat.lt_or_ge i (P.fields m).length with h | h
          · exact h
          · rw [List.getElem?_eq_none h] at hi; cases hi
        simpa [hlt] using this
      · simp

/-- finitely many facts, each true from some number on -/
theorem exists_bound {p : Nat → Nat → Prop} (hm : ∀ i n m, n ≤ m → p i n → p i m) : ∀ N, (∀ i, i < N → ∃ n, p i n) → ∃ n, ∀ i, i < N → p i n
  | 0, _ => ⟨0, by omega⟩
  | N + 1, h => by
    obtain ⟨n, hn⟩ := exists_bound hm N (fun i hi => h i (by omega))
    obtain ⟨m, hm'⟩ := h N (by omega)
    refine ⟨max n m, fun i hi => ?_⟩
    rcases Nat.lt_succ_iff_lt_or_eq.1 hi with h | rfl
    · exact hm _ _ _ (by omega) (hn i h)
    · exact hm _ _ _ (by omega) hm'

mutual
theorem rd_of_given : ∀ {t : CTy} {d : JVal} {v : SVal}, UniqueKeys d → Given P F t d v → ∃ n, Rd P F n t .unset d v
  | _, _, _, _, .bool h => ⟨1, rd_leaf.2 (.inl ⟨_, _, rfl, h, rfl⟩)⟩
  | _, _, _, _, .str h => ⟨1, rd_leaf.2 (.inr ⟨_, _, rfl, h, rfl⟩)⟩
  | _, _, _, hd, .vec h => by
    obtain ⟨n, hn⟩ := rd_of_givenAll (uniqueKeys_elem (by simpa only [UniqueKeys] using hd)) h
    exact ⟨n + 1, rd_vec.2 ⟨_, hn, rfl⟩⟩
  | _, _, _, _, .absent => ⟨1, rd_opt.2 (.inl ⟨rfl, rfl⟩)⟩
  | _, _, _, hd, .present h1 h2 => by
    obtain ⟨n, hn⟩ := rd_of_given hd h2
    exact ⟨n + 1, rd_opt.2 (.inr ⟨h1, _, hn, rfl⟩)⟩
  | _, _, _, hd, .alt h1 h2 h3 => by
    obtain ⟨n, hn⟩ := rd_of_given (uniqueKeys_elem (by simpa only [UniqueKeys] using hd) _ (by simp)) h3
    exact ⟨n + 1, rd_variant.2 ⟨_, _, _, _, _, rfl, findName_some.2 ⟨_, by simp, h1, rfl, h2⟩, hn, rfl⟩⟩
  | _, _, _, hd, .ext h => by
    obtain ⟨n, hn⟩ := rd_of_given hd h
    exact ⟨n + 1, by simp only [Rd, fromJsonC]; exact hn⟩
  | .struct m, .obj l, .struct vs, hd, .struct h1 h2 h3 => by
    simp only [UniqueKeys] at hd
    have hb : ∃ n, ∀ i, i < vs.length → ∀ m' t v d, (P.fields m)[i]? = some (m', t) → vs[i]? = some v → FirstField (P.fields m) i m' → (m', d) ∈ l → Rd P F n t .unset d v := by
      apply exists_bound
      · intro i n n' hn hp m' t v d e1 e2 e3 e4
        exact rd_mono_le hn (hp m' t v d e1 e2 e3 e4)
      · intro i hi
        by_cases hc : ∃ m' t v d, (P.fields m)[i]? = some (m', t) ∧ vs[i]? = some v ∧ FirstField (P.fields m) i m' ∧ (m', d) ∈ l
        · obtain ⟨m', t, v, d, e1, e2, e3, e4⟩ := hc
          obtain ⟨n, hn⟩ := rd_of_given (uniqueKeys_member hd.2 _ _ e4) (h2 i m' t v d e1 e2 e3 e4)
          refine ⟨n, fun m'' t'' v'' d'' f1 f2 f3 f4 => ?_⟩
          rw [e1] at f1; cases f1
          rw [e2] at f2; cases f2
          have : d'' = d := nodup_member hd.1 f4 e4
          subst this; exact hn
        · exact ⟨0, fun m' t v d e1 e2 e3 e4 => absurd ⟨m', t, v, d, e1, e2, e3, e4⟩ hc⟩
    obtain ⟨n, hn⟩ := hb
    refine ⟨n + 1, rd_struct.2 ?_⟩
    rw [show SVal.fields (P.fields m).length SVal.unset = List.replicate (P.fields m).length .unset from rfl, steps_iff l _ _ (by simp) hd.1 (by
          intro k e j t hk hj hf
          have : j < (P.fields m).length := by
            rcases Nat.lt_or_ge j (P.fields m).length with h | h
            · exact h
            · rw [List.getElem?_eq_none h] at hj; cases hj
          simp [this])]
    refine ⟨vs, rfl, h1, fun i m' t v d e1 e2 e3 e4 => ?_, fun i m' t e1 e2 => ?_⟩
    · refine hn i ?_ m' t v d e1 e2 e3 e4
      rcases Nat.lt_or_ge i vs.length with h | h
      · exact h
      · rw [List.getElem?_eq_none h] at e2; cases e2
    · have hlt : i < (P.fields m).length := by
        rcases Nat.lt_or_ge i (P.fields m).length with h | h
        · exact h
        · rw [List.getElem?_eq_none h] at e1; cases e1
      have := h3 i m' t vs[i] e1 (by simp [h1, hlt]) e2
      rw [List.getElem?_eq_getElem (by omega), this]
      simp [hlt]

theorem rd_of_givenAll : ∀ {t : CTy} {l : List JVal} {vs : List SVal}, (∀ d ∈ l, UniqueKeys d) → GivenAll P F t l vs → ∃ n, AllRd (Rd P F n t .unset) l vs
  | _, _, _, _, .nil => ⟨0, .nil⟩
  | _, _, _, hd, .cons h1 h2 => by
    obtain ⟨n, hn⟩ := rd_of_given (hd _ (by simp)) h1
    obtain ⟨m, hm⟩ := rd_of_givenAll (fun d h => hd d (by simp [h])) h2
    exact ⟨max n m, .cons (rd_mono_le (by omega) hn) (allRd_mono (fun _ _ => rd_mono_le (by omega)) hm)⟩
end

end

end Abieos
