import Verif.Model.AbiDefJson
import Verif.Spec.AbiJson
import Verif.Props.JsonInt
/-!
**C50.** The JSON form of ABI definitions.
-/
namespace Abieos
open Spec

/-- what a token reader does with a document -/
def sem {α : Type} (r : TokReader α) (a : α) (v : JVal) : Res α := (r a v.toks).map Prod.fst

/-- The reader takes the tokens of one document, whatever follows. -/
def Does {α : Type} (r : TokReader α) (g : α → JVal → Res α) : Prop := ∀ v a rest, r a (v.toks ++ rest) = (g a v).map (·, rest)

theorem Does.sem {α : Type} {r : TokReader α} {g : α → JVal → Res α} (h : Does r g) : sem r = g := by
  funext a v
  have := h v a []
  rw [List.append_nil] at this
  rw [Abieos.sem, this]
  cases g a v <;> rfl

def strSem : Bytes → JVal → Res Bytes
  | _, .str s => .ok s
  | _, _ => .error .expected_string

theorem does_str : Does strFromJson strSem := by
  intro v a rest
  cases v <;> rfl

def nameSem : Nat → JVal → Res Nat
  | _, .str s => .ok (hashName s)
  | _, _ => .error .expected_string

theorem does_name : Does nameFromJson nameSem := by
  intro v a rest
  cases v <;> rfl

def uint64Sem : Nat → JVal → Res Nat
  | _, .str s => (fromJsonInt ⟨false, 64⟩ s).map Int.toNat
  | _, _ => .error .expected_string

theorem does_uint64 : Does uint64FromJson uint64Sem := by
  intro v a rest
  cases v with
  | str s =>
    show (fromJsonInt ⟨false, 64⟩ s >>= fun v => _) = _
    rw [uint64Sem]
    cases fromJsonInt ⟨false, 64⟩ s <;> rfl
  | _ => rfl

/-- the elements one after the other -/
def elemsSem {α : Type} (d : α) (g : α → JVal → Res α) : List JVal → List α → Res (List α)
  | [], acc => .ok acc
  | v :: l, acc => do
    let a ← g d v
    elemsSem d g l (acc ++ [a])

def vecSem {α : Type} (d : α) (g : α → JVal → Res α) : List α → JVal → Res (List α)
  | acc, .arr l => elemsSem d g l acc
  | _, _ => .error .expected_start_array

theorem toks_head (v : JVal) : ∃ t ts, v.toks = t :: ts ∧ t ≠ .endArr ∧ t ≠ .endObj := by
  cases v <;> simp [JVal.toks]

theorem toks_pos (v : JVal) : 0 < v.toks.length := by
  obtain ⟨t, ts, h, -⟩ := toks_head v
  simp [h]

theorem go_length (l : List JVal) : l.length ≤ (JVal.toks.go l).length := by
  induction l with
  | nil => simp
  | cons v l ih => have := toks_pos v; simp [JVal.toks.go]; omega

theorem vecLoop_does {α : Type} {d : α} {r : TokReader α} {g : α → JVal → Res α} (h : Does r g) : ∀ (l : List JVal) (n : Nat) (acc : List α) (rest : List Tok),
    l.length < n → vecLoop d r n acc (JVal.toks.go l ++ (.endArr :: rest)) = (elemsSem d g l acc).map (·, rest)
  | [], n + 1, acc, rest, _ => rfl
  | v :: l, n + 1, acc, rest, hn => by
    obtain ⟨t, ts, e, h1, -⟩ := toks_head v
    have : vecLoop d r (n + 1) acc (JVal.toks.go (v :: l) ++ (.endArr :: rest)) =
        r d (v.toks ++ (JVal.toks.go l ++ (.endArr :: rest))) >>= fun p => vecLoop d r n (acc ++ [p.1]) p.2 := by
      rw [JVal.toks.go, List.append_assoc, e, List.cons_append]
      rw [vecLoop]
      exact h1
    rw [this, h, elemsSem]
    cases g d v with
    | error e => rfl
    | ok a => exact vecLoop_does h l n _ rest (by simpa using hn)
  | _, 0, _, _, hn => by omega

theorem does_vec {α : Type} {d : α} {r : TokReader α} {g : α → JVal → Res α} (h : Does r g) : Does (vecFromJson d r) (vecSem d g) := by
  intro v acc rest
  cases v with
  | arr l =>
    show vecLoop d r _ acc (JVal.toks.go l ++ [.endArr] ++ rest) = _
    rw [List.append_assoc]
    exact vecLoop_does h l _ acc rest (by have := go_length l; simp; omega)
  | _ => rfl

mutual
theorem skip_in : ∀ (v : JVal) (d : Nat) (rest : List Tok), skipLoop (d + 1) (v.toks ++ rest) = skipLoop (d + 1) rest
  | .null, d, rest => by simp [JVal.toks, skipLoop]
  | .bool b, d, rest => by simp [JVal.toks, skipLoop]
  | .str s, d, rest => by simp [JVal.toks, skipLoop]
  | .arr l, d, rest => by
    rw [JVal.toks, List.cons_append, skipLoop, List.append_assoc, skip_go l]
    simp [skipLoop]
  | .obj l, d, rest => by
    rw [JVal.toks, List.cons_append, skipLoop, List.append_assoc, skip_goM l]
    simp [skipLoop]
theorem skip_go : ∀ (l : List JVal) (d : Nat) (rest : List Tok), skipLoop (d + 1) (JVal.toks.go l ++ rest) = skipLoop (d + 1) rest
  | [], d, rest => rfl
  | v :: l, d, rest => by rw [JVal.toks.go, List.append_assoc, skip_in v, skip_go l]
theorem skip_goM : ∀ (l : List (Bytes × JVal)) (d : Nat) (rest : List Tok), skipLoop (d + 1) (JVal.toks.goM l ++ rest) = skipLoop (d + 1) rest
  | [], d, rest => rfl
  | (k, v) :: l, d, rest => by
    rw [JVal.toks.goM, List.cons_append, List.append_assoc]
    rw [skipLoop, if_neg (by omega), skip_in v, skip_goM l] <;> simp
end

theorem skip_value (v : JVal) (rest : List Tok) : skipLoop 0 (v.toks ++ rest) = .ok rest := by
  cases v with
  | arr l =>
    rw [JVal.toks, List.cons_append, skipLoop, List.append_assoc, skip_go l]
    simp [skipLoop]
  | obj l =>
    rw [JVal.toks, List.cons_append, skipLoop, List.append_assoc, skip_goM l]
    simp [skipLoop]
  | _ => simp [JVal.toks, skipLoop]

/-- the members one after the other -/
def membersSem {α : Type} (f : Bytes → Option (TokReader α)) : List (Bytes × JVal) → α → Res α
  | [], a => .ok a
  | (k, v) :: l, a =>
    match f k with
    | some r => do
      let a ← sem r a v
      membersSem f l a
    | none => membersSem f l a

def objSem {α : Type} (f : Bytes → Option (TokReader α)) : α → JVal → Res α
  | a, .obj l => membersSem f l a
  | _, _ => .error .expected_start_object

theorem goM_length (l : List (Bytes × JVal)) : l.length ≤ (JVal.toks.goM l).length := by
  induction l with
  | nil => simp
  | cons p l ih => obtain ⟨k, v⟩ := p; simp [JVal.toks.goM]; omega

theorem objLoop_does {α : Type} {f : Bytes → Option (TokReader α)} (h : ∀ k r, f k = some r → Does r (sem r)) :
    ∀ (l : List (Bytes × JVal)) (n : Nat) (a : α) (rest : List Tok), l.length < n →
      objLoop f n a (JVal.toks.goM l ++ (.endObj :: rest)) = (membersSem f l a).map (·, rest)
  | [], n + 1, a, rest, _ => rfl
  | (k, v) :: l, n + 1, a, rest, hn => by
    rw [JVal.toks.goM, List.cons_append, List.append_assoc, objLoop, membersSem]
    cases hk : f k with
    | none =>
      simp only [skip_value, bind_ok]
      exact objLoop_does h l n a rest (by simpa using hn)
    | some r =>
      simp only
      rw [h k r hk]
      cases sem r a v with
      | error e => rfl
      | ok a' => exact objLoop_does h l n a' rest (by simpa using hn)
  | _, 0, _, _, hn => by omega

theorem does_obj {α : Type} {f : Bytes → Option (TokReader α)} (h : ∀ k r, f k = some r → Does r (sem r)) : Does (objFromJson f) (objSem f) := by
  intro v a rest
  cases v with
  | obj l =>
    show objLoop f _ a (JVal.toks.goM l ++ [.endObj] ++ rest) = _
    rw [List.append_assoc]
    exact objLoop_does h l _ a rest (by have := goM_length l; simp; omega)
  | _ => rfl

theorem does_member {α β : Type} {get : α → β} {set : α → β → α} {r : TokReader β} {g : β → JVal → Res β} (h : Does r g) :
    Does (member get set r) fun a v => (g (get a) v).map (set a) := by
  intro v a rest
  rw [member, h]
  beta_reduce
  cases g (get a) v <;> rfl

theorem does_pair : Does pairFromJson fun _ _ => .error .from_json_no_pair := fun _ _ _ => rfl

theorem does_sem {α : Type} {r : TokReader α} {g : α → JVal → Res α} (h : Does r g) : Does r (sem r) := by rw [h.sem]; exact h

/-- closes `f k = some r → Does r (sem r)` for a chain of conditions -/
macro "does_keys" lems:term,* : tactic => `(tactic| (
  intro k r hk
  simp only [typeKey, fieldKey, structKey, actionKey, tableKey, clauseKey, errorKey, variantKey, abiKey] at hk
  repeat' split at hk
  all_goals first
    | (injection hk with hk; subst hk; first $[| exact does_sem (does_member $lems)]*)
    | cases hk))

theorem does_type : Does (objFromJson typeKey) (objSem typeKey) := does_obj (by does_keys does_str)
theorem does_field : Does (objFromJson fieldKey) (objSem fieldKey) := does_obj (by does_keys does_str)
theorem does_struct : Does (objFromJson structKey) (objSem structKey) := does_obj (by does_keys does_str, does_vec does_field)
theorem does_action : Does (objFromJson actionKey) (objSem actionKey) := does_obj (by does_keys does_str, does_name)
theorem does_table : Does (objFromJson tableKey) (objSem tableKey) := does_obj (by does_keys does_str, does_name, does_vec does_str)
theorem does_clause : Does (objFromJson clauseKey) (objSem clauseKey) := does_obj (by does_keys does_str)
theorem does_error : Does (objFromJson errorKey) (objSem errorKey) := does_obj (by does_keys does_str, does_uint64)
theorem does_variant : Does (objFromJson variantKey) (objSem variantKey) := does_obj (by does_keys does_str, does_vec does_str)
theorem does_abi : Does (objFromJson abiKey) (objSem abiKey) := does_obj (by
  does_keys does_str, does_vec does_type, does_vec does_struct, does_vec does_action, does_vec does_table, does_vec does_clause,
    does_vec does_error, does_vec does_pair, does_vec does_variant)

/-! ## The declarative form -/

/-- the values of one key one after the other -/
def foldVals {β : Type} (g : β → JVal → Res β) : List JVal → β → Res β
  | [], b => .ok b
  | v :: l, b => do
    let b ← g b v
    foldVals g l b

theorem foldVals_last {β : Type} {g : β → JVal → Res β} {R : JVal → β → Prop} (h : ∀ b v x, g b v = .ok x ↔ R v x) :
    ∀ (vs : List JVal) (b x : β), foldVals g vs b = .ok x ↔ Last R b vs x
  | [], b, x => by
    simp only [foldVals, Last, Except.ok.injEq]
    constructor
    · rintro rfl; exact ⟨[], trivial, rfl⟩
    · rintro ⟨ys, h1, rfl⟩; cases ys with
      | nil => rfl
      | cons _ _ => exact h1.elim
  | v :: vs, b, x => by
    simp only [foldVals, bind_eq_ok, h, foldVals_last h vs]
    constructor
    · rintro ⟨y, h1, ys, h2, rfl⟩
      refine ⟨y :: ys, ⟨h1, h2⟩, ?_⟩
      cases ys <;> simp [List.getLast?_cons]
    · rintro ⟨ys, h1, rfl⟩
      cases ys with
      | nil => exact h1.elim
      | cons y ys =>
        refine ⟨y, h1.1, ys, h1.2, ?_⟩
        cases ys <;> simp [List.getLast?_cons]

theorem elemsSem_iff {α : Type} {d : α} {g : α → JVal → Res α} {R : JVal → α → Prop} (h : ∀ v x, g d v = .ok x ↔ R v x) :
    ∀ (l : List JVal) (acc x : List α), elemsSem d g l acc = .ok x ↔ ∃ ys, Each R l ys ∧ x = acc ++ ys
  | [], acc, x => by
    simp only [elemsSem, Except.ok.injEq]
    constructor
    · rintro rfl; exact ⟨[], trivial, by simp⟩
    · rintro ⟨ys, h1, rfl⟩; cases ys with
      | nil => simp
      | cons _ _ => exact h1.elim
  | v :: l, acc, x => by
    simp only [elemsSem, bind_eq_ok, h, elemsSem_iff h l]
    constructor
    · rintro ⟨y, h1, ys, h2, rfl⟩; exact ⟨y :: ys, ⟨h1, h2⟩, by simp⟩
    · rintro ⟨ys, h1, rfl⟩
      cases ys with
      | nil => exact h1.elim
      | cons y ys => exact ⟨y, h1.1, ys, h1.2, by simp⟩

theorem each_append {α β : Type} {R : α → β → Prop} : ∀ {l m : List α} {x : List β}, Each R (l ++ m) x ↔ ∃ y z, Each R l y ∧ Each R m z ∧ x = y ++ z
  | [], m, x => by
    constructor
    · intro h; exact ⟨[], x, trivial, h, rfl⟩
    · rintro ⟨y, z, h1, h2, rfl⟩
      cases y with
      | nil => exact h2
      | cons _ _ => exact h1.elim
  | a :: l, m, x => by
    constructor
    · intro h
      cases x with
      | nil => exact h.elim
      | cons b x =>
        obtain ⟨y, z, h1, h2, rfl⟩ := each_append.1 h.2
        exact ⟨b :: y, z, ⟨h.1, h1⟩, h2, rfl⟩
    · rintro ⟨y, z, h1, h2, rfl⟩
      cases y with
      | nil => exact h1.elim
      | cons b y => exact ⟨h1.1, each_append.2 ⟨y, z, h1.2, h2, rfl⟩⟩

theorem foldVals_joined' {α : Type} {d : α} {g : α → JVal → Res α} {R : JVal → α → Prop} (h : ∀ v x, g d v = .ok x ↔ R v x) :
    ∀ (vs : List JVal) (acc x : List α), foldVals (vecSem d g) vs acc = .ok x ↔ ∃ ys, Joined R vs ys ∧ x = acc ++ ys
  | [], acc, x => by
    simp only [foldVals, Except.ok.injEq]
    constructor
    · rintro rfl; exact ⟨[], ⟨[], rfl, trivial⟩, by simp⟩
    · rintro ⟨ys, ⟨ls, h1, h2⟩, rfl⟩
      cases ls with
      | nil =>
        cases ys with
        | nil => simp
        | cons _ _ => exact h2.elim
      | cons _ _ => simp at h1
  | v :: vs, acc, x => by
    simp only [foldVals, bind_eq_ok, foldVals_joined' h vs]
    constructor
    · rintro ⟨a, h1, ys, ⟨ls, rfl, h2⟩, rfl⟩
      cases v with
      | arr l =>
        obtain ⟨zs, h3, rfl⟩ := (elemsSem_iff h l acc a).1 h1
        exact ⟨zs ++ ys, ⟨l :: ls, rfl, each_append.2 ⟨zs, ys, h3, h2, rfl⟩⟩, by simp⟩
      | _ => simp [vecSem] at h1
    · rintro ⟨ys, ⟨ls, h1, h2⟩, rfl⟩
      cases ls with
      | nil => simp at h1
      | cons l ls =>
        simp only [List.map_cons, List.cons.injEq] at h1
        obtain ⟨rfl, rfl⟩ := h1
        obtain ⟨y, z, h3, h4, rfl⟩ := each_append.1 h2
        exact ⟨acc ++ y, (elemsSem_iff h l acc _).2 ⟨y, h3, rfl⟩, z, ⟨ls, rfl, h4⟩, by simp⟩

theorem foldVals_joined {α : Type} {d : α} {g : α → JVal → Res α} {R : JVal → α → Prop} (h : ∀ v x, g d v = .ok x ↔ R v x)
    (vs : List JVal) (x : List α) : foldVals (vecSem d g) vs [] = .ok x ↔ Joined R vs x := by
  rw [foldVals_joined' h]; simp

theorem str_text (b : Bytes) (v : JVal) (x : Bytes) : strSem b v = .ok x ↔ IsText v x := by
  cases v <;> simp [strSem, IsText]

theorem name_name (b : Nat) (v : JVal) (x : Nat) : nameSem b v = .ok x ↔ IsName v x := by
  cases v <;> simp [nameSem, IsName, eq_comm]

theorem uint64_number (b : Nat) (v : JVal) (x : Nat) : uint64Sem b v = .ok x ↔ IsNumber v x := by
  cases v with
  | str s =>
    have key := c16_from_json_int_iff ⟨false, 64⟩ (by simp [IntTy.Std]) s
    constructor
    · intro h
      rw [uint64Sem] at h
      cases hv : fromJsonInt ⟨false, 64⟩ s with
      | error e => rw [hv] at h; cases h
      | ok y =>
        rw [hv] at h
        injection h with h
        obtain ⟨h1, h2⟩ := (key y).1 hv
        rcases h1 with ⟨n, h1, rfl⟩ | ⟨h1, -⟩
        · simp only [Int.toNat_natCast] at h
          subst h
          refine ⟨s, rfl, h1, ?_⟩
          simp [IntTy.In, IntTy.min, IntTy.max] at h2
          omega
        · cases h1
    · rintro ⟨s', e, h1, h2⟩
      injection e with e
      subst e
      have : fromJsonInt ⟨false, 64⟩ s = .ok (x : Int) := (key x).2 ⟨.inl ⟨x, h1, rfl⟩, by simp [IntTy.In, IntTy.min, IntTy.max]; omega⟩
      rw [uint64Sem, this]
      rfl
  | _ => simp [uint64Sem, IsNumber]

theorem valsOf_cons (k k' : Bytes) (v : JVal) (l : List (Bytes × JVal)) :
    valsOf k ((k', v) :: l) = if k' = k then v :: valsOf k l else valsOf k l := by
  unfold valsOf
  by_cases h : k' = k <;> simp [h, List.filter_cons]

theorem valsOf_nil (k : Bytes) : valsOf k [] = [] := rfl

theorem map_ok_iff {α β : Type} {x : Res α} {f : α → β} {b : β} : x.map f = .ok b ↔ ∃ a, x = .ok a ∧ f a = b := by
  cases x <;> simp [Except.map]

/-- the case of one key: read its value, then the other members -/
macro "one_key" h:ident key:ident ih:ident lems:term,* : tactic => `(tactic| (
  subst $h
  simp (decide := true) only [membersSem, $key:ident, valsOf_cons, if_true, if_false, $[(does_member $lems).sem],*, foldVals, bind_eq_ok, map_ok_iff, $ih:ident]
  simp only [exists_exists_and_eq_and]
  grind))

/-- the members of an object that is read as a `TypeDef` -/
theorem type_members (l : List (Bytes × JVal)) (d d' : TypeDef) : membersSem typeKey l d = .ok d' ↔
    foldVals strSem (valsOf (str "new_type_name") l) d.newName = .ok d'.newName ∧
    foldVals strSem (valsOf (str "type") l) d.type = .ok d'.type := by
  induction l generalizing d with
  | nil => cases d; cases d'; simp [membersSem, valsOf_nil, foldVals]
  | cons p l ih =>
    obtain ⟨k, v⟩ := p
    by_cases h0 : k = str "new_type_name"
    · one_key h0 typeKey ih does_str
    by_cases h1 : k = str "type"
    · one_key h1 typeKey ih does_str
    simp only [membersSem, typeKey, valsOf_cons, if_neg h0, if_neg h1, ih]

/-- the members of an object that is read as a `FieldDef` -/
theorem field_members (l : List (Bytes × JVal)) (d d' : FieldDef) : membersSem fieldKey l d = .ok d' ↔
    foldVals strSem (valsOf (str "name") l) d.name = .ok d'.name ∧
    foldVals strSem (valsOf (str "type") l) d.type = .ok d'.type := by
  induction l generalizing d with
  | nil => cases d; cases d'; simp [membersSem, valsOf_nil, foldVals]
  | cons p l ih =>
    obtain ⟨k, v⟩ := p
    by_cases h0 : k = str "name"
    · one_key h0 fieldKey ih does_str
    by_cases h1 : k = str "type"
    · one_key h1 fieldKey ih does_str
    simp only [membersSem, fieldKey, valsOf_cons, if_neg h0, if_neg h1, ih]

/-- the members of an object that is read as a `ClausePair` -/
theorem clause_members (l : List (Bytes × JVal)) (d d' : ClausePair) : membersSem clauseKey l d = .ok d' ↔
    foldVals strSem (valsOf (str "id") l) d.id = .ok d'.id ∧
    foldVals strSem (valsOf (str "body") l) d.body = .ok d'.body := by
  induction l generalizing d with
  | nil => cases d; cases d'; simp [membersSem, valsOf_nil, foldVals]
  | cons p l ih =>
    obtain ⟨k, v⟩ := p
    by_cases h0 : k = str "id"
    · one_key h0 clauseKey ih does_str
    by_cases h1 : k = str "body"
    · one_key h1 clauseKey ih does_str
    simp only [membersSem, clauseKey, valsOf_cons, if_neg h0, if_neg h1, ih]

/-- the members of an object that is read as a `StructDef` -/
theorem struct_members (l : List (Bytes × JVal)) (d d' : StructDef) : membersSem structKey l d = .ok d' ↔
    foldVals strSem (valsOf (str "name") l) d.name = .ok d'.name ∧
    foldVals strSem (valsOf (str "base") l) d.base = .ok d'.base ∧
    foldVals (vecSem ⟨[], []⟩ (objSem fieldKey)) (valsOf (str "fields") l) d.fields = .ok d'.fields := by
  induction l generalizing d with
  | nil => cases d; cases d'; simp [membersSem, valsOf_nil, foldVals]
  | cons p l ih =>
    obtain ⟨k, v⟩ := p
    by_cases h0 : k = str "name"
    · one_key h0 structKey ih does_str, does_vec does_field
    by_cases h1 : k = str "base"
    · one_key h1 structKey ih does_str, does_vec does_field
    by_cases h2 : k = str "fields"
    · one_key h2 structKey ih does_str, does_vec does_field
    simp only [membersSem, structKey, valsOf_cons, if_neg h0, if_neg h1, if_neg h2, ih]

/-- the members of an object that is read as a `ActionDef` -/
theorem action_members (l : List (Bytes × JVal)) (d d' : ActionDef) : membersSem actionKey l d = .ok d' ↔
    foldVals nameSem (valsOf (str "name") l) d.name = .ok d'.name ∧
    foldVals strSem (valsOf (str "type") l) d.type = .ok d'.type ∧
    foldVals strSem (valsOf (str "ricardian_contract") l) d.ricardian = .ok d'.ricardian := by
  induction l generalizing d with
  | nil => cases d; cases d'; simp [membersSem, valsOf_nil, foldVals]
  | cons p l ih =>
    obtain ⟨k, v⟩ := p
    by_cases h0 : k = str "name"
    · one_key h0 actionKey ih does_str, does_name
    by_cases h1 : k = str "type"
    · one_key h1 actionKey ih does_str, does_name
    by_cases h2 : k = str "ricardian_contract"
    · one_key h2 actionKey ih does_str, does_name
    simp only [membersSem, actionKey, valsOf_cons, if_neg h0, if_neg h1, if_neg h2, ih]

/-- the members of an object that is read as a `TableDef` -/
theorem table_members (l : List (Bytes × JVal)) (d d' : TableDef) : membersSem tableKey l d = .ok d' ↔
    foldVals nameSem (valsOf (str "name") l) d.name = .ok d'.name ∧
    foldVals strSem (valsOf (str "index_type") l) d.indexType = .ok d'.indexType ∧
    foldVals (vecSem [] strSem) (valsOf (str "key_names") l) d.keyNames = .ok d'.keyNames ∧
    foldVals (vecSem [] strSem) (valsOf (str "key_types") l) d.keyTypes = .ok d'.keyTypes ∧
    foldVals strSem (valsOf (str "type") l) d.type = .ok d'.type := by
  induction l generalizing d with
  | nil => cases d; cases d'; simp [membersSem, valsOf_nil, foldVals]
  | cons p l ih =>
    obtain ⟨k, v⟩ := p
    by_cases h0 : k = str "name"
    · one_key h0 tableKey ih does_str, does_name, does_vec does_str
    by_cases h1 : k = str "index_type"
    · one_key h1 tableKey ih does_str, does_name, does_vec does_str
    by_cases h2 : k = str "key_names"
    · one_key h2 tableKey ih does_str, does_name, does_vec does_str
    by_cases h3 : k = str "key_types"
    · one_key h3 tableKey ih does_str, does_name, does_vec does_str
    by_cases h4 : k = str "type"
    · one_key h4 tableKey ih does_str, does_name, does_vec does_str
    simp only [membersSem, tableKey, valsOf_cons, if_neg h0, if_neg h1, if_neg h2, if_neg h3, if_neg h4, ih]

/-- the members of an object that is read as a `ErrorMessage` -/
theorem error_members (l : List (Bytes × JVal)) (d d' : ErrorMessage) : membersSem errorKey l d = .ok d' ↔
    foldVals uint64Sem (valsOf (str "error_code") l) d.code = .ok d'.code ∧
    foldVals strSem (valsOf (str "error_msg") l) d.msg = .ok d'.msg := by
  induction l generalizing d with
  | nil => cases d; cases d'; simp [membersSem, valsOf_nil, foldVals]
  | cons p l ih =>
    obtain ⟨k, v⟩ := p
    by_cases h0 : k = str "error_code"
    · one_key h0 errorKey ih does_str, does_uint64
    by_cases h1 : k = str "error_msg"
    · one_key h1 errorKey ih does_str, does_uint64
    simp only [membersSem, errorKey, valsOf_cons, if_neg h0, if_neg h1, ih]

/-- the members of an object that is read as a `VariantDef` -/
theorem variant_members (l : List (Bytes × JVal)) (d d' : VariantDef) : membersSem variantKey l d = .ok d' ↔
    foldVals strSem (valsOf (str "name") l) d.name = .ok d'.name ∧
    foldVals (vecSem [] strSem) (valsOf (str "types") l) d.types = .ok d'.types := by
  induction l generalizing d with
  | nil => cases d; cases d'; simp [membersSem, valsOf_nil, foldVals]
  | cons p l ih =>
    obtain ⟨k, v⟩ := p
    by_cases h0 : k = str "name"
    · one_key h0 variantKey ih does_str, does_vec does_str
    by_cases h1 : k = str "types"
    · one_key h1 variantKey ih does_str, does_vec does_str
    simp only [membersSem, variantKey, valsOf_cons, if_neg h0, if_neg h1, ih]

/-- the members of an object that is read as a `AbiDef` -/
theorem abi_members (l : List (Bytes × JVal)) (d d' : AbiDef) : membersSem abiKey l d = .ok d' ↔
    foldVals strSem (valsOf (str "version") l) d.version = .ok d'.version ∧
    foldVals (vecSem ⟨[], []⟩ (objSem typeKey)) (valsOf (str "types") l) d.types = .ok d'.types ∧
    foldVals (vecSem ⟨[], [], []⟩ (objSem structKey)) (valsOf (str "structs") l) d.structs = .ok d'.structs ∧
    foldVals (vecSem ⟨0, [], []⟩ (objSem actionKey)) (valsOf (str "actions") l) d.actions = .ok d'.actions ∧
    foldVals (vecSem ⟨0, [], [], [], []⟩ (objSem tableKey)) (valsOf (str "tables") l) d.tables = .ok d'.tables ∧
    foldVals (vecSem ⟨[], []⟩ (objSem clauseKey)) (valsOf (str "ricardian_clauses") l) d.clauses = .ok d'.clauses ∧
    foldVals (vecSem ⟨0, []⟩ (objSem errorKey)) (valsOf (str "error_messages") l) d.errors = .ok d'.errors ∧
    foldVals (vecSem (0, []) fun _ _ => .error .from_json_no_pair) (valsOf (str "abi_extensions") l) d.extensions = .ok d'.extensions ∧
    foldVals (vecSem ⟨[], []⟩ (objSem variantKey)) (valsOf (str "variants") l) d.variants = .ok d'.variants := by
  induction l generalizing d with
  | nil => cases d; cases d'; simp [membersSem, valsOf_nil, foldVals]
  | cons p l ih =>
    obtain ⟨k, v⟩ := p
    by_cases h0 : k = str "version"
    · one_key h0 abiKey ih does_str, does_vec does_type, does_vec does_struct, does_vec does_action, does_vec does_table, does_vec does_clause, does_vec does_error, does_vec does_pair, does_vec does_variant
    by_cases h1 : k = str "types"
    · one_key h1 abiKey ih does_str, does_vec does_type, does_vec does_struct, does_vec does_action, does_vec does_table, does_vec does_clause, does_vec does_error, does_vec does_pair, does_vec does_variant
    by_cases h2 : k = str "structs"
    · one_key h2 abiKey ih does_str, does_vec does_type, does_vec does_struct, does_vec does_action, does_vec does_table, does_vec does_clause, does_vec does_error, does_vec does_pair, does_vec does_variant
    by_cases h3 : k = str "actions"
    · one_key h3 abiKey ih does_str, does_vec does_type, does_vec does_struct, does_vec does_action, does_vec does_table, does_vec does_clause, does_vec does_error, does_vec does_pair, does_vec does_variant
    by_cases h4 : k = str "tables"
    · one_key h4 abiKey ih does_str, does_vec does_type, does_vec does_struct, does_vec does_action, does_vec does_table, does_vec does_clause, does_vec does_error, does_vec does_pair, does_vec does_variant
    by_cases h5 : k = str "ricardian_clauses"
    · one_key h5 abiKey ih does_str, does_vec does_type, does_vec does_struct, does_vec does_action, does_vec does_table, does_vec does_clause, does_vec does_error, does_vec does_pair, does_vec does_variant
    by_cases h6 : k = str "error_messages"
    · one_key h6 abiKey ih does_str, does_vec does_type, does_vec does_struct, does_vec does_action, does_vec does_table, does_vec does_clause, does_vec does_error, does_vec does_pair, does_vec does_variant
    by_cases h7 : k = str "abi_extensions"
    · one_key h7 abiKey ih does_str, does_vec does_type, does_vec does_struct, does_vec does_action, does_vec does_table, does_vec does_clause, does_vec does_error, does_vec does_pair, does_vec does_variant
    by_cases h8 : k = str "variants"
    · one_key h8 abiKey ih does_str, does_vec does_type, does_vec does_struct, does_vec does_action, does_vec does_table, does_vec does_clause, does_vec does_error, does_vec does_pair, does_vec does_variant
    simp only [membersSem, abiKey, valsOf_cons, if_neg h0, if_neg h1, if_neg h2, if_neg h3, if_neg h4, if_neg h5, if_neg h6, if_neg h7, if_neg h8, ih]

theorem obj_inj {P : List (Bytes × JVal) → Prop} {l : List (Bytes × JVal)} : (∃ l', JVal.obj l = .obj l' ∧ P l') ↔ P l := by
  constructor
  · rintro ⟨l', e, h⟩; injection e with e; subst e; exact h
  · intro h; exact ⟨l, rfl, h⟩

theorem pair_doc (v : JVal) (x : Nat × Bytes) :
    (fun (_ : Nat × Bytes) (_ : JVal) => (Except.error .from_json_no_pair : Res (Nat × Bytes))) (0, []) v = .ok x ↔ (fun (_ : JVal) (_ : Nat × Bytes) => False) v x := by
  simp

theorem type_doc (v : JVal) x : objSem typeKey ⟨[], []⟩ v = .ok x ↔ TypeDoc v x := by
  cases v with
  | obj l => rw [objSem, type_members, TypeDoc, obj_inj]; simp only [foldVals_last str_text]
  | _ => simp [objSem, TypeDoc]

theorem field_doc (v : JVal) x : objSem fieldKey ⟨[], []⟩ v = .ok x ↔ FieldDoc v x := by
  cases v with
  | obj l => rw [objSem, field_members, FieldDoc, obj_inj]; simp only [foldVals_last str_text]
  | _ => simp [objSem, FieldDoc]

theorem clause_doc (v : JVal) x : objSem clauseKey ⟨[], []⟩ v = .ok x ↔ ClauseDoc v x := by
  cases v with
  | obj l => rw [objSem, clause_members, ClauseDoc, obj_inj]; simp only [foldVals_last str_text]
  | _ => simp [objSem, ClauseDoc]

theorem struct_doc (v : JVal) x : objSem structKey ⟨[], [], []⟩ v = .ok x ↔ StructDoc v x := by
  cases v with
  | obj l => rw [objSem, struct_members, StructDoc, obj_inj]; simp only [foldVals_last str_text, foldVals_joined field_doc]
  | _ => simp [objSem, StructDoc]

theorem action_doc (v : JVal) x : objSem actionKey ⟨0, [], []⟩ v = .ok x ↔ ActionDoc v x := by
  cases v with
  | obj l => rw [objSem, action_members, ActionDoc, obj_inj]; simp only [foldVals_last str_text, foldVals_last name_name]
  | _ => simp [objSem, ActionDoc]

theorem table_doc (v : JVal) x : objSem tableKey ⟨0, [], [], [], []⟩ v = .ok x ↔ TableDoc v x := by
  cases v with
  | obj l => rw [objSem, table_members, TableDoc, obj_inj]; simp only [foldVals_last str_text, foldVals_last name_name, foldVals_joined (str_text [])]
  | _ => simp [objSem, TableDoc]

theorem error_doc (v : JVal) x : objSem errorKey ⟨0, []⟩ v = .ok x ↔ ErrorDoc v x := by
  cases v with
  | obj l => rw [objSem, error_members, ErrorDoc, obj_inj]; simp only [foldVals_last str_text, foldVals_last uint64_number]
  | _ => simp [objSem, ErrorDoc]

theorem variant_doc (v : JVal) x : objSem variantKey ⟨[], []⟩ v = .ok x ↔ VariantDoc v x := by
  cases v with
  | obj l => rw [objSem, variant_members, VariantDoc, obj_inj]; simp only [foldVals_last str_text, foldVals_joined (str_text [])]
  | _ => simp [objSem, VariantDoc]

theorem abi_doc (v : JVal) x : objSem abiKey AbiDef.empty v = .ok x ↔ AbiDoc v x := by
  cases v with
  | obj l => rw [objSem, abi_members, AbiDoc, obj_inj]; simp only [AbiDef.empty, foldVals_last str_text, foldVals_joined type_doc, foldVals_joined struct_doc, foldVals_joined action_doc, foldVals_joined table_doc,
      foldVals_joined clause_doc, foldVals_joined error_doc, foldVals_joined (g := fun _ _ => Except.error .from_json_no_pair) (R := fun _ _ => False) pair_doc, foldVals_joined variant_doc]
  | _ => simp [objSem, AbiDoc]

/-- **C50.** Reading a JSON document as an ABI definition succeeds exactly when the document describes a definition, and gives that
definition. -/
theorem c50_reads_description (v : JVal) (d : AbiDef) : abiDefFromJson v.toks = .ok d ↔ AbiDoc v d := by
  have h := does_abi v AbiDef.empty []
  rw [List.append_nil] at h
  rw [← abi_doc, abiDefFromJson, h]
  cases objSem abiKey AbiDef.empty v <;> simp [Except.map]

/-- A document describes at most one definition. -/
theorem c50_unique {v : JVal} {d d' : AbiDef} (h : AbiDoc v d) (h' : AbiDoc v d') : d = d' := by
  have h1 := (c50_reads_description v d).2 h
  rw [(c50_reads_description v d').2 h'] at h1
  injection h1 with h1
  exact h1.symm

/-! ## Example -/

/-- `{"actions":[{"type":"t","name":"transfer"}],"version":"x","comment":[{}],"types":[],"version":"eosio::abi/1.1",
"types":[{"new_type_name":"t","type":"int8"}]}` -/
def exampleDoc : JVal := .obj [
  (str "actions", .arr [.obj [(str "type", .str (str "t")), (str "name", .str (str "transfer"))]]),
  (str "version", .str (str "x")),
  (str "comment", .arr [.obj []]),
  (str "types", .arr []),
  (str "version", .str (str "eosio::abi/1.1")),
  (str "types", .arr [.obj [(str "new_type_name", .str (str "t")), (str "type", .str (str "int8"))]])]

/-- what it describes -/
def exampleDocDef : AbiDef := ⟨str "eosio::abi/1.1", [⟨str "t", str "int8"⟩], [], [⟨14829575313431724032, str "t", []⟩], [], [], [], [], []⟩

theorem exampleDoc_reads : abiDefFromJson exampleDoc.toks = .ok exampleDocDef := by decide +kernel

example : AbiDoc exampleDoc exampleDocDef := (c50_reads_description _ _).1 exampleDoc_reads

end Abieos
