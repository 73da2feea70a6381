import Verif.Spec.AbiFaults
import Verif.Props.AbiDefJson
import Verif.Proofs.BytesFaults
/-
The errors of reading an ABI definition are the faults of the document or the bytes.
-/
namespace Abieos
open Spec

/-! ## Documents -/

/-- Reading accepts the documents of the shape, and otherwise tells the fault. -/
structure ReadsAs {α : Type} (g : α → JVal → Res α) (s : Shape) : Prop where
  ok : ∀ a v, (∃ x, g a v = .ok x) ↔ HasShape s v
  fails : ∀ a v m, Fails (g a v) m ↔ ShapeFault s v m

theorem fails_map' {α β : Type} {r : Res α} {f : α → β} {m : String} : Fails (r.map f) m ↔ Fails r m := by
  cases r with
  | error e => rw [show (Except.error e : Res α).map f = .error e from rfl, fails_error, fails_error]
  | ok a => rw [show (Except.ok a : Res α).map f = .ok (f a) from rfl]; simp [fails_ok]

theorem ok_map' {α β : Type} {r : Res α} {f : α → β} : (∃ x, r.map f = .ok x) ↔ ∃ x, r = .ok x := by
  cases r with
  | error e => simp [Except.map]
  | ok a => simp [Except.map]

theorem shape_str : ReadsAs strSem .text where
  ok a v := by
    constructor
    · rintro ⟨x, h⟩; cases v <;> cases h; exact .text
    · intro h; cases h; exact ⟨_, rfl⟩
  fails a v m := by
    constructor
    · intro h
      cases v with
      | str s => exact absurd h fails_ok
      | _ =>
        rw [strSem, fails_error] at h
        · obtain ⟨-, rfl⟩ := h; exact .text (by intro s; simp)
        · intro s; simp
    · intro h
      cases h with
      | text h =>
        cases v with
        | str s => exact absurd rfl (h s)
        | _ => exact fails_error.2 ⟨by decide, rfl⟩

theorem shape_name : ReadsAs nameSem .text where
  ok a v := by
    constructor
    · rintro ⟨x, h⟩; cases v <;> cases h; exact .text
    · intro h; cases h; exact ⟨_, rfl⟩
  fails a v m := by
    constructor
    · intro h
      cases v with
      | str s => exact absurd h fails_ok
      | _ =>
        rw [nameSem, fails_error] at h
        · obtain ⟨-, rfl⟩ := h; exact .text (by intro s; simp)
        · intro s; simp
    · intro h
      cases h with
      | text h =>
        cases v with
        | str s => exact absurd rfl (h s)
        | _ => exact fails_error.2 ⟨by decide, rfl⟩

theorem shape_uint64 : ReadsAs uint64Sem .number where
  ok a v := by
    simp only [uint64_number]
    constructor
    · rintro ⟨x, s, rfl, h1, h2⟩; exact .number h1 h2
    · intro h
      cases h with
      | number h1 h2 => exact ⟨_, _, rfl, h1, h2⟩
  fails a v m := by
    have std : (⟨false, 64⟩ : IntTy).Std := by simp [IntTy.Std]
    cases v with
    | str s =>
      rw [uint64Sem, fails_map', fromJsonInt_fails std (n := 8) rfl]
      constructor
      · exact .number
      · intro h
        cases h with
        | number h => exact h
        | noNumber h => exact absurd rfl (h s)
    | _ =>
      rw [uint64Sem, fails_error]
      · constructor
        · rintro ⟨-, rfl⟩; exact .noNumber (by intro s; simp)
        · intro h; cases h; exact ⟨by decide, rfl⟩
      · intro s; simp

theorem shape_pair : ReadsAs (fun (_ : Nat × Bytes) _ => .error .from_json_no_pair) .never where
  ok a v := by
    constructor
    · rintro ⟨x, h⟩; cases h
    · intro h; cases h
  fails a v m := by
    rw [fails_error]
    constructor
    · rintro ⟨-, rfl⟩; exact .never
    · intro h; cases h; exact ⟨by decide, rfl⟩

theorem elems_ok {α : Type} {d : α} {g : α → JVal → Res α} {s : Shape} (h : ReadsAs g s) : ∀ (l : List JVal) (acc : List α),
    (∃ x, elemsSem d g l acc = .ok x) ↔ ∀ v ∈ l, HasShape s v
  | [], acc => by simp [elemsSem]
  | v :: l, acc => by
    rw [elemsSem]
    constructor
    · rintro ⟨x, hx⟩
      obtain ⟨a, h1, h2⟩ := bind_eq_ok.1 hx
      intro w hw
      rcases List.mem_cons.1 hw with rfl | hw
      · exact (h.ok d w).1 ⟨a, h1⟩
      · exact (elems_ok h l _).1 ⟨x, h2⟩ w hw
    · intro hv
      obtain ⟨a, ha⟩ := (h.ok d v).2 (hv v (by simp))
      rw [ha, bind_ok]
      exact (elems_ok h l _).2 fun w hw => hv w (by simp [hw])

theorem elems_fails {α : Type} {d : α} {g : α → JVal → Res α} {s : Shape} (h : ReadsAs g s) {m : String} : ∀ (l : List JVal) (acc : List α),
    Fails (elemsSem d g l acc) m ↔ ∃ before v after, l = before ++ v :: after ∧ (∀ w ∈ before, HasShape s w) ∧ ShapeFault s v m
  | [], acc => by
    rw [elemsSem]
    constructor
    · intro h; exact absurd h fails_ok
    · rintro ⟨before, v, after, h, -⟩; cases before <;> cases h
  | v :: l, acc => by
    rw [elemsSem, fails_bind]
    constructor
    · rintro (hf | ⟨a, h1, h2⟩)
      · exact ⟨[], v, l, rfl, by simp, (h.fails d v m).1 hf⟩
      · obtain ⟨before, w, after, rfl, h3, h4⟩ := (elems_fails h l _).1 h2
        refine ⟨v :: before, w, after, rfl, fun x hx => ?_, h4⟩
        rcases List.mem_cons.1 hx with rfl | hx
        · exact (h.ok d x).1 ⟨a, h1⟩
        · exact h3 x hx
    · rintro ⟨before, w, after, hl, h3, h4⟩
      cases before with
      | nil =>
        cases hl
        exact .inl ((h.fails d v m).2 h4)
      | cons u before =>
        cases hl
        obtain ⟨a, ha⟩ := (h.ok d v).2 (h3 v (by simp))
        exact .inr ⟨a, ha, (elems_fails h _ _).2 ⟨before, w, after, rfl, fun x hx => h3 x (by simp [hx]), h4⟩⟩

theorem shape_vec {α : Type} {d : α} {g : α → JVal → Res α} {s : Shape} (h : ReadsAs g s) : ReadsAs (vecSem d g) (.list s) where
  ok acc v := by
    cases v with
    | arr l =>
      rw [vecSem, elems_ok h]
      constructor
      · exact .list
      · intro h; cases h; assumption
    | _ =>
      constructor
      · rintro ⟨x, h⟩; cases h
      · intro h; cases h
  fails acc v m := by
    cases v with
    | arr l =>
      rw [vecSem, elems_fails h]
      constructor
      · rintro ⟨before, v, after, rfl, h1, h2⟩; exact .list h1 h2
      · intro h
        generalize hv : JVal.arr l = v at h
        cases h with
        | noList h => exact absurd hv.symm (h l)
        | list h1 h2 => injection hv with hv; exact ⟨_, _, _, hv, h1, h2⟩
    | _ =>
      rw [vecSem, fails_error]
      · constructor
        · rintro ⟨-, rfl⟩; exact .noList (by intro s; simp)
        · intro h; cases h; exact ⟨by decide, rfl⟩
      · intro s; simp

/-- The keys of an object and how the values are read. -/
structure KeysAs {α : Type} (f : Bytes → Option (TokReader α)) (ms : List (Bytes × Shape)) : Prop where
  known : ∀ k r, f k = some r → ∃ s, (∀ s', (k, s') ∈ ms ↔ s' = s) ∧ ReadsAs (sem r) s
  unknown : ∀ k, f k = none → ∀ s, (k, s) ∉ ms

theorem members_ok {α : Type} {f : Bytes → Option (TokReader α)} {ms : List (Bytes × Shape)} (h : KeysAs f ms) : ∀ (l : List (Bytes × JVal)) (a : α),
    (∃ x, membersSem f l a = .ok x) ↔ ∀ k v, (k, v) ∈ l → ∀ s, (k, s) ∈ ms → HasShape s v
  | [], a => by simp [membersSem]
  | (k, v) :: l, a => by
    rw [membersSem]
    cases hk : f k with
    | none =>
      simp only
      rw [members_ok h l]
      constructor
      · intro hl j w hm s hs
        rcases List.mem_cons.1 hm with he | hm
        · cases he; exact absurd hs (h.unknown k hk s)
        · exact hl j w hm s hs
      · intro hl j w hm s hs
        exact hl j w (by simp [hm]) s hs
    | some r =>
      obtain ⟨s, hs, hr⟩ := h.known k r hk
      simp only
      constructor
      · rintro ⟨x, hx⟩
        obtain ⟨a', h1, h2⟩ := bind_eq_ok.1 hx
        intro j w hm s' hs'
        rcases List.mem_cons.1 hm with he | hm
        · cases he; cases (hs s').1 hs'; exact (hr.ok a v).1 ⟨a', h1⟩
        · exact (members_ok h l _).1 ⟨x, h2⟩ j w hm s' hs'
      · intro hl
        obtain ⟨a', ha⟩ := (hr.ok a v).2 (hl k v (by simp) s ((hs s).2 rfl))
        rw [ha, bind_ok]
        exact (members_ok h l _).2 fun j w hm => hl j w (by simp [hm])

theorem members_fails {α : Type} {f : Bytes → Option (TokReader α)} {ms : List (Bytes × Shape)} (h : KeysAs f ms) {m : String} :
    ∀ (l : List (Bytes × JVal)) (a : α), Fails (membersSem f l a) m ↔ ∃ before k v after s, l = before ++ (k, v) :: after ∧
      (∀ j w, (j, w) ∈ before → ∀ s, (j, s) ∈ ms → HasShape s w) ∧ (k, s) ∈ ms ∧ ShapeFault s v m
  | [], a => by
    rw [membersSem]
    constructor
    · intro h; exact absurd h fails_ok
    · rintro ⟨before, k, v, after, s, h, -⟩; cases before <;> cases h
  | (k, v) :: l, a => by
    rw [membersSem]
    cases hk : f k with
    | none =>
      simp only
      rw [members_fails h l]
      constructor
      · rintro ⟨before, j, w, after, s, rfl, h1, h2, h3⟩
        refine ⟨(k, v) :: before, j, w, after, s, rfl, fun i u hm s' hs' => ?_, h2, h3⟩
        rcases List.mem_cons.1 hm with he | hm
        · cases he; exact absurd hs' (h.unknown k hk s')
        · exact h1 i u hm s' hs'
      · rintro ⟨before, j, w, after, s, hl, h1, h2, h3⟩
        cases before with
        | nil => cases hl; exact absurd h2 (h.unknown k hk s)
        | cons p before => cases hl; exact ⟨before, j, w, after, s, rfl, fun i u hm => h1 i u (by simp [hm]), h2, h3⟩
    | some r =>
      obtain ⟨s, hs, hr⟩ := h.known k r hk
      simp only
      rw [fails_bind]
      constructor
      · rintro (hf | ⟨a', h1, h2⟩)
        · exact ⟨[], k, v, l, s, rfl, by simp, (hs s).2 rfl, (hr.fails a v m).1 hf⟩
        · obtain ⟨before, j, w, after, s', rfl, h3, h4, h5⟩ := (members_fails h l _).1 h2
          refine ⟨(k, v) :: before, j, w, after, s', rfl, fun i u hm t ht => ?_, h4, h5⟩
          rcases List.mem_cons.1 hm with he | hm
          · cases he; cases (hs t).1 ht; exact (hr.ok a v).1 ⟨a', h1⟩
          · exact h3 i u hm t ht
      · rintro ⟨before, j, w, after, s', hl, h1, h2, h3⟩
        cases before with
        | nil => cases hl; cases (hs s').1 h2; exact .inl ((hr.fails a v m).2 h3)
        | cons p before =>
          cases hl
          obtain ⟨a', ha⟩ := (hr.ok a v).2 (h1 k v (by simp) s ((hs s).2 rfl))
          exact .inr ⟨a', ha, (members_fails h _ _).2 ⟨before, j, w, after, s', rfl, fun i u hm => h1 i u (by simp [hm]), h2, h3⟩⟩

theorem shape_obj {α : Type} {f : Bytes → Option (TokReader α)} {ms : List (Bytes × Shape)} (h : KeysAs f ms) : ReadsAs (objSem f) (.object ms) where
  ok a v := by
    cases v with
    | obj l =>
      rw [objSem, members_ok h]
      constructor
      · exact .object
      · intro h; cases h; assumption
    | _ =>
      constructor
      · rintro ⟨x, h⟩; cases h
      · intro h; cases h
  fails a v m := by
    cases v with
    | obj l =>
      rw [objSem, members_fails h]
      constructor
      · rintro ⟨before, k, v, after, s, rfl, h1, h2, h3⟩; exact .object h1 h2 h3
      · intro h
        generalize hv : JVal.obj l = v at h
        cases h with
        | noObject h => exact absurd hv.symm (h l)
        | object h1 h2 h3 => injection hv with hv; exact ⟨_, _, _, _, _, hv, h1, h2, h3⟩
    | _ =>
      rw [objSem, fails_error]
      · constructor
        · rintro ⟨-, rfl⟩; exact .noObject (by intro s; simp)
        · intro h; cases h; exact ⟨by decide, rfl⟩
      · intro s; simp

theorem shape_member {α β : Type} {get : α → β} {set : α → β → α} {r : TokReader β} {g : β → JVal → Res β} {s : Shape} (hd : Does r g) (h : ReadsAs g s) :
    ReadsAs (sem (member get set r)) s := by
  rw [(does_member hd).sem]
  exact ⟨fun a v => by rw [ok_map']; exact h.ok _ v, fun a v m => by rw [fails_map']; exact h.fails _ v m⟩


theorem known_key {ms : List (Bytes × Shape)} (hn : (ms.map Prod.fst).Nodup) {k : Bytes} {s : Shape} (h : (k, s) ∈ ms) (s' : Shape) : (k, s') ∈ ms ↔ s' = s := by
  constructor
  · intro h'
    induction ms with
    | nil => cases h
    | cons p ms ih =>
      obtain ⟨h1, h2⟩ := List.nodup_cons.1 hn
      rcases List.mem_cons.1 h with rfl | hm <;> rcases List.mem_cons.1 h' with e | h'
      · cases e; rfl
      · exact absurd (List.mem_map.2 ⟨_, h', rfl⟩) h1
      · subst e; exact absurd (List.mem_map.2 ⟨(k, s), hm, rfl⟩ : k ∈ ms.map Prod.fst) h1
      · exact ih h2 hm h'
  · rintro rfl; exact h

/-- closes `KeysAs` for a chain of conditions -/
macro "keys_as" lems:term,* : tactic => `(tactic| (
  constructor
  · intro k r hk
    simp only [typeKey, fieldKey, structKey, actionKey, tableKey, clauseKey, errorKey, variantKey, abiKey] at hk
    repeat' split at hk
    all_goals first
      | (injection hk with hk; subst hk; subst_vars; first $[| exact ⟨_, known_key (by decide +kernel) (by simp [mem]), $lems⟩]*)
      | cases hk
  · intro k hk s hs
    simp only [typeKey, fieldKey, structKey, actionKey, tableKey, clauseKey, errorKey, variantKey, abiKey] at hk
    repeat' split at hk
    all_goals first
      | (cases hk; done)
      | (simp only [mem, List.mem_cons, Prod.mk.injEq, List.not_mem_nil, or_false] at hs; simp_all)))

theorem shape_type : ReadsAs (objSem typeKey) typeShape := shape_obj (by keys_as shape_member does_str shape_str)
theorem shape_field : ReadsAs (objSem fieldKey) fieldShape := shape_obj (by keys_as shape_member does_str shape_str)
theorem shape_struct : ReadsAs (objSem structKey) structShape :=
  shape_obj (by keys_as shape_member does_str shape_str, shape_member (does_vec does_field) (shape_vec shape_field))
theorem shape_action : ReadsAs (objSem actionKey) actionShape := shape_obj (by keys_as shape_member does_str shape_str, shape_member does_name shape_name)
theorem shape_table : ReadsAs (objSem tableKey) tableShape :=
  shape_obj (by keys_as shape_member does_str shape_str, shape_member does_name shape_name, shape_member (does_vec does_str) (shape_vec shape_str))
theorem shape_clause : ReadsAs (objSem clauseKey) clauseShape := shape_obj (by keys_as shape_member does_str shape_str)
theorem shape_error : ReadsAs (objSem errorKey) errorShape := shape_obj (by keys_as shape_member does_str shape_str, shape_member does_uint64 shape_uint64)
theorem shape_variant : ReadsAs (objSem variantKey) variantShape :=
  shape_obj (by keys_as shape_member does_str shape_str, shape_member (does_vec does_str) (shape_vec shape_str))
theorem shape_abi : ReadsAs (objSem abiKey) abiShape := shape_obj (by
  keys_as shape_member does_str shape_str, shape_member (does_vec does_type) (shape_vec shape_type), shape_member (does_vec does_struct) (shape_vec shape_struct),
    shape_member (does_vec does_action) (shape_vec shape_action), shape_member (does_vec does_table) (shape_vec shape_table),
    shape_member (does_vec does_clause) (shape_vec shape_clause), shape_member (does_vec does_error) (shape_vec shape_error),
    shape_member (does_vec does_pair) (shape_vec shape_pair), shape_member (does_vec does_variant) (shape_vec shape_variant))

theorem abiJson_fails {v : JVal} {m : String} : Fails (abiDefFromJson v.toks) m ↔ ShapeFault abiShape v m := by
  have h := does_abi v AbiDef.empty []
  rw [List.append_nil] at h
  rw [abiDefFromJson, h, ← shape_abi.fails AbiDef.empty]
  cases objSem abiKey AbiDef.empty v with
  | error e => exact Iff.rfl
  | ok d => exact iff_of_false fails_ok fails_ok

theorem abiJson_ok {v : JVal} : (∃ D, abiDefFromJson v.toks = .ok D) ↔ HasShape abiShape v := by
  have h := does_abi v AbiDef.empty []
  rw [List.append_nil] at h
  rw [abiDefFromJson, h, ← shape_abi.ok AbiDef.empty]
  cases objSem abiKey AbiDef.empty v with
  | error e => simp [Except.map]
  | ok d => simp [Except.map]

/-! ## Bytes -/

/-- Reading accepts bytes that begin with the layout. -/
def TakesLay {α : Type} (r : Reader α) (a : Lay) : Prop :=
  ∀ b rest : Bytes, b.length < 2 ^ 32 → ((∃ x, r b = .ok (x, rest)) ↔ ∃ p, b = p ++ rest ∧ HasLay a p)

/-- Reading fails with the fault of the layout. -/
def FailsLay {α : Type} (r : Reader α) (a : Lay) : Prop := ∀ (b : Bytes) (m : String), b.length < 2 ^ 32 → (Fails (r b) m ↔ LayFault a b m)

theorem readBytes_iff' {n : Nat} {b x rest : Bytes} : readBytes n b = .ok (x, rest) ↔ b = x ++ rest ∧ x.length = n := by
  unfold readBytes
  constructor
  · intro h
    split at h
    · cases h
      exact ⟨(List.take_append_drop n b).symm, by rw [List.length_take]; omega⟩
    · cases h
  · rintro ⟨rfl, rfl⟩
    rw [if_pos (by simp), List.take_left', List.drop_left'] <;> rfl

theorem takes_word (n : Nat) : TakesLay (wordFromBin n) (.fixed n) := by
  intro b rest _
  unfold wordFromBin
  constructor
  · rintro ⟨x, h⟩
    obtain ⟨⟨y, s⟩, h1, h2⟩ := bind_eq_ok.1 h
    cases h2
    obtain ⟨rfl, h3⟩ := readBytes_iff'.1 h1
    exact ⟨y, rfl, .fixed h3⟩
  · rintro ⟨p, rfl, h⟩
    cases h with
    | fixed h => exact ⟨_, by rw [readBytes_iff'.2 ⟨rfl, h⟩]; rfl⟩

theorem faults_word (n : Nat) : FailsLay (wordFromBin n) (.fixed n) := by
  intro b m _
  unfold wordFromBin
  rw [fails_map (by rintro ⟨y, s⟩ e _ h; cases h), readBytes_fails]
  constructor
  · rintro ⟨h, rfl⟩; exact .fixed h
  · intro h; cases h with
    | fixed h => exact ⟨h, rfl⟩

theorem text_iff {b v rest : Bytes} : textFromBin b = .ok (v, rest) ↔ ∃ h, SizeRead v.length h ∧ b = h ++ (v ++ rest) := by
  unfold textFromBin
  constructor
  · intro h
    obtain ⟨⟨n, s⟩, h1, h2⟩ := bind_eq_ok.1 h
    obtain ⟨rfl, rfl⟩ := readBytes_iff'.1 h2
    obtain ⟨c, rfl, h3⟩ := varuint32_iff.1 h1
    exact ⟨c, h3, rfl⟩
  · rintro ⟨h, h1, rfl⟩
    rw [varuint32_iff.2 ⟨h, rfl, h1⟩, bind_ok]
    exact readBytes_iff'.2 ⟨rfl, rfl⟩

theorem takes_text : TakesLay textFromBin .text := by
  intro b rest _
  constructor
  · rintro ⟨x, h⟩
    obtain ⟨c, h1, rfl⟩ := text_iff.1 h
    exact ⟨c ++ x, by simp, .text h1⟩
  · rintro ⟨p, rfl, h⟩
    cases h with
    | text h1 => exact ⟨_, text_iff.2 ⟨_, h1, by simp⟩⟩

theorem faults_text : FailsLay textFromBin .text := by
  intro b m _
  have h := sized_fails (bits := 32) (most := 5) (rd := varuint32FromBin) varuint32_iff noSize32 (f := fun x => Except.ok (ε := Err) x) (by intro x e h; cases h) (b := b) (m := m)
  have e : (varuint32FromBin b >>= fun x => readBytes x.1 x.2 >>= fun x => Except.ok (ε := Err) x) = textFromBin b := by
    unfold textFromBin
    congr 1
    funext x
    obtain ⟨n, s⟩ := x
    simp only
    cases readBytes n s <;> rfl
  rw [e] at h
  rw [h]
  constructor
  · exact .text
  · intro h; cases h; assumption

theorem chars_iff {b v rest : Bytes} (hb : b.length < 2 ^ 32) : charsFromBin b = .ok (v, rest) ↔ ∃ h, VarRead 64 10 v.length h ∧ b = h ++ (v ++ rest) := by
  unfold charsFromBin
  constructor
  · intro h
    obtain ⟨⟨n, s⟩, h1, h2⟩ := bind_eq_ok.1 h
    obtain ⟨-, -, h2⟩ := bind_eq_ok.1 h2
    obtain ⟨-, -, h2⟩ := bind_eq_ok.1 h2
    obtain ⟨rfl, rfl⟩ := readBytes_iff'.1 h2
    obtain ⟨c, rfl, h3⟩ := varuint64_iff.1 h1
    exact ⟨c, h3, rfl⟩
  · rintro ⟨h, h1, rfl⟩
    rw [varuint64_iff.2 ⟨h, rfl, h1⟩, bind_ok]
    have hl : v.length ≤ (v ++ rest).length := by simp
    have hm : v.length ≤ vectorMax 1 := by
      unfold vectorMax
      simp only [List.length_append] at hb
      omega
    simp only [check, hl, hm, decide_true, if_true, bind_ok]
    exact readBytes_iff'.2 ⟨rfl, rfl⟩

theorem takes_chars : TakesLay charsFromBin .bytes := by
  intro b rest hb
  constructor
  · rintro ⟨x, h⟩
    obtain ⟨c, h1, rfl⟩ := (chars_iff hb).1 h
    exact ⟨c ++ x, by simp, .bytes h1⟩
  · rintro ⟨p, rfl, h⟩
    cases h with
    | bytes h1 => exact ⟨_, (chars_iff hb).2 ⟨_, h1, by simp⟩⟩

theorem faults_chars : FailsLay charsFromBin .bytes := by
  intro b m hb
  have h := sized_fails (bits := 64) (most := 10) (rd := varuint64FromBin) varuint64_iff noSize64 (f := fun x => Except.ok (ε := Err) x) (by intro x e h; cases h) (b := b) (m := m)
  have e : (varuint64FromBin b >>= fun x => readBytes x.1 x.2 >>= fun x => Except.ok (ε := Err) x) = charsFromBin b := by
    unfold charsFromBin
    cases hv : varuint64FromBin b with
    | error e => rfl
    | ok x =>
      obtain ⟨n, s⟩ := x
      obtain ⟨c, rfl, -⟩ := varuint64_iff.1 hv
      rw [bind_ok, bind_ok]
      simp only
      by_cases hn : n ≤ s.length
      · have hm : n ≤ vectorMax 1 := by
          unfold vectorMax
          simp only [List.length_append] at hb
          omega
        simp only [check, hn, hm, decide_true, if_true, bind_ok]
        cases readBytes n s <;> rfl
      · have : readBytes n s = .error .overrun := by unfold readBytes; rw [if_neg hn]
        rw [this]
        simp [check, hn]
  rw [e] at h
  rw [h]
  constructor
  · exact .bytes
  · intro h; cases h; assumption

theorem takes_bind {α β : Type} {r : Reader α} {g : α → Reader β} {a a' : Lay} (h : TakesLay r a) (h' : ∀ x, TakesLay (g x) a') :
    TakesLay (fun s => r s >>= fun y => g y.1 y.2) (a ⊹ a') := by
  intro b rest hb
  constructor
  · rintro ⟨x, hx⟩
    obtain ⟨⟨y, s⟩, h1, h2⟩ := bind_eq_ok.1 hx
    obtain ⟨p, rfl, hp⟩ := (h b s hb).1 ⟨y, h1⟩
    obtain ⟨q, rfl, hq⟩ := (h' y s rest (by simp only [List.length_append] at hb; omega)).1 ⟨x, h2⟩
    exact ⟨p ++ q, by simp, .pair hp hq⟩
  · rintro ⟨p, rfl, hp⟩
    cases hp with
    | pair h1 h2 =>
      rename_i p q
      obtain ⟨y, hy⟩ := (h (p ++ q ++ rest) (q ++ rest) hb).2 ⟨p, by simp, h1⟩
      obtain ⟨x, hx⟩ := (h' y (q ++ rest) rest (by simp only [List.length_append] at hb ⊢; omega)).2 ⟨q, rfl, h2⟩
      exact ⟨x, by beta_reduce; rw [hy, bind_ok]; exact hx⟩

theorem faults_bind {α β : Type} {r : Reader α} {g : α → Reader β} {a a' : Lay} (h : TakesLay r a) (hf : FailsLay r a) (h' : ∀ x, FailsLay (g x) a') :
    FailsLay (fun s => r s >>= fun y => g y.1 y.2) (a ⊹ a') := by
  intro b m hb
  beta_reduce
  rw [fails_bind, hf b m hb]
  constructor
  · rintro (h1 | ⟨⟨y, s⟩, h1, h2⟩)
    · exact .first h1
    · obtain ⟨p, rfl, hp⟩ := (h b s hb).1 ⟨y, h1⟩
      exact .second hp ((h' y s m (by simp only [List.length_append] at hb; omega)).1 h2)
  · intro hx
    cases hx with
    | first h1 => exact .inl h1
    | second h1 h2 =>
      rename_i p s
      obtain ⟨y, hy⟩ := (h (p ++ s) s hb).2 ⟨p, rfl, h1⟩
      exact .inr ⟨(y, s), hy, (h' y s m (by simp only [List.length_append] at hb; omega)).2 h2⟩

theorem takes_map {α β : Type} {r : Reader α} {f : α → β} {a : Lay} (h : TakesLay r a) : TakesLay (fun s => r s >>= fun y => .ok (f y.1, y.2)) a := by
  intro b rest hb
  rw [← h b rest hb]
  constructor
  · rintro ⟨x, hx⟩
    obtain ⟨⟨y, s⟩, h1, h2⟩ := bind_eq_ok.1 hx
    cases h2
    exact ⟨y, h1⟩
  · rintro ⟨x, hx⟩
    exact ⟨f x, by beta_reduce; rw [hx]; rfl⟩

theorem faults_map {α β : Type} {r : Reader α} {f : α → β} {a : Lay} (h : FailsLay r a) : FailsLay (fun s => r s >>= fun y => .ok (f y.1, y.2)) a := by
  intro b m hb
  rw [fails_map (by intro a e _ h; cases h), h b m hb]

theorem all_takes {α : Type} {r : Reader α} {a : Lay} (h : TakesLay r a) : ∀ (n : Nat) (b rest : Bytes), b.length < 2 ^ 32 →
    ((∃ x, allFromBin r n b = .ok (x, rest)) ↔ ∃ l : List Bytes, b = l.flatten ++ rest ∧ l.length = n ∧ ∀ p ∈ l, HasLay a p)
  | 0, b, rest, hb => by
    rw [allFromBin]
    constructor
    · rintro ⟨x, h⟩; cases h; exact ⟨[], rfl, rfl, by simp⟩
    · rintro ⟨l, rfl, hl, -⟩; cases List.length_eq_zero_iff.1 hl; exact ⟨_, rfl⟩
  | n + 1, b, rest, hb => by
    rw [allFromBin]
    constructor
    · rintro ⟨x, hx⟩
      obtain ⟨⟨y, s⟩, h1, h2⟩ := bind_eq_ok.1 hx
      obtain ⟨⟨z, s'⟩, h3, h4⟩ := bind_eq_ok.1 h2
      cases h4
      obtain ⟨p, rfl, hp⟩ := (h b s hb).1 ⟨y, h1⟩
      obtain ⟨l, rfl, rfl, hl⟩ := (all_takes h n s rest (by simp only [List.length_append] at hb; omega)).1 ⟨z, h3⟩
      refine ⟨p :: l, by simp, rfl, fun q hq => ?_⟩
      rcases List.mem_cons.1 hq with rfl | hq
      · exact hp
      · exact hl q hq
    · rintro ⟨l, rfl, hl, hp⟩
      cases l with
      | nil => cases hl
      | cons p l =>
        obtain ⟨y, hy⟩ := (h ((p :: l).flatten ++ rest) (l.flatten ++ rest) hb).2 ⟨p, by simp, hp p (by simp)⟩
        obtain ⟨z, hz⟩ := (all_takes h n (l.flatten ++ rest) rest (by simp only [List.flatten_cons, List.length_append] at hb ⊢; omega)).2
          ⟨l, rfl, by simpa using hl, fun q hq => hp q (by simp [hq])⟩
        exact ⟨_, by rw [hy, bind_ok]; simp only; rw [hz]; rfl⟩

theorem all_faults {α : Type} {r : Reader α} {a : Lay} (h : TakesLay r a) (hf : FailsLay r a) {m : String} : ∀ (n : Nat) (b : Bytes), b.length < 2 ^ 32 →
    (Fails (allFromBin r n b) m ↔ ∃ (l : List Bytes) (b' : Bytes), b = l.flatten ++ b' ∧ l.length < n ∧ (∀ p ∈ l, HasLay a p) ∧ LayFault a b' m)
  | 0, b, hb => by
    rw [allFromBin]
    constructor
    · intro h; exact absurd h fails_ok
    · rintro ⟨l, b', -, hl, -⟩; omega
  | n + 1, b, hb => by
    rw [allFromBin, fails_bind]
    constructor
    · rintro (h1 | ⟨⟨y, s⟩, h1, h2⟩)
      · exact ⟨[], b, rfl, by simp, by simp, (hf b m hb).1 h1⟩
      · obtain ⟨p, rfl, hp⟩ := (h b s hb).1 ⟨y, h1⟩
        simp only at h2
        rw [fails_map (by rintro ⟨z, s'⟩ e _ h; cases h)] at h2
        obtain ⟨l, b', rfl, h3, h4, h5⟩ := (all_faults h hf n s (by simp only [List.length_append] at hb; omega)).1 h2
        refine ⟨p :: l, b', by simp, by simpa using h3, fun q hq => ?_, h5⟩
        rcases List.mem_cons.1 hq with rfl | hq
        · exact hp
        · exact h4 q hq
    · rintro ⟨l, b', rfl, hl, h4, h5⟩
      cases l with
      | nil => exact .inl ((hf _ m hb).2 h5)
      | cons p l =>
        obtain ⟨y, hy⟩ := (h ((p :: l).flatten ++ b') (l.flatten ++ b') hb).2 ⟨p, by simp, h4 p (by simp)⟩
        refine .inr ⟨_, hy, ?_⟩
        simp only
        rw [fails_map (by rintro ⟨z, s'⟩ e _ h; cases h)]
        exact (all_faults h hf n (l.flatten ++ b') (by simp only [List.flatten_cons, List.length_append] at hb ⊢; omega)).2
          ⟨l, b', rfl, by simpa using hl, fun q hq => h4 q (by simp [hq]), h5⟩

theorem takes_vec {α : Type} {r : Reader α} {a : Lay} (h : TakesLay r a) : TakesLay (vecFromBin r) (.list a) := by
  intro b rest hb
  unfold vecFromBin
  constructor
  · rintro ⟨x, hx⟩
    obtain ⟨⟨n, s⟩, h1, h2⟩ := bind_eq_ok.1 hx
    obtain ⟨c, rfl, h3⟩ := varuint32_iff.1 h1
    obtain ⟨l, rfl, rfl, hl⟩ := (all_takes h n s rest (by simp only [List.length_append] at hb; omega)).1 ⟨x, h2⟩
    exact ⟨c ++ l.flatten, by simp, .list h3 hl⟩
  · rintro ⟨p, rfl, hp⟩
    cases hp with
    | list h1 h2 =>
      rename_i c l
      obtain ⟨x, hx⟩ := (all_takes h l.length (l.flatten ++ rest) rest (by simp only [List.length_append] at hb ⊢; omega)).2 ⟨l, rfl, rfl, h2⟩
      exact ⟨x, by rw [List.append_assoc, varuint32_iff.2 ⟨c, rfl, h1⟩, bind_ok]; exact hx⟩

theorem faults_vec {α : Type} {r : Reader α} {a : Lay} (h : TakesLay r a) (hf : FailsLay r a) : FailsLay (vecFromBin r) (.list a) := by
  intro b m hb
  unfold vecFromBin
  rw [fails_bind, size_fails]
  constructor
  · rintro (h1 | ⟨⟨n, s⟩, h1, h2⟩)
    · exact .noSize h1
    · obtain ⟨c, rfl, h3⟩ := varuint32_iff.1 h1
      obtain ⟨l, b', rfl, h4, h5, h6⟩ := (all_faults h hf n s (by simp only [List.length_append] at hb; omega)).1 h2
      exact .elem h3 h4 h5 h6
  · intro hx
    cases hx with
    | noSize h1 => exact .inl h1
    | elem h1 h2 h3 h4 =>
      exact .inr ⟨_, varuint32_iff.2 ⟨_, rfl, h1⟩, (all_faults h hf _ _ (by simp only [List.length_append] at hb ⊢; omega)).2 ⟨_, _, rfl, h2, h3, h4⟩⟩

theorem faults_maybe {α : Type} {d : α} {r : Reader α} {a : Lay} (hf : FailsLay r a) : FailsLay (maybeFromBin d r) (.maybe a) := by
  intro b m hb
  unfold maybeFromBin
  by_cases h : b = []
  · rw [if_pos h]
    exact iff_of_false fails_ok fun hx => by cases hx with | maybe h1 _ => exact h1 h
  · rw [if_neg h, hf b m hb]
    constructor
    · exact .maybe h
    · intro hx; cases hx; assumption

theorem takes_two {α β γ : Type} {r : Reader α} {r' : Reader β} {f : α → β → γ} {a a' : Lay} (h : TakesLay r a) (h' : TakesLay r' a') :
    TakesLay (fun s => r s >>= fun y => r' y.2 >>= fun z => .ok (f y.1 z.1, z.2)) (a ⊹ a') :=
  takes_bind (g := fun y s => r' s >>= fun z => .ok (f y z.1, z.2)) h fun _ => takes_map h'

theorem faults_two {α β γ : Type} {r : Reader α} {r' : Reader β} {f : α → β → γ} {a a' : Lay} (h : TakesLay r a) (hf : FailsLay r a) (hf' : FailsLay r' a') :
    FailsLay (fun s => r s >>= fun y => r' y.2 >>= fun z => .ok (f y.1 z.1, z.2)) (a ⊹ a') :=
  faults_bind (g := fun y s => r' s >>= fun z => .ok (f y z.1, z.2)) h hf fun _ => faults_map hf'

theorem takes_field : TakesLay fieldDefFromBin (.text ⊹ .text) := takes_two takes_text takes_text
theorem faults_field : FailsLay fieldDefFromBin (.text ⊹ .text) := faults_two takes_text faults_text faults_text
theorem takes_type : TakesLay typeDefFromBin (.text ⊹ .text) := takes_two takes_text takes_text
theorem faults_type : FailsLay typeDefFromBin (.text ⊹ .text) := faults_two takes_text faults_text faults_text
theorem takes_clause : TakesLay clauseFromBin (.text ⊹ .text) := takes_two takes_text takes_text
theorem faults_clause : FailsLay clauseFromBin (.text ⊹ .text) := faults_two takes_text faults_text faults_text
theorem takes_error : TakesLay errorFromBin (.fixed 8 ⊹ .text) := takes_two (takes_word 8) takes_text
theorem faults_error : FailsLay errorFromBin (.fixed 8 ⊹ .text) := faults_two (takes_word 8) (faults_word 8) faults_text
theorem takes_ext : TakesLay extFromBin (.fixed 2 ⊹ .bytes) := takes_two (takes_word 2) takes_chars
theorem faults_ext : FailsLay extFromBin (.fixed 2 ⊹ .bytes) := faults_two (takes_word 2) (faults_word 2) faults_chars
theorem takes_variant : TakesLay variantDefFromBin (.text ⊹ .list .text) := takes_two takes_text (takes_vec takes_text)
theorem faults_variant : FailsLay variantDefFromBin (.text ⊹ .list .text) := faults_two takes_text faults_text (faults_vec takes_text faults_text)

theorem takes_struct : TakesLay structDefFromBin (.text ⊹ .text ⊹ .list (.text ⊹ .text)) :=
  takes_bind takes_text fun _ => takes_two takes_text (takes_vec takes_field)
theorem faults_struct : FailsLay structDefFromBin (.text ⊹ .text ⊹ .list (.text ⊹ .text)) :=
  faults_bind takes_text faults_text fun _ => faults_two takes_text faults_text (faults_vec takes_field faults_field)

theorem takes_action : TakesLay actionDefFromBin (.fixed 8 ⊹ .text ⊹ .text) := takes_bind (takes_word 8) fun _ => takes_two takes_text takes_text
theorem faults_action : FailsLay actionDefFromBin (.fixed 8 ⊹ .text ⊹ .text) :=
  faults_bind (takes_word 8) (faults_word 8) fun _ => faults_two takes_text faults_text faults_text

theorem takes_table : TakesLay tableDefFromBin (.fixed 8 ⊹ .text ⊹ .list .text ⊹ .list .text ⊹ .text) :=
  takes_bind (takes_word 8) fun _ => takes_bind takes_text fun _ => takes_bind (takes_vec takes_text) fun _ => takes_two (takes_vec takes_text) takes_text
theorem faults_table : FailsLay tableDefFromBin (.fixed 8 ⊹ .text ⊹ .list .text ⊹ .list .text ⊹ .text) :=
  faults_bind (takes_word 8) (faults_word 8) fun _ => faults_bind takes_text faults_text fun _ =>
    faults_bind (takes_vec takes_text) (faults_vec takes_text faults_text) fun _ => faults_two (takes_vec takes_text) (faults_vec takes_text faults_text) faults_text

/-- the sections after the version -/
def sectionsFromBin (a : Bytes) : Reader AbiDef := fun s => do
  let (b, s) ← vecFromBin typeDefFromBin s
  let (c, s) ← vecFromBin structDefFromBin s
  let (e, s) ← vecFromBin actionDefFromBin s
  let (f, s) ← vecFromBin tableDefFromBin s
  let (g, s) ← vecFromBin clauseFromBin s
  let (h, s) ← vecFromBin errorFromBin s
  let (i, s) ← vecFromBin extFromBin s
  let (j, s) ← maybeFromBin [] (vecFromBin variantDefFromBin) s
  .ok (⟨a, b, c, e, f, g, h, i, j⟩, s)

theorem abiDefFromBin_sections (s : Bytes) : abiDefFromBin s = textFromBin s >>= fun y => sectionsFromBin y.1 y.2 := rfl

theorem faults_sections (a : Bytes) : FailsLay (sectionsFromBin a) abiRest :=
  faults_bind (takes_vec takes_type) (faults_vec takes_type faults_type) fun _ =>
  faults_bind (takes_vec takes_struct) (faults_vec takes_struct faults_struct) fun _ =>
  faults_bind (takes_vec takes_action) (faults_vec takes_action faults_action) fun _ =>
  faults_bind (takes_vec takes_table) (faults_vec takes_table faults_table) fun _ =>
  faults_bind (takes_vec takes_clause) (faults_vec takes_clause faults_clause) fun _ =>
  faults_bind (takes_vec takes_error) (faults_vec takes_error faults_error) fun _ =>
  faults_two (takes_vec takes_ext) (faults_vec takes_ext faults_ext) (faults_maybe (faults_vec takes_variant faults_variant))

end Abieos
