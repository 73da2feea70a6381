import Verif.Proofs.NoUb
import Verif.Model.Ordered
import Verif.Model.JsonReader
import Verif.Spec.Defined
/-
Reading the beginning of the tokens of a document: what is found there does not depend on what follows.
-/
namespace Abieos
open Spec

/-! ## The events before an error -/

theorem valueTo_cut (n : Nat) : (∀ s, ∃ (v : JVal) (rest : List Tok), rest ≠ [] ∧ v.toks = Reader.valueTo n s ++ rest) ∧
    (∀ s, ∃ l rest, JVal.toks.go l = Reader.elemsTo n s ++ rest) ∧ (∀ s, ∃ l rest, JVal.toks.goM l = Reader.membersTo n s ++ rest) := by
  induction n with
  | zero => exact ⟨fun s => ⟨.null, [.null], by simp, rfl⟩, fun s => ⟨[], [], rfl⟩, fun s => ⟨[], [], rfl⟩⟩
  | succ n ih =>
    obtain ⟨ih1, ih2, ih3⟩ := ih
    refine ⟨fun s => ?_, fun s => ?_, fun s => ?_⟩
    · unfold Reader.valueTo
      split
      · rename_i s' _
        obtain ⟨l, rest, h⟩ := ih2 s'
        exact ⟨.arr l, rest ++ [.endArr], by simp, by simp [JVal.toks, h]⟩
      · rename_i s' _
        obtain ⟨l, rest, h⟩ := ih3 s'
        exact ⟨.obj l, rest ++ [.endObj], by simp, by simp [JVal.toks, h]⟩
      · exact ⟨.null, [.null], by simp, rfl⟩
    · unfold Reader.elemsTo
      split
      · obtain ⟨v, rest, -, h⟩ := ih1 s
        exact ⟨[v], rest, by simp [JVal.toks.go, h]⟩
      · rename_i v s' _
        split
        · rename_i s'' _
          obtain ⟨l, rest, h⟩ := ih2 s''
          exact ⟨v :: l, rest, by simp [JVal.toks.go, h]⟩
        · exact ⟨[v], [], by simp [JVal.toks.go]⟩
    · unfold Reader.membersTo
      split
      · split
        · exact ⟨[], [], rfl⟩
        · rename_i k s' _
          split
          · rename_i s'' _
            split
            · obtain ⟨v, rest, -, h⟩ := ih1 s''
              exact ⟨[(k, v)], rest, by simp [JVal.toks.goM, h]⟩
            · rename_i v s3 _
              split
              · rename_i s4 _
                obtain ⟨l, rest, h⟩ := ih3 s4
                exact ⟨(k, v) :: l, rest, by simp [JVal.toks.goM, h]⟩
              · exact ⟨[(k, v)], [], by simp [JVal.toks.goM]⟩
          · exact ⟨[(k, .null)], [.null], by simp [JVal.toks.goM, JVal.toks]⟩
      · exact ⟨[], [], rfl⟩

theorem toks_ne (v : JVal) : v.toks ≠ [] := by
  obtain ⟨t, ts, h, -⟩ := toks_head v
  simp [h]

/-- What the reader reports of a text that is not a document is the beginning of the events of one. -/
theorem upTo_cut (text : Bytes) (h : Reader.read text = none) : ∃ (v : JVal) (rest : List Tok), rest ≠ [] ∧ v.toks = Reader.upTo text ++ rest := by
  unfold Reader.read at h
  unfold Reader.upTo
  simp only at h ⊢
  generalize text.takeWhile (· != 0) = s at h ⊢
  cases hv : Reader.value (2 * s.length + 2) s with
  | none => exact (valueTo_cut _).1 s
  | some p =>
    obtain ⟨v, r⟩ := p
    simp only [hv] at h ⊢
    split at h
    · cases h
    · rename_i hr
      rw [if_neg hr]
      exact ⟨v, [v.toks.getLast (toks_ne v)], by simp, by rw [List.dropLast_append_getLast]⟩

/-- And for a document it is its events. -/
theorem upTo_doc {text : Bytes} {v : JVal} (h : Reader.read text = some v) : Reader.upTo text = v.toks := by
  unfold Reader.read at h
  unfold Reader.upTo
  simp only at h ⊢
  generalize text.takeWhile (· != 0) = s at h ⊢
  cases hv : Reader.value (2 * s.length + 2) s with
  | none => simp only [hv] at h; cases h
  | some p =>
    obtain ⟨v', r⟩ := p
    simp only [hv] at h ⊢
    split at h
    · rename_i hr
      cases h
      rw [if_pos hr]
    · cases h

/-! ## ABI definitions -/

/-- The reader looks at the tokens one after the other: with more tokens it does the same, except where it missed one. -/
def Streams {α : Type} (r : TokReader α) : Prop :=
  ∀ a ts rest, (∀ b ts', r a ts = .ok (b, ts') → ts'.length < ts.length ∧ r a (ts ++ rest) = .ok (b, ts' ++ rest)) ∧
    ∀ e, r a ts = .error e → e = noToken ∨ r a (ts ++ rest) = .error e

theorem getString_streams (ts rest : List Tok) :
    (∀ b ts', getString ts = .ok (b, ts') → ts'.length < ts.length ∧ getString (ts ++ rest) = .ok (b, ts' ++ rest)) ∧
    ∀ e, getString ts = .error e → e = noToken ∨ getString (ts ++ rest) = .error e := by
  cases ts with
  | nil => exact ⟨fun b ts' h => (by cases h), fun e h => .inl (by cases h; rfl)⟩
  | cons t ts => cases t <;> simp [getString]

theorem streams_str : Streams strFromJson := fun _ ts rest => getString_streams ts rest

theorem streams_map {α β : Type} {f : List Tok → Res (α × List Tok)} {g : α → Res β}
    (h : ∀ ts rest, (∀ b ts', f ts = .ok (b, ts') → ts'.length < ts.length ∧ f (ts ++ rest) = .ok (b, ts' ++ rest)) ∧
      ∀ e, f ts = .error e → e = noToken ∨ f (ts ++ rest) = .error e) :
    ∀ ts rest, (∀ b ts', (f ts >>= fun p => (g p.1).map (·, p.2)) = .ok (b, ts') → ts'.length < ts.length ∧
        (f (ts ++ rest) >>= fun p => (g p.1).map (·, p.2)) = .ok (b, ts' ++ rest)) ∧
      ∀ e, (f ts >>= fun p => (g p.1).map (·, p.2)) = .error e → e = noToken ∨ (f (ts ++ rest) >>= fun p => (g p.1).map (·, p.2)) = .error e := by
  intro ts rest
  obtain ⟨h1, h2⟩ := h ts rest
  cases hf : f ts with
  | error e' =>
    refine ⟨fun b ts' h => (by cases h), fun e h => ?_⟩
    cases h
    rcases h2 _ hf with h | h
    · exact .inl h
    · right; rw [h]; rfl
  | ok p =>
    obtain ⟨a, ts'⟩ := p
    obtain ⟨h3, h4⟩ := h1 _ _ hf
    rw [h4]
    cases hg : g a with
    | error e' =>
      refine ⟨fun b ts' h => ?_, fun e h => .inr ?_⟩
      · simp [bind_ok, hg, Except.map] at h
      · simpa [bind_ok, hg, Except.map] using h
    | ok b' =>
      refine ⟨fun b ts'' h => ?_, fun e h => ?_⟩
      · simp [bind_ok, hg, Except.map] at h ⊢
        obtain ⟨rfl, rfl⟩ := h
        exact ⟨h3, rfl, rfl⟩
      · simp [bind_ok, hg, Except.map] at h

theorem streams_name : Streams nameFromJson := fun _ => streams_map (g := fun s => .ok (hashName s)) getString_streams

theorem streams_uint64 : Streams uint64FromJson := by
  intro a ts rest
  have := streams_map (g := fun s => (fromJsonInt ⟨false, 64⟩ s).map Int.toNat) getString_streams ts rest
  have e : uint64FromJson a = fun ts => getString ts >>= fun p => ((fromJsonInt ⟨false, 64⟩ p.1).map Int.toNat).map (·, p.2) := by
    funext ts
    unfold uint64FromJson
    cases getString ts with
    | error e => rfl
    | ok p =>
      obtain ⟨s, ts'⟩ := p
      simp only [bind_ok]
      cases fromJsonInt ⟨false, 64⟩ s <;> rfl
  rw [e]
  exact this

theorem streams_member {α β : Type} {get : α → β} {set : α → β → α} {r : TokReader β} (h : Streams r) : Streams (member get set r) :=
  fun a => streams_map (g := fun b => .ok (set a b)) (h (get a))

theorem streams_pair : Streams pairFromJson := fun a ts rest => ⟨fun b ts' h => (by cases h), fun e h => .inr (by cases h; rfl)⟩

theorem vecLoop_streams {α : Type} {d : α} {r : TokReader α} (h : Streams r) (rest : List Tok) : ∀ (n N : Nat) (acc : List α) (ts : List Tok),
    ts.length < n → (ts ++ rest).length < N →
    (∀ b ts', vecLoop d r n acc ts = .ok (b, ts') → ts'.length < ts.length ∧ vecLoop d r N acc (ts ++ rest) = .ok (b, ts' ++ rest)) ∧
    ∀ e, vecLoop d r n acc ts = .error e → e = noToken ∨ vecLoop d r N acc (ts ++ rest) = .error e
  | 0, _, _, _, hn, _ => by omega
  | _, 0, _, _, _, hN => by omega
  | n + 1, N + 1, acc, [], _, _ => ⟨fun b ts' h => (by cases h), fun e h => .inl (by cases h; rfl)⟩
  | n + 1, N + 1, acc, t :: ts, hn, hN => by
    by_cases ht : t = .endArr
    · subst ht
      simp [vecLoop]
    · have e1 : ∀ m ts, vecLoop d r (m + 1) acc (t :: ts) = r d (t :: ts) >>= fun p => vecLoop d r m (acc ++ [p.1]) p.2 := by
        intro m ts
        rw [vecLoop]
        exact ht
      rw [List.cons_append, e1, e1]
      obtain ⟨h1, h2⟩ := h d (t :: ts) rest
      rw [List.cons_append] at h1 h2
      cases hr : r d (t :: ts) with
      | error e' =>
        refine ⟨fun b ts' h => (by cases h), fun e h => ?_⟩
        cases h
        rcases h2 _ hr with h | h
        · exact .inl h
        · right; rw [h]; rfl
      | ok p =>
        obtain ⟨a, ts'⟩ := p
        obtain ⟨h3, h4⟩ := h1 _ _ hr
        rw [h4, bind_ok, bind_ok]
        simp only [List.length_cons, List.length_append, List.cons_append] at hn hN h3
        obtain ⟨k1, k2⟩ := vecLoop_streams h rest n N (acc ++ [a]) ts' (by omega) (by simp; omega)
        refine ⟨fun b ts'' h => ?_, k2⟩
        obtain ⟨k3, k4⟩ := k1 _ _ h
        exact ⟨by simp; omega, k4⟩

theorem streams_vec {α : Type} {d : α} {r : TokReader α} (h : Streams r) : Streams (vecFromJson d r) := by
  intro a ts rest
  cases ts with
  | nil => exact ⟨fun b ts' h => (by cases h), fun e h => .inl (by cases h; rfl)⟩
  | cons t ts =>
    cases t with
    | startArr =>
      obtain ⟨h1, h2⟩ := vecLoop_streams (d := d) h rest (ts.length + 1) ((ts ++ rest).length + 1) a ts (by omega) (by omega)
      refine ⟨fun b ts' h => ?_, h2⟩
      obtain ⟨h3, h4⟩ := h1 _ _ h
      exact ⟨by simp; omega, h4⟩
    | _ => exact ⟨fun b ts' h => (by cases h), fun e h => .inr h⟩

theorem skipLoop_streams (rest : List Tok) : ∀ (ts : List Tok) (d : Nat),
    (∀ ts', skipLoop d ts = .ok ts' → ts'.length < ts.length ∧ skipLoop d (ts ++ rest) = .ok (ts' ++ rest)) ∧
    ∀ e, skipLoop d ts = .error e → e = noToken ∨ skipLoop d (ts ++ rest) = .error e
  | [], d => ⟨fun ts' h => (by unfold skipLoop at h; cases h), fun e h => .inl (by unfold skipLoop at h; cases h; rfl)⟩
  | t :: ts, d => by
    have key : ∀ d', (∀ ts', skipLoop d' ts = .ok ts' → ts'.length < (t :: ts).length ∧ skipLoop d' (ts ++ rest) = .ok (ts' ++ rest)) ∧
        ∀ e, skipLoop d' ts = .error e → e = noToken ∨ skipLoop d' (ts ++ rest) = .error e := by
      intro d'
      obtain ⟨h1, h2⟩ := skipLoop_streams rest ts d'
      exact ⟨fun ts' h => ⟨by have := (h1 _ h).1; simp; omega, (h1 _ h).2⟩, h2⟩
    have hend : (∀ ts', (if d = 0 then Except.error Err.ub else if d = 1 then .ok ts else skipLoop (d - 1) ts) = .ok ts' →
          ts'.length < (t :: ts).length ∧ (if d = 0 then Except.error Err.ub else if d = 1 then .ok (ts ++ rest) else skipLoop (d - 1) (ts ++ rest)) = .ok (ts' ++ rest)) ∧
        ∀ e, (if d = 0 then Except.error Err.ub else if d = 1 then .ok ts else skipLoop (d - 1) ts) = .error e → e = noToken ∨
          (if d = 0 then Except.error Err.ub else if d = 1 then .ok (ts ++ rest) else skipLoop (d - 1) (ts ++ rest)) = .error e := by
      split
      · exact ⟨fun ts' h => (by cases h), fun e h => .inr h⟩
      · split
        · exact ⟨fun ts' h => (by cases h; simp), fun e h => (by cases h)⟩
        · exact key _
    have hleaf : (∀ ts', (if d = 0 then Except.ok ts else skipLoop d ts) = Except.ok ts' →
          ts'.length < (t :: ts).length ∧ (if d = 0 then Except.ok (ts ++ rest) else skipLoop d (ts ++ rest)) = .ok (ts' ++ rest)) ∧
        ∀ e, (if d = 0 then Except.ok ts else skipLoop d ts) = .error e → e = noToken ∨
          (if d = 0 then Except.ok (ts ++ rest) else skipLoop d (ts ++ rest)) = .error e := by
      split
      · exact ⟨fun ts' h => (by cases h; simp), fun e h => (by cases h)⟩
      · exact key _
    cases t <;> simp only [List.cons_append, skipLoop] <;> first | exact key _ | exact hend | exact hleaf

theorem objLoop_streams {α : Type} {f : Bytes → Option (TokReader α)} (h : ∀ k r, f k = some r → Streams r) (rest : List Tok) :
    ∀ (n N : Nat) (a : α) (ts : List Tok), ts.length < n → (ts ++ rest).length < N →
    (∀ b ts', objLoop f n a ts = .ok (b, ts') → ts'.length < ts.length ∧ objLoop f N a (ts ++ rest) = .ok (b, ts' ++ rest)) ∧
    ∀ e, objLoop f n a ts = .error e → e = noToken ∨ objLoop f N a (ts ++ rest) = .error e
  | 0, _, _, _, hn, _ => by omega
  | _, 0, _, _, _, hN => by omega
  | n + 1, N + 1, a, [], _, _ => ⟨fun b ts' h => (by cases h), fun e h => .inl (by cases h; rfl)⟩
  | n + 1, N + 1, a, t :: ts, hn, hN => by
    simp only [List.length_cons, List.length_append, List.cons_append] at hn hN
    cases t with
    | endObj => simp [objLoop]
    | key k =>
      simp only [List.cons_append, objLoop]
      cases hf : f k with
      | none =>
        simp only
        obtain ⟨h1, h2⟩ := skipLoop_streams rest ts 0
        cases hr : skipLoop 0 ts with
        | error e' =>
          refine ⟨fun b ts' h => (by cases h), fun e h => ?_⟩
          cases h
          rcases h2 _ hr with h | h
          · exact .inl h
          · right; rw [h]; rfl
        | ok ts' =>
          obtain ⟨h3, h4⟩ := h1 _ hr
          rw [h4, bind_ok, bind_ok]
          obtain ⟨k1, k2⟩ := objLoop_streams h rest n N a ts' (by omega) (by simp; omega)
          refine ⟨fun b ts'' h => ?_, k2⟩
          obtain ⟨k3, k4⟩ := k1 _ _ h
          exact ⟨by simp; omega, k4⟩
      | some r =>
        simp only
        obtain ⟨h1, h2⟩ := h k r hf a ts rest
        cases hr : r a ts with
        | error e' =>
          refine ⟨fun b ts' h => (by cases h), fun e h => ?_⟩
          cases h
          rcases h2 _ hr with h | h
          · exact .inl h
          · right; rw [h]; rfl
        | ok p =>
          obtain ⟨b', ts'⟩ := p
          obtain ⟨h3, h4⟩ := h1 _ _ hr
          rw [h4, bind_ok, bind_ok]
          obtain ⟨k1, k2⟩ := objLoop_streams h rest n N b' ts' (by omega) (by simp; omega)
          refine ⟨fun b ts'' h => ?_, k2⟩
          obtain ⟨k3, k4⟩ := k1 _ _ h
          exact ⟨by simp; omega, k4⟩
    | _ => exact ⟨fun b ts' h => (by cases h), fun e h => .inr h⟩

theorem streams_obj {α : Type} {f : Bytes → Option (TokReader α)} (h : ∀ k r, f k = some r → Streams r) : Streams (objFromJson f) := by
  intro a ts rest
  cases ts with
  | nil => exact ⟨fun b ts' h => (by cases h), fun e h => .inl (by cases h; rfl)⟩
  | cons t ts =>
    cases t with
    | startObj =>
      obtain ⟨h1, h2⟩ := objLoop_streams h rest (ts.length + 1) ((ts ++ rest).length + 1) a ts (by omega) (by omega)
      refine ⟨fun b ts' h => ?_, h2⟩
      obtain ⟨h3, h4⟩ := h1 _ _ h
      exact ⟨by simp; omega, h4⟩
    | _ => exact ⟨fun b ts' h => (by cases h), fun e h => .inr h⟩

/-- closes `f k = some r → Streams r` for a chain of conditions -/
macro "streams_keys" lems:term,* : tactic => `(tactic| (
  intro k r hk
  simp only [typeKey, fieldKey, structKey, actionKey, tableKey, clauseKey, errorKey, variantKey, abiKey] at hk
  repeat' split at hk
  all_goals first
    | (injection hk with hk; subst hk; first $[| exact streams_member $lems]*)
    | cases hk))

theorem streams_type : Streams (objFromJson typeKey) := streams_obj (by streams_keys streams_str)
theorem streams_field : Streams (objFromJson fieldKey) := streams_obj (by streams_keys streams_str)
theorem streams_struct : Streams (objFromJson structKey) := streams_obj (by streams_keys streams_str, streams_vec streams_field)
theorem streams_action : Streams (objFromJson actionKey) := streams_obj (by streams_keys streams_str, streams_name)
theorem streams_table : Streams (objFromJson tableKey) := streams_obj (by streams_keys streams_str, streams_name, streams_vec streams_str)
theorem streams_clause : Streams (objFromJson clauseKey) := streams_obj (by streams_keys streams_str)
theorem streams_errorMessage : Streams (objFromJson errorKey) := streams_obj (by streams_keys streams_str, streams_uint64)
theorem streams_variant : Streams (objFromJson variantKey) := streams_obj (by streams_keys streams_str, streams_vec streams_str)
theorem streams_abi : Streams (objFromJson abiKey) := streams_obj (by
  streams_keys streams_str, streams_vec streams_type, streams_vec streams_struct, streams_vec streams_action, streams_vec streams_table,
    streams_vec streams_clause, streams_vec streams_errorMessage, streams_vec streams_pair, streams_vec streams_variant)

/-- With only the beginning of a document's tokens, no definition is read: what is reported is that a token is missing, or the error
every document beginning with these tokens gives. -/
theorem abiDef_cut {ts rest : List Tok} {v : JVal} (hr : rest ≠ []) (h : v.toks = ts ++ rest) :
    ∃ e, abiDefFromJson ts = .error e ∧ (e = noToken ∨ ∀ rest', abiDefFromJson (ts ++ rest') = .error e) := by
  unfold abiDefFromJson
  cases ht : objFromJson abiKey AbiDef.empty ts with
  | error e =>
    refine ⟨e, rfl, ?_⟩
    by_cases he : e = noToken
    · exact .inl he
    · right
      intro rest'
      rcases (streams_abi AbiDef.empty ts rest').2 e ht with h | h
      · exact absurd h he
      · rw [h]; rfl
  | ok p =>
    obtain ⟨D, ts'⟩ := p
    exfalso
    obtain ⟨-, h2⟩ := (streams_abi AbiDef.empty ts rest).1 _ _ ht
    obtain ⟨g, h3, -⟩ := definedJ_abi
    have := h3 v AbiDef.empty []
    rw [List.append_nil, h, h2] at this
    cases hg : g AbiDef.empty v with
    | error e => rw [hg] at this; cases this
    | ok a =>
      rw [hg] at this
      simp only [Except.map, Except.ok.injEq, Prod.mk.injEq] at this
      exact hr (List.append_eq_nil_iff.1 this.2).2

theorem abiDef_cut_defined {ts rest : List Tok} {v : JVal} (hr : rest ≠ []) (h : v.toks = ts ++ rest) :
    ∃ e, abiDefFromJson ts = .error e ∧ e ≠ .ub ∧ (e = noToken ∨ ∀ rest', abiDefFromJson (ts ++ rest') = .error e) := by
  obtain ⟨e, h1, h2⟩ := abiDef_cut hr h
  refine ⟨e, h1, ?_, h2⟩
  rcases h2 with rfl | h2
  · decide
  · rintro rfl
    have := h2 rest
    rw [← h] at this
    exact defined_abiDefFromJson v this

/-! ## The ordered conversion -/

/-- the state with more tokens -/
def OState.more (s : OState) (rest : List Tok) : OState := { s with toks := s.toks ++ rest }

/-- A function of the state that looks at the tokens one after the other. -/
def StreamsO (f : OState → Res OState) (s : OState) (rest : List Tok) : Prop :=
  (∀ t, f s = .ok t → f (s.more rest) = .ok (t.more rest)) ∧ ∀ e, f s = .error e → e = noToken ∨ f (s.more rest) = .error e

theorem streams_objectO (T : Table) (s : OState) (e : OFrame) (K : List OFrame) (fs : List Field) (rest : List Tok) :
    StreamsO (fun s => objectO T s e K fs) s rest := by
  obtain ⟨ts, out, ins, stack, skipped, pending⟩ := s
  unfold StreamsO objectO OState.more
  cases ts with
  | nil => exact ⟨fun t h => (by cases h), fun e h => .inl (by cases h; rfl)⟩
  | cons t ts =>
    simp only [List.cons_append]
    cases t with
    | endObj =>
      simp only
      cases incInt e.pos with
      | error => exact ⟨fun t h => (by cases h), fun e h => .inr h⟩
      | ok pos =>
        simp only [bind_ok]
        repeat' split
        all_goals first
          | exact ⟨fun t h => (by cases h), fun e h => .inr h⟩
          | exact ⟨fun t h => (by cases h; rfl), fun e h => (by cases h)⟩
    | key k =>
      simp only
      cases incInt e.pos with
      | error => exact ⟨fun t h => (by cases h), fun e h => .inr h⟩
      | ok pos =>
        simp only [bind_ok]
        repeat' split
        all_goals first
          | exact ⟨fun t h => (by cases h), fun e h => .inr h⟩
          | exact ⟨fun t h => (by cases h; rfl), fun e h => (by cases h)⟩
    | _ =>
      simp only
      repeat' split
      all_goals first
          | exact ⟨fun t h => (by cases h), fun e h => .inr h⟩
          | exact ⟨fun t h => (by cases h; rfl), fun e h => (by cases h)⟩

theorem streams_startO (T : Table) (L : Leaves) (s : OState) (allow : Bool) (ty : Ptr) (rest : List Tok) :
    StreamsO (fun s => startO T L s allow ty) s rest := by
  have hobj : ∀ s' : OState, ∀ fs, StreamsO (fun s => objectO T s { type := ty, allow := allow } s.stack fs) s' rest :=
    fun s' fs => streams_objectO T s' _ s'.stack fs rest
  obtain ⟨ts, out, ins, stack, skipped, pending⟩ := s
  unfold StreamsO startO OState.more
  cases T.get ty with
  | none => exact ⟨fun t h => (by cases h), fun e h => .inr h⟩
  | some d =>
    cases d with
    | extension p => exact ⟨fun t h => (by cases h; rfl), fun e h => (by cases h)⟩
    | «alias» p => exact ⟨fun t h => (by cases h), fun e h => .inr h⟩
    | struct fs =>
      cases ts with
      | nil => exact ⟨fun t h => (by cases h), fun e h => .inl (by cases h; rfl)⟩
      | cons t ts =>
        cases t with
        | startObj => exact hobj ⟨ts, out, ins, stack, skipped, none⟩ fs
        | _ => exact ⟨fun t h => (by cases h), fun e h => .inr h⟩
    | builtin b =>
      cases ts with
      | nil => exact ⟨fun t h => (by cases h), fun e h => .inl (by cases h; rfl)⟩
      | cons t ts =>
        cases t with
        | bool x =>
          simp only [List.cons_append]
          cases L.toBin b (.bool x) with
          | error => exact ⟨fun t h => (by cases h), fun e h => .inr h⟩
          | ok y => exact ⟨fun t h => (by cases h; rfl), fun e h => (by cases h)⟩
        | str x =>
          simp only [List.cons_append]
          cases L.toBin b (.str x) with
          | error => exact ⟨fun t h => (by cases h), fun e h => .inr h⟩
          | ok y => exact ⟨fun t h => (by cases h; rfl), fun e h => (by cases h)⟩
        | _ => exact ⟨fun t h => (by cases h), fun e h => .inr h⟩
    | _ =>
      cases ts with
      | nil => exact ⟨fun t h => (by cases h), fun e h => (by first | exact .inl (by cases h; rfl) | exact .inr h)⟩
      | cons t ts =>
        cases t <;> first
          | exact ⟨fun t h => (by cases h), fun e h => .inr h⟩
          | exact ⟨fun t h => (by cases h; rfl), fun e h => (by cases h)⟩

theorem streams_resumeO (T : Table) (s : OState) (e : OFrame) (K : List OFrame) (rest : List Tok) :
    StreamsO (fun s => resumeO T s e K) s rest := by
  have hobj := fun fs => streams_objectO T s e K fs rest
  obtain ⟨ts, out, ins, stack, skipped, pending⟩ := s
  unfold StreamsO at hobj ⊢
  unfold resumeO
  unfold OState.more at hobj ⊢
  cases T.get e.type with
  | none => exact ⟨fun t h => (by cases h), fun e h => .inr h⟩
  | some d =>
    cases d with
    | struct fs => exact hobj fs
    | array p =>
      cases ts with
      | nil => exact ⟨fun t h => (by cases h), fun e h => .inl (by cases h; rfl)⟩
      | cons t ts =>
        simp only [List.cons_append]
        cases incInt e.pos with
        | error => cases t <;> exact ⟨fun t h => (by cases h), fun e h => .inr h⟩
        | ok pos => cases t <;> exact ⟨fun t h => (by cases h; rfl), fun e h => (by cases h)⟩
    | variant alts =>
      simp only
      cases incInt e.pos with
      | error => exact ⟨fun t h => (by cases h), fun e h => .inr h⟩
      | ok pos =>
        simp only [bind_ok]
        cases ts with
        | nil => exact ⟨fun t h => (by cases h), fun e h => .inl (by cases h; rfl)⟩
        | cons t ts =>
          simp only [List.cons_append]
          cases t with
          | str name =>
            simp only
            split
            · cases findAlt name alts 0 with
              | none => exact ⟨fun t h => (by cases h), fun e h => .inr h⟩
              | some q =>
                simp only
                cases varuint32ToBin q.1 with
                | error => exact ⟨fun t h => (by cases h), fun e h => .inr h⟩
                | ok n => exact ⟨fun t h => (by cases h; rfl), fun e h => (by cases h)⟩
            · repeat' split
              all_goals first
                | exact ⟨fun t h => (by cases h), fun e h => .inr h⟩
                | exact ⟨fun t h => (by cases h; rfl), fun e h => (by cases h)⟩
          | _ =>
            simp only
            repeat' split
            all_goals first
              | exact ⟨fun t h => (by cases h), fun e h => .inr h⟩
              | exact ⟨fun t h => (by cases h; rfl), fun e h => (by cases h)⟩
    | _ => exact ⟨fun t h => (by cases h), fun e h => .inr h⟩

theorem streams_stepO (T : Table) (L : Leaves) (s : OState) (rest : List Tok) :
    (stepO T L s = .ok none → stepO T L (s.more rest) = .ok none) ∧
    (∀ t, stepO T L s = .ok (some t) → stepO T L (s.more rest) = .ok (some (t.more rest))) ∧
    ∀ e, stepO T L s = .error e → e = noToken ∨ stepO T L (s.more rest) = .error e := by
  have lift : ∀ (f : OState → Res OState), StreamsO f s rest →
      ((do return some (← f s)) = Except.ok (ε := Err) (none : Option OState) → (do return some (← f (s.more rest))) = Except.ok (ε := Err) (none : Option OState)) ∧
      (∀ t, (do return some (← f s)) = Except.ok (ε := Err) (some t) → (do return some (← f (s.more rest))) = Except.ok (ε := Err) (some (t.more rest))) ∧
      ∀ e, (do return some (← f s)) = Except.error (α := Option OState) e → e = noToken ∨ (do return some (← f (s.more rest))) = Except.error (α := Option OState) e := by
    rintro f ⟨h1, h2⟩
    cases hf : f s with
    | error e' =>
      refine ⟨fun h => (by cases h), fun t h => (by cases h), fun e h => ?_⟩
      cases h
      rcases h2 _ hf with h | h
      · exact .inl h
      · right; rw [h]; rfl
    | ok t =>
      rw [h1 t hf]
      exact ⟨fun h => (by cases h), fun t h => (by cases h; rfl), fun e h => (by cases h)⟩
  unfold stepO
  have e1 : (s.more rest).pending = s.pending := rfl
  have e2 : (s.more rest).stack = s.stack := rfl
  rw [e1, e2]
  cases hp : s.pending with
  | some q => exact lift _ (streams_startO T L s q.1 q.2 rest)
  | none =>
    cases hK : s.stack with
    | nil => exact ⟨fun h => h, fun t h => (by cases h), fun e h => (by cases h)⟩
    | cons e K =>
      simp only
      split
      · exact lift _ (streams_resumeO T s e K rest)
      · exact ⟨fun h => (by cases h), fun t h => (by cases h), fun e h => .inr h⟩

theorem streams_iter (T : Table) (L : Leaves) (rest : List Tok) : ∀ (n : Nat) (s : OState) (r : Res OState), iter (stepO T L) n s = some r →
    (∀ t, r = .ok t → iter (stepO T L) n (s.more rest) = some (.ok (t.more rest))) ∧
    ∀ e, r = .error e → e = noToken ∨ iter (stepO T L) n (s.more rest) = some (.error e)
  | 0, s, r, h => by cases h
  | n + 1, s, r, h => by
    obtain ⟨h1, h2, h3⟩ := streams_stepO T L s rest
    unfold iter at h ⊢
    cases hs : stepO T L s with
    | error e' =>
      rw [hs] at h
      cases h
      refine ⟨fun t h => (by cases h), fun e h => ?_⟩
      cases h
      rcases h3 _ hs with h | h
      · exact .inl h
      · right; rw [h]
    | ok q =>
      cases q with
      | none =>
        rw [hs] at h
        cases h
        rw [h1 hs]
        exact ⟨fun t h => (by cases h; rfl), fun e h => (by cases h)⟩
      | some t =>
        rw [hs] at h
        rw [h2 t hs]
        exact streams_iter T L rest n t r h

/-- With only the beginning of a document's tokens, what is reported is that a token is missing, or the error every document
beginning with these tokens gives. -/
theorem ordered_cut {T : Table} {L : Leaves} {ty : Ptr} {ts : List Tok} {r : Res Bytes} (h : TokensToBin T L ty ts r) :
    (∀ b, r = .ok b → ∀ rest, rest ≠ [] → TokensToBin T L ty (ts ++ rest) (.error .expected_end)) ∧
    ∀ e, r = .error e → e = noToken ∨ ∀ rest, TokensToBin T L ty (ts ++ rest) (.error e) := by
  obtain ⟨r', ⟨n, h1⟩, rfl⟩ := h
  have key := fun rest => streams_iter T L rest n _ _ h1
  cases r' with
  | error e' =>
    refine ⟨fun b h => (by cases h), fun e h => ?_⟩
    cases h
    by_cases he : e' = noToken
    · exact .inl he
    · right
      intro rest
      rcases (key rest).2 _ rfl with h | h
      · exact absurd h he
      · exact ⟨_, ⟨n, h⟩, rfl⟩
  | ok s =>
    have hk := fun rest => (key rest).1 s rfl
    by_cases hs : s.toks = []
    · refine ⟨fun b _ rest hr => ⟨_, ⟨n, hk rest⟩, ?_⟩, fun e h => ?_⟩
      · show _ = finishO (s.more rest)
        rw [finishO, if_neg (by show s.toks ++ rest ≠ []; simp [hr])]
      · change finishO s = _ at h
        rw [finishO, if_pos hs] at h
        cases h
    · refine ⟨fun b h => ?_, fun e h => .inr fun rest => ⟨_, ⟨n, hk rest⟩, ?_⟩⟩
      · change finishO s = _ at h
        rw [finishO, if_neg hs] at h
        cases h
      · change finishO s = _ at h
        rw [finishO, if_neg hs] at h
        cases h
        show _ = finishO (s.more rest)
        rw [finishO, if_neg (by show s.toks ++ rest ≠ []; simp [hs])]
end Abieos
