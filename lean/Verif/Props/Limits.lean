import Verif.Props.Encode
import Verif.Proofs.RefineD
import Verif.Proofs.Decodes
import Verif.Proofs.OrderedLimit
/-! # C32 and C33: termination and nesting depth -/
namespace Abieos

open Spec

section
variable {T : Table} {L : Leaves}

/-! ## C32: termination -/

/-- Work left in the ordered conversion: eight per token, and a little for the call in progress. -/
def workO (T : Table) (s : OState) : Nat :=
  8 * s.toks.length + match s.pending with
    | some (_, p) => T.rank p
    | none => 4

theorem objectO_work {s s' : OState} {e : OFrame} {K : List OFrame} {fs : List Field} (hp : s.pending = none)
    (h : objectO T s e K fs = .ok s') : workO T s' < workO T s := by
  unfold objectO at h
  split at h
  · simp at h
  · rename_i ts hts
    rw [bind_eq_ok] at h
    obtain ⟨pos, -, h⟩ := h
    split at h
    · simp at h; subst h; simp [workO, hts, hp]
    · split at h
      · simp at h
      · split at h
        · split at h
          · simp at h; subst h; simp [workO, hts, hp]
          · simp at h
        · simp at h
  · rename_i k ts hts
    rw [bind_eq_ok] at h
    obtain ⟨pos, -, h⟩ := h
    split at h
    · simp at h
    · split at h
      · simp at h
      · split at h
        · simp at h; subst h; simp [workO, hts, hp]
        · simp at h
  · split at h
    · simp at h
    · split at h
      · simp at h
      · rename_i f _ _
        simp at h; subst h
        have := T.rank_le f.type
        simp [workO, hp]; omega

theorem startO_work (wf : T.WF) {s s' : OState} {a : Bool} {ty : Ptr} (hp : s.pending = some (a, ty))
    (h : startO T L s a ty = .ok s') : workO T s' < workO T s := by
  have hw : workO T s = 8 * s.toks.length + T.rank ty := by simp [workO, hp]
  unfold startO at h
  split at h
  · split at h
    · simp at h
    · rename_i hts
      rw [bind_eq_ok] at h; obtain ⟨y, -, h⟩ := h; simp at h; subst h; rw [hw]; simp [workO, hts]; omega
    · rename_i hts
      rw [bind_eq_ok] at h; obtain ⟨y, -, h⟩ := h; simp at h; subst h; rw [hw]; simp [workO, hts]; omega
    · simp at h
  · rename_i p hk
    obtain ⟨-, h1, h2⟩ := wf.optional hk
    split at h
    · simp at h
    · rename_i hts; simp at h; subst h; rw [hw]; simp [workO, hts]; omega
    · rename_i hts; simp at h; subst h; rw [hw]; simp [workO, hts]; omega
  · rename_i p hk
    obtain ⟨-, h1, h2⟩ := wf.extension hk
    simp at h; subst h; rw [hw]; simp [workO]; omega
  · split at h
    · simp at h
    · rename_i hts
      have := objectO_work (T := T) rfl h
      rw [hw]; simp [workO] at this; simp [workO, hts]; omega
    · simp at h
  · split at h
    · simp at h
    · rename_i hts; simp at h; subst h; rw [hw]; simp [workO, hts]; omega
    · simp at h
  · split at h
    · simp at h
    · rename_i hts; simp at h; subst h; rw [hw]; simp [workO, hts]; omega
    · simp at h
  · simp at h

theorem resumeO_work {s s' : OState} {e : OFrame} {K : List OFrame} (hp : s.pending = none)
    (h : resumeO T s e K = .ok s') : workO T s' < workO T s := by
  have hw : workO T s = 8 * s.toks.length + 4 := by simp [workO, hp]
  unfold resumeO at h
  split at h
  · exact objectO_work hp h
  · rename_i p _
    have := T.rank_le p
    split at h
    · simp at h
    · rename_i hts
      rw [bind_eq_ok] at h; obtain ⟨n, -, h⟩ := h; simp at h; subst h; rw [hw]; simp [workO, hts, hp]
    · rename_i hts
      rw [bind_eq_ok] at h; obtain ⟨n, -, h⟩ := h; simp at h; subst h; rw [hw]; simp [workO]; omega
  · rw [bind_eq_ok] at h; obtain ⟨pos, -, h⟩ := h
    split at h
    · simp at h
    · rename_i hts
      split at h
      · simp at h; subst h; rw [hw]; simp [workO, hts, hp]
      · simp at h
    · rename_i hts
      split at h
      · split at h
        · split at h
          · simp at h
          · rw [bind_eq_ok] at h; obtain ⟨n, -, h⟩ := h; simp at h; subst h; rw [hw]; simp [workO, hts, hp]
        · simp at h
      · split at h
        · split at h
          · simp at h
          · rename_i f _
            have := T.rank_le f.type
            simp at h; subst h; rw [hw]; simp [workO]; omega
        · simp at h
  · simp at h

theorem stepO_work (wf : T.WF) {s s' : OState} (h : stepO T L s = .ok (some s')) : workO T s' < workO T s := by
  unfold stepO at h
  split at h
  · rename_i hp
    rw [bind_eq_ok] at h
    obtain ⟨s2, h1, h2⟩ := h
    cases h2
    exact startO_work wf hp h1
  · rename_i hp
    split at h
    · simp at h
    · split at h
      · rw [bind_eq_ok] at h
        obtain ⟨s2, h1, h2⟩ := h
        cases h2
        exact resumeO_work hp h1
      · simp at h

theorem stepO_ends (wf : T.WF) : ∀ (n : Nat) (s : OState), workO T s < n → ∃ r, iter (stepO T L) n s = some r := by
  intro n
  induction n with
  | zero => intro s h; omega
  | succ n ih =>
    intro s h
    unfold iter
    cases hs : stepO T L s with
    | error e => exact ⟨_, rfl⟩
    | ok o =>
      cases o with
      | none => exact ⟨_, rfl⟩
      | some s' =>
        have := stepO_work wf hs
        exact ih s' (by omega)

/-- `json_to_bin` ends on every sequence of tokens - that of a well-formed document or not - with exactly one result. -/
theorem c32_ordered_terminates (wf : T.WF) (ty : Ptr) (ts : List Tok) : ∃! r, TokensToBin T L ty ts r := by
  obtain ⟨r, hr⟩ := stepO_ends (L := L) wf _ (initO ty ts) (Nat.lt_succ_self _)
  refine ⟨r.bind finishO, ⟨r, ⟨_, hr⟩, rfl⟩, ?_⟩
  rintro r' ⟨r2, h1, rfl⟩
  rw [Ends.unique ⟨_, hr⟩ h1]

/-- It takes at most eight steps for each token, and three more. -/
theorem c32_ordered_step_bound (wf : T.WF) (ty : Ptr) (ts : List Tok) :
    ∃ r, iter (stepO T L) (8 * ts.length + 3) (initO ty ts) = some r := by
  have := T.rank_le ty
  exact stepO_ends wf _ _ (by simp [workO, initO]; omega)

/-- `json_to_bin_reorderable` ends on every document with exactly one result. -/
theorem c32_reorderable_terminates (wf : T.WF) {ty : Ptr} (hty : T.Valid ty) (v : JVal) :
    ∃! r, JsonToBinReorderable T L ty v r := by
  have h := fun r => reorderable_iff (L := L) wf hty v r _ (Nat.lt_succ_self _)
  exact ⟨_, (h _).2 rfl, fun r hr => (h r).1 hr⟩

/-- `bin_to_json` ends on every byte string with exactly one result. -/
theorem c32_bin_to_json_terminates (wf : T.WF) {ty : Ptr} (hty : T.Valid ty) (bin : Bytes) : ∃! r, BinToJson T L ty bin r := by
  have h := fun r => binToJson_iff (L := L) wf hty bin _ (Nat.lt_succ_self _) r
  exact ⟨_, (h _).2 rfl, fun r hr => (h r).1 hr⟩

/-! ## C33: the stacks are bounded -/

/-- At most 129 frames, and at most 128 while a call is in progress. -/
def BoundedO (s : OState) : Prop := s.stack.length ≤ maxStack + 1 ∧ (s.pending ≠ none → s.stack.length ≤ maxStack)

theorem objectO_stack {s s' : OState} {e : OFrame} {K : List OFrame} {fs : List Field}
    (h : objectO T s e K fs = .ok s') : (s'.pending = s.pending ∧ (s'.stack = K ∨ ∃ e', s'.stack = e' :: K)) ∨
      (0 ≤ e.pos ∧ s'.stack = s.stack) := by
  unfold objectO at h
  split at h
  · simp at h
  · rw [bind_eq_ok] at h
    obtain ⟨pos, -, h⟩ := h
    split at h
    · simp at h; subst h; exact .inl ⟨rfl, .inl rfl⟩
    · split at h
      · simp at h
      · split at h
        · split at h
          · simp at h; subst h; exact .inl ⟨rfl, .inl rfl⟩
          · simp at h
        · simp at h
  · rw [bind_eq_ok] at h
    obtain ⟨pos, -, h⟩ := h
    split at h
    · simp at h
    · split at h
      · simp at h
      · split at h
        · simp at h; subst h; exact .inl ⟨rfl, .inr ⟨_, rfl⟩⟩
        · simp at h
  · split at h
    · simp at h
    · split at h
      · simp at h
      · simp at h; subst h; exact .inr ⟨by omega, rfl⟩

theorem startO_bounded {s s' : OState} {a : Bool} {ty : Ptr} (hb : s.stack.length ≤ maxStack)
    (h : startO T L s a ty = .ok s') : BoundedO s' := by
  unfold startO at h
  split at h
  · split at h
    · simp at h
    · rw [bind_eq_ok] at h; obtain ⟨y, -, h⟩ := h; simp at h; subst h; exact ⟨by simp; omega, by simp⟩
    · rw [bind_eq_ok] at h; obtain ⟨y, -, h⟩ := h; simp at h; subst h; exact ⟨by simp; omega, by simp⟩
    · simp at h
  · split at h
    · simp at h
    · simp at h; subst h; exact ⟨by simp; omega, by simp⟩
    · simp at h; subst h; exact ⟨by simp; omega, fun _ => hb⟩
  · simp at h; subst h; exact ⟨by simp; omega, fun _ => hb⟩
  · split at h
    · simp at h
    · rcases objectO_stack h with ⟨h1, h2 | ⟨e', h2⟩⟩ | ⟨h1, -⟩
      · exact ⟨by rw [h2]; omega, fun h => absurd h1 h⟩
      · exact ⟨by rw [h2]; simpa using hb, fun h => absurd h1 h⟩
      · simp at h1
    · simp at h
  · split at h
    · simp at h
    · simp at h; subst h; exact ⟨by simpa using hb, by simp⟩
    · simp at h
  · split at h
    · simp at h
    · simp at h; subst h; exact ⟨by simpa using hb, by simp⟩
    · simp at h
  · simp at h

theorem resumeO_bounded {s s' : OState} {e : OFrame} {K : List OFrame} (hs : s.stack = e :: K) (hb : s.stack.length ≤ maxStack)
    (h : resumeO T s e K = .ok s') : s'.stack.length ≤ maxStack := by
  have hK : K.length + 1 ≤ maxStack := by rw [hs] at hb; simpa using hb
  unfold resumeO at h
  split at h
  · rcases objectO_stack h with ⟨h1, h2 | ⟨e', h2⟩⟩ | ⟨-, h2⟩
    · rw [h2]; omega
    · rw [h2]; simpa using hK
    · rw [h2]; exact hb
  · split at h
    · simp at h
    · rw [bind_eq_ok] at h; obtain ⟨n, -, h⟩ := h; simp at h; subst h; simp; omega
    · rw [bind_eq_ok] at h; obtain ⟨n, -, h⟩ := h; simp at h; subst h; simpa using hK
  · rw [bind_eq_ok] at h; obtain ⟨pos, -, h⟩ := h
    split at h
    · simp at h
    · split at h
      · simp at h; subst h; simp; omega
      · simp at h
    · split at h
      · split at h
        · split at h
          · simp at h
          · rw [bind_eq_ok] at h; obtain ⟨n, -, h⟩ := h; simp at h; subst h; simpa using hK
        · simp at h
      · split at h
        · split at h
          · simp at h
          · simp at h; subst h; simpa using hK
        · simp at h
  · simp at h

theorem stepO_bounded {s s' : OState} (hb : BoundedO s) (h : stepO T L s = .ok (some s')) : BoundedO s' := by
  unfold stepO at h
  split at h
  · rename_i hp
    rw [bind_eq_ok] at h
    obtain ⟨s2, h1, h2⟩ := h
    cases h2
    exact startO_bounded (hb.2 (by simp [hp])) h1
  · split at h
    · simp at h
    · rename_i hs
      split at h
      · rename_i hl
        rw [bind_eq_ok] at h
        obtain ⟨s2, h1, h2⟩ := h
        cases h2
        have := resumeO_bounded hs hl h1
        exact ⟨by omega, fun _ => this⟩
      · simp at h

/-- During `json_to_bin`, on any sequence of tokens, the stack never holds more than 129 entries. -/
theorem c33_ordered_stack_bounded (ty : Ptr) (ts : List Tok) (s : OState) (h : Reach (stepO T L) (initO ty ts) s) :
    s.stack.length ≤ 129 := by
  have : ∀ {a b : OState}, Reach (stepO T L) a b → BoundedO a → BoundedO b := by
    intro a b h
    induction h with
    | refl => exact id
    | head hs _ ih => exact fun hb => ih (stepO_bounded hb hs)
  exact (this h ⟨by simp [initO], by simp [initO]⟩).1

/-- At most 129 frames, and at most 128 while a call is in progress. -/
def BoundedD (s : DState) : Prop := s.stack.length ≤ maxStack + 1 ∧ (s.pending ≠ none → s.stack.length ≤ maxStack)

theorem stepD_bounded {s s' : DState} (hb : BoundedD s) (h : stepD T L s = .ok (some s')) : BoundedD s' := by
  unfold stepD at h
  split at h
  · rename_i a ty hp
    rw [bind_eq_ok] at h
    obtain ⟨s2, h1, h2⟩ := h
    cases h2
    have hb := hb.2 (by simp [hp])
    unfold startD at h1
    split at h1
    · rw [bind_eq_ok] at h1; obtain ⟨y, -, h⟩ := h1; simp at h; subst h; exact ⟨by simp; omega, by simp⟩
    · rw [bind_eq_ok] at h1; obtain ⟨⟨y, r⟩, -, h⟩ := h1
      simp only at h
      split at h
      · simp at h; subst h; exact ⟨by simp; omega, fun _ => hb⟩
      · simp at h; subst h; exact ⟨by simp; omega, by simp⟩
    · simp at h1; subst h1; exact ⟨by simp; omega, fun _ => hb⟩
    · simp at h1; subst h1; exact ⟨by simpa using hb, by simp⟩
    · rw [bind_eq_ok] at h1; obtain ⟨y, -, h⟩ := h1; simp at h; subst h; exact ⟨by simpa using hb, by simp⟩
    · simp at h1; subst h1; exact ⟨by simpa using hb, by simp⟩
    · simp at h1
  · split at h
    · rename_i hl
      split at h
      · simp at h
      · rename_i e K hs
        rw [bind_eq_ok] at h
        obtain ⟨s2, h1, h2⟩ := h
        cases h2
        have hK : K.length + 1 ≤ maxStack := by rw [hs] at hl; simpa using hl
        suffices s'.stack.length ≤ maxStack from ⟨by omega, fun _ => this⟩
        unfold resumeD at h1
        split at h1
        · rw [bind_eq_ok] at h1; obtain ⟨pos, -, h⟩ := h1
          split at h
          · split at h
            · simp at h
            · split at h
              · simp at h
              · split at h
                · simp at h; subst h; simpa using hK
                · simp at h; subst h; simpa using hK
          · simp at h; subst h; simp; omega
        · rw [bind_eq_ok] at h1; obtain ⟨pos, -, h⟩ := h1
          split at h
          · simp at h; subst h; simpa using hK
          · simp at h; subst h; simp; omega
        · rw [bind_eq_ok] at h1; obtain ⟨pos, -, h⟩ := h1
          split at h
          · rw [bind_eq_ok] at h; obtain ⟨⟨i, r⟩, -, h⟩ := h
            simp only at h
            split at h
            · simp at h
            · simp at h; subst h; simpa using hK
          · simp at h; subst h; simp; omega
        · simp at h1
    · simp at h

/-- During `bin_to_json`, on any input, the stack never holds more than 129 entries. -/
theorem c33_bin_to_json_stack_bounded (ty : Ptr) (bin : Bytes) (s : DState) (h : Reach (stepD T L) (initD ty bin) s) :
    s.stack.length ≤ 129 := by
  have : ∀ {a b : DState}, Reach (stepD T L) a b → BoundedD a → BoundedD b := by
    intro a b h
    induction h with
    | refl => exact id
    | head hs _ ih => exact fun hb => ih (stepD_bounded hb hs)
  exact (this h ⟨by simp [initD], by simp [initD]⟩).1

/-! ## C33: what is refused for depth, and what is not -/

/-- `bin_to_json` succeeds exactly on what nests at most 128 containers. -/
theorem c33_bin_to_json_exact (wf : T.WF) (hx : ExtTail T) (hsm : Small T) {ty : Ptr} (hty : T.Valid ty) (bin t rest : Bytes) :
    BinToJson T L ty bin (.ok (t, rest)) ↔ ∃ d, d ≤ 128 ∧ Decodes T L ty bin t rest d := by
  constructor
  · intro h
    have h := (binToJson_iff (L := L) wf hty bin _ (Nat.lt_succ_self _) _).1 h
    obtain ⟨d, h1, h2⟩ := dec_of_ok wf hx _ _ _ _ _ _ _ hty h.symm
    exact ⟨d, by simp [maxStack] at h2; omega, _, h1⟩
  · rintro ⟨d, hd, n, h⟩
    have h := decR_mono (Nat.le_max_left n (3 * maxStack + 3)) h
    rw [binToJson_iff (L := L) wf hty bin (max n (3 * maxStack + 3)) (by omega), dec_of_dec wf hsm _ 0 _ _ _ _ _ _ h, limited,
      if_pos (by simp [maxStack]; omega)]

/-- `bin_to_json` refuses what nests more than 128 containers, and says why. -/
theorem c33_bin_to_json_too_deep (wf : T.WF) (hsm : Small T) {ty : Ptr} (hty : T.Valid ty) (bin t rest : Bytes) (d : Nat)
    (hd : 128 < d) (h : Decodes T L ty bin t rest d) : BinToJson T L ty bin (.error .recursion_limit_reached) := by
  obtain ⟨n, h⟩ := h
  have h := decR_mono (Nat.le_max_left n (3 * maxStack + 3)) h
  rw [binToJson_iff (L := L) wf hty bin (max n (3 * maxStack + 3)) (by omega), dec_of_dec wf hsm _ 0 _ _ _ _ _ _ h, limited,
      if_neg (by simp [maxStack]; omega)]

/-- `json_to_bin` refuses a document that keeps more than 128 containers open, and otherwise has an encoding, and says
why. (By `c36_ordered_is_encoding`, one that keeps at most 128 open is not refused.) -/
theorem c33_ordered_too_deep (wf : T.WF) (hx : ExtTail T) (hdf : DistinctFields T) (hsm : Small T) {ty : Ptr} (hty : T.Valid ty)
    (v : JVal) (b : Bytes) (h : Encodes T L ty v b) (ho : InOrder T ty v) :
    if openDepth v ≤ 128 then JsonToBin T L ty v (.ok b) else JsonToBin T L ty v (.error .recursion_limit_reached) := by
  split
  · rename_i hd
    exact (c36_ordered_is_encoding wf hx hdf hsm hty v b).2 ⟨hd, ho, h⟩
  · rename_i hd
    obtain ⟨n, h⟩ := h
    have h := enc_mono (Nat.le_max_left n (3 * v.height + 3)) h
    rw [jsonToBin_iff wf hty v (max n (3 * v.height + 3)) (by omega)]
    rcases encO_okOrDeep hdf hsm _ 0 _ _ _ _ h (ho _) with ⟨⟨ps, sk⟩, e⟩ | e
    · obtain ⟨-, -, h3⟩ := (encO_iff_enc hx hdf hsm _ _ _ _ _ _).1 ⟨ps, sk, e, rfl⟩
      have : maxStack = 128 := rfl
      omega
    · rw [e]; rfl

end

end Abieos
