import Verif.Proofs.Encodes
/-! # C29, C30, C35, C36, C37: what the two JSON to binary conversions compute

`Spec/Encoding.lean` says what the encoding of a document is (`Encodes`), when the members of its objects are in ABI order
(`InOrder`), and when two documents say the same to the reorderable conversion (`Same`). All theorems here hold for any
scalar serializers `L`, any resolved type table and any document. -/
namespace Abieos

open Spec

section
variable {T : Table} {L : Leaves}

/-! ## Helper lemmas -/

theorem encFields_mono {E E' : Bool → Ptr → JVal → Bytes → Prop} (h : ∀ a p v b, E a p v b → E' a p v b) {allow : Bool}
    {ms : List (Bytes × JVal)} : ∀ (fs : List Field) (b : Bytes), EncFields T E allow ms fs b → EncFields T E' allow ms fs b := by
  intro fs
  induction fs with
  | nil => intro b h; exact h
  | cons f fs ih =>
    rintro b (h1 | ⟨x, b1, b2, h1, h2, h3, h4⟩)
    · exact .inl h1
    · exact .inr ⟨x, b1, b2, h1, h _ _ _ _ h2, ih _ h3, h4⟩

theorem encElems_mono {E E' : JVal → Bytes → Prop} (h : ∀ v b, E v b → E' v b) :
    ∀ (l : List JVal) (b : Bytes), EncElems E l b → EncElems E' l b := by
  intro l
  induction l with
  | nil => intro b h; exact h
  | cons v l ih => rintro b ⟨b1, b2, h1, h2, h3⟩; exact ⟨b1, b2, h _ _ h1, ih _ h2, h3⟩

theorem enc_succ : ∀ (n : Nat) (allow : Bool) (ty : Ptr) (v : JVal) (b : Bytes), Enc T L n allow ty v b → Enc T L (n + 1) allow ty v b := by
  intro n
  induction n with
  | zero => intro allow ty v b h; exact h.elim
  | succ n ih =>
    intro allow ty v b h
    unfold Enc at h ⊢
    split at h
    · exact h
    · exact h.imp id fun ⟨h1, b', h2, h3⟩ => ⟨h1, b', h2, ih _ _ _ _ h3⟩
    · exact ih _ _ _ _ h
    · obtain ⟨ms, h1, h2⟩ := h
      exact ⟨ms, h1, encFields_mono ih _ _ h2⟩
    · obtain ⟨l, c, b', h1, h2, h3, h4, h5⟩ := h
      exact ⟨l, c, b', h1, h2, h3, encElems_mono (ih _ _) _ _ h4, h5⟩
    · obtain ⟨name, x, i, f, c, b', h1, h2, h3, h4, h5⟩ := h
      exact ⟨name, x, i, f, c, b', h1, h2, h3, ih _ _ _ _ h4, h5⟩
    · exact h

theorem enc_mono {n m : Nat} (hnm : n ≤ m) {allow : Bool} {ty : Ptr} {v : JVal} {b : Bytes} (h : Enc T L n allow ty v b) :
    Enc T L m allow ty v b := by
  induction hnm with
  | refl => exact h
  | step _ ih => exact enc_succ _ _ _ _ _ ih

theorem inOrderTo_pred : ∀ (n : Nat) (ty : Ptr) (v : JVal), InOrderTo T (n + 1) ty v → InOrderTo T n ty v := by
  intro n
  induction n with
  | zero => intro ty v _; trivial
  | succ n ih =>
    intro ty v h
    unfold InOrderTo at h ⊢
    split at h
    · exact ih _ _ h
    · exact ih _ _ h
    · exact ⟨h.1, fun f hf x hx => ih _ _ (h.2 f hf x hx)⟩
    · exact fun x hx => ih _ _ (h x hx)
    · exact fun i f hf => ih _ _ (h i f hf)
    · trivial

theorem inOrderTo_le {n m : Nat} (hnm : n ≤ m) {ty : Ptr} {v : JVal} (h : InOrderTo T m ty v) : InOrderTo T n ty v := by
  induction hnm with
  | refl => exact h
  | step _ ih => exact ih (inOrderTo_pred _ _ _ h)

theorem map_eq_ok {α β : Type} {f : α → β} {r : Res α} {b : β} : (.ok b = r.map f) ↔ ∃ a, r = .ok a ∧ f a = b := by
  cases r with
  | error e => simp [Except.map]
  | ok a => simp [Except.map, eq_comm]

/-- Number of steps that suffices for every recursion over the document. -/
theorem reorderable_iff (wf : T.WF) {ty : Ptr} (hty : T.Valid ty) (v : JVal) (r : Res Bytes) (n : Nat)
    (hn : 3 * (norm v).height + 2 < n) :
    JsonToBinReorderable T L ty v r ↔
      r = if levels v ≤ maxStack then (encR T L n true ty (norm v)).map (·.1) else .error .unspecific_syntax_error := by
  unfold JsonToBinReorderable
  rw [jsonToJvalue_eq]
  by_cases hl : levels v ≤ maxStack
  · rw [if_pos hl, if_pos hl]
    exact jvalueToBin_iff wf hty (norm v) n hn r
  · rw [if_neg hl, if_neg hl]

/-! ## C36: both conversions compute the encoding -/

/-- `json_to_bin_reorderable` yields the bytes `b` exactly when the document has at most 128 levels and `b` is its
encoding; in the encoding, an array is its element count followed by its elements. -/
theorem c36_reorderable_is_encoding (wf : T.WF) (hsm : Small T) {ty : Ptr} (hty : T.Valid ty) (v : JVal) (b : Bytes) :
    JsonToBinReorderable T L ty v (.ok b) ↔ levels v ≤ maxStack ∧ Encodes T L ty v b := by
  constructor
  · intro h
    have hn : 3 * (norm v).height + 2 < 3 * (norm v).height + 3 := by omega
    rw [reorderable_iff wf hty v _ _ hn] at h
    split at h
    · rename_i hl
      obtain ⟨⟨b', sk⟩, h1, rfl⟩ := map_eq_ok.1 h
      exact ⟨hl, _, (encR_iff_enc hsm _ _ _ _ _).1 ⟨sk, h1⟩⟩
    · simp at h
  · rintro ⟨hl, n, h⟩
    have h' := enc_mono (Nat.le_max_left n (3 * (norm v).height + 3)) h
    obtain ⟨sk, e⟩ := (encR_iff_enc hsm _ _ _ _ _).2 h'
    rw [reorderable_iff wf hty v _ (max n (3 * (norm v).height + 3)) (by omega), if_pos hl, e]
    rfl

/-- `json_to_bin` yields the bytes `b` exactly when the members of all objects are in ABI order without unknown keys, at
most 128 containers are open at the same time, and `b` is the encoding of the document. So splicing the array lengths in
afterwards gives the same bytes as writing each array as its count followed by its elements. -/
theorem c36_ordered_is_encoding (wf : T.WF) (hx : ExtTail T) (hdf : DistinctFields T) (hsm : Small T) {ty : Ptr}
    (hty : T.Valid ty) (v : JVal) (b : Bytes) :
    JsonToBin T L ty v (.ok b) ↔ openDepth v ≤ maxStack ∧ InOrder T ty v ∧ Encodes T L ty v b := by
  constructor
  · intro h
    have key : ∀ n, 3 * v.height + 2 < n → Enc T L n true ty v b ∧ InOrderTo T n ty v ∧ openDepth v ≤ maxStack := by
      intro n hn
      have h' := (jsonToBin_iff wf hty v n hn _).1 h
      obtain ⟨⟨ps, sk⟩, h1, rfl⟩ := map_eq_ok.1 h'
      obtain ⟨g1, g2, g3⟩ := (encO_iff_enc hx hdf hsm _ _ _ _ _ _).1 ⟨ps, sk, h1, rfl⟩
      exact ⟨g1, g2, by omega⟩
    obtain ⟨g1, -, g3⟩ := key (3 * v.height + 3) (by omega)
    refine ⟨g3, ?_, _, g1⟩
    intro n
    exact inOrderTo_le (Nat.le_max_left n (3 * v.height + 3)) (key _ (by omega)).2.1
  · rintro ⟨h1, h2, n, h3⟩
    have h' := enc_mono (Nat.le_max_left n (3 * v.height + 3)) h3
    obtain ⟨ps, sk, e, rfl⟩ := (encO_iff_enc hx hdf hsm _ 0 _ _ _ _).2 ⟨h', h2 _, .inl (by omega)⟩
    rw [jsonToBin_iff wf hty v (max n (3 * v.height + 3)) (by omega), e]
    rfl

/-! ## C29: the two conversions agree -/

theorem openDepth_le_levels (v : JVal) : openDepth v ≤ levels v := by
  induction v using JVal.ind with
  | hnull => simp [openDepth, levels]
  | hbool => simp [openDepth, levels]
  | hstr => simp [openDepth, levels]
  | harr l ih =>
    rw [openDepth, levels]
    have : openDepth.go l ≤ levels.go l := by
      rw [openDepth_le_go]
      intro v hv
      have := ih v hv
      have := levels_go_le hv
      omega
    omega
  | hobj l ih =>
    cases l with
    | nil => simp [openDepth, levels]
    | cons m l =>
      rw [openDepth_obj (by simp), levels]
      have : openDepth.goM (m :: l) ≤ levels.goM (m :: l) := by
        rw [openDepth_le_goM]
        intro x hx
        have := ih x.1 x.2 hx
        have := levels_goM_le (k := x.1) (v := x.2) hx
        omega
      omega

/-- What the ordered conversion accepts, the reorderable one accepts with the same bytes, if the document is not too deep
for it. -/
theorem c29_ordered_to_reorderable (wf : T.WF) (hx : ExtTail T) (hdf : DistinctFields T) (hsm : Small T) {ty : Ptr}
    (hty : T.Valid ty) (v : JVal) (b : Bytes) (hl : levels v ≤ maxStack) (h : JsonToBin T L ty v (.ok b)) :
    JsonToBinReorderable T L ty v (.ok b) :=
  (c36_reorderable_is_encoding wf hsm hty v b).2
    ⟨hl, ((c36_ordered_is_encoding wf hx hdf hsm hty v b).1 h).2.2⟩

/-- What the reorderable conversion accepts, the ordered one accepts with the same bytes, if members are in ABI order and
no key is unknown. -/
theorem c29_reorderable_to_ordered (wf : T.WF) (hx : ExtTail T) (hdf : DistinctFields T) (hsm : Small T) {ty : Ptr}
    (hty : T.Valid ty) (v : JVal) (b : Bytes) (ho : InOrder T ty v) (h : JsonToBinReorderable T L ty v (.ok b)) :
    JsonToBin T L ty v (.ok b) := by
  obtain ⟨h1, h2⟩ := (c36_reorderable_is_encoding wf hsm hty v b).1 h
  have := openDepth_le_levels v
  exact (c36_ordered_is_encoding wf hx hdf hsm hty v b).2 ⟨by omega, ho, h2⟩

/-! ## C37: repeated keys -/

theorem inOrder_uniqueKeys (hdf : DistinctFields T) : ∀ (n : Nat) (allow : Bool) (ty : Ptr) (v : JVal) (b : Bytes),
    Enc T L n allow ty v b → InOrderTo T n ty v → UniqueKeys v := by
  intro n
  induction n with
  | zero => intro allow ty v b h; exact h.elim
  | succ n ih =>
    intro allow ty v b h ho
    unfold Enc at h
    unfold InOrderTo at ho
    split at h
    · obtain ⟨s, rfl, -⟩ := h; cases s <;> trivial
    · rename_i p hk
      simp only [hk] at ho
      rcases h with ⟨rfl, -⟩ | ⟨-, b', -, h⟩
      · trivial
      · exact ih _ _ _ _ h ho
    · rename_i p hk
      simp only [hk] at ho
      exact ih _ _ _ _ h ho
    · rename_i fs hk
      obtain ⟨ms, rfl, h⟩ := h
      simp only [hk] at ho
      have hnd := ho.1.nodup (hdf _ _ hk)
      refine ⟨hnd, uniqueKeys_goM.2 ?_⟩
      intro k x hm
      have hk' : k ∈ fs.map (·.name) := ho.1.subset (List.mem_map.2 ⟨_, hm, rfl⟩)
      obtain ⟨f, hf, rfl⟩ := List.mem_map.1 hk'
      have hin := ho.2 f hf x hm
      have hlast : lastValue f.name ms = some x := by
        obtain ⟨pre, post, rfl⟩ := List.append_of_mem hm
        apply lastValue_append_new
        simp only [List.map_append, List.map_cons] at hnd
        have := (List.nodup_append.1 hnd).2.1
        exact (List.nodup_cons.1 this).1
      have : ∀ (fs' : List Field) (b : Bytes), EncFields T (Enc T L n) allow ms fs' b → f ∈ fs' →
          ∃ a b, Enc T L n a f.type x b := by
        intro fs'
        induction fs' with
        | nil => intro b _ h; simp at h
        | cons g fs' ihf =>
          rintro b (⟨-, h, -⟩ | ⟨y, b1, b2, h1, h2, h3, -⟩) hg
          · have := (h f hg).2; rw [hlast] at this; simp at this
          · rcases List.mem_cons.1 hg with rfl | hg
            · rw [hlast] at h1
              simp only [Option.some.injEq] at h1
              subst h1
              exact ⟨_, _, h2⟩
            · exact ihf _ h3 hg
      obtain ⟨a, b', he⟩ := this fs b h hf
      exact ih _ _ _ _ he hin
    · rename_i p hk
      obtain ⟨l, c, b', rfl, -, -, h, -⟩ := h
      simp only [hk] at ho
      refine uniqueKeys_go.2 ?_
      have : ∀ (l : List JVal) (b : Bytes), EncElems (Enc T L n false p) l b → ∀ x ∈ l, ∃ b, Enc T L n false p x b := by
        intro l
        induction l with
        | nil => simp
        | cons v l ihl =>
          rintro b ⟨b1, b2, h1, h2, -⟩ x hx
          rcases List.mem_cons.1 hx with rfl | hx
          · exact ⟨_, h1⟩
          · exact ihl _ h2 x hx
      intro x hx
      obtain ⟨b, hb⟩ := this l _ h x hx
      exact ih _ _ _ _ hb (ho x hx)
    · rename_i alts hk
      obtain ⟨name, x, i, f, c, b', rfl, hf, -, h, -⟩ := h
      simp only [hk] at ho
      exact ⟨trivial, ih _ _ _ _ h (ho i f hf), trivial⟩
    · exact h.elim

/-- The ordered conversion refuses every document in which a key is repeated in an object. -/
theorem c37_ordered_refuses_repeated_keys (wf : T.WF) (hx : ExtTail T) (hdf : DistinctFields T) (hsm : Small T) {ty : Ptr}
    (hty : T.Valid ty) (v : JVal) (b : Bytes) (h : JsonToBin T L ty v (.ok b)) : UniqueKeys v := by
  obtain ⟨-, h1, n, h2⟩ := (c36_ordered_is_encoding wf hx hdf hsm hty v b).1 h
  exact inOrder_uniqueKeys hdf n _ _ _ _ h2 (h1 n)

/-! ## C30 and C37: order, unknown keys and earlier values do not matter to the reorderable conversion -/

theorem encRFields_same {E : Bool → Ptr → JVal → Res (Bytes × Bool)} {allow : Bool} {ms ms' : List (Bytes × JVal)}
    {S : Ptr → JVal → JVal → Prop} (hE : ∀ a f x y, S f x y → E a f (norm x) = E a f (norm y)) :
    ∀ (fs : List Field) (sk : Bool) (pos : Int),
      (∀ f ∈ fs, (lastValue f.name ms = none ∧ lastValue f.name ms' = none) ∨
        ∃ x y, lastValue f.name ms = some x ∧ lastValue f.name ms' = some y ∧ S f.type x y) →
      encRFields T E allow (norm.goM [] ms) fs sk pos = encRFields T E allow (norm.goM [] ms') fs sk pos := by
  intro fs
  induction fs with
  | nil => intro sk pos _; rfl
  | cons f fs ih =>
    intro sk pos h
    have ih' := fun sk pos => ih sk pos (fun g hg => h g (by simp [hg]))
    simp only [encRFields, norm_lookup]
    rcases h f (by simp) with ⟨h1, h2⟩ | ⟨x, y, h1, h2, h3⟩
    · simp only [h1, h2, Option.map_none, ih']
    · simp only [h1, h2, Option.map_some, hE _ _ _ _ h3, ih']

theorem encR_same : ∀ (n : Nat) (ty : Ptr) (v w : JVal), SameTo T n ty v w → ∀ (m : Nat) (allow : Bool),
    encR T L m allow ty (norm v) = encR T L m allow ty (norm w) := by
  intro n
  induction n with
  | zero => intro ty v w h m allow; cases h; rfl
  | succ n ih =>
    intro ty v w h m allow
    rcases h with rfl | h
    · rfl
    cases m with
    | zero => rfl
    | succ m =>
      split at h
      · rename_i p v w hk
        have hn : ∀ (k : Nat) (p : Ptr) (v w : JVal), SameTo T k p v w → v.isNull = w.isNull := by
          intro k
          induction k with
          | zero => rintro p v w rfl; rfl
          | succ k ihk =>
            rintro p v w (rfl | h)
            · rfl
            · split at h
              · exact ihk _ _ _ h
              · exact ihk _ _ _ h
              · rfl
              · rfl
              · rfl
              · exact h.elim
        rw [encR, encR]
        simp only [hk, norm_isNull, hn _ _ _ _ h, ih _ _ _ h]
      · rename_i p v w hk
        rw [encR, encR]
        simp only [hk, ih _ _ _ h]
      · rename_i fs ms ms' hk
        rw [encR, encR]
        simp only [hk, norm_obj]
        exact encRFields_same (S := SameTo T n) (fun a f x y hs => ih f x y hs m a) fs false _ h
      · rename_i p l l' hk
        rw [encR, encR]
        simp only [hk, norm_arr]
        have hlen := h.length_eq
        have : ∀ pos, encRElems (encR T L m false p) (l.map norm) pos = encRElems (encR T L m false p) (l'.map norm) pos := by
          clear hlen
          induction h with
          | nil => intro pos; rfl
          | cons h1 _ ihl => intro pos; simp only [List.map_cons, encRElems, ih _ _ _ h1, ihl]
        simp only [List.length_map, hlen, this]
      · rename_i alts name x name' y hk
        obtain ⟨rfl, h⟩ := h
        rw [encR, encR]
        rw [norm_arr, norm_arr]
        simp only [hk, List.map_cons, List.map_nil, show ∀ s, norm (.str s) = .str s from fun _ => rfl]
        split
        · rfl
        · rename_i i f hf
          rw [ih _ _ _ (h i f hf)]
      · exact h.elim

/-- If two documents give every field of every struct the same value - whatever the order of the members, earlier values
of the same key, and members the ABI does not mention - then `json_to_bin_reorderable` treats them alike: same bytes, or
same error. -/
theorem c30_same_documents_same_result (wf : T.WF) {ty : Ptr} (hty : T.Valid ty) (v w : JVal) (h : Same T ty v w)
    (hv : levels v ≤ maxStack) (hw : levels w ≤ maxStack) (r : Res Bytes) :
    JsonToBinReorderable T L ty v r ↔ JsonToBinReorderable T L ty w r := by
  obtain ⟨n, h⟩ := h
  let N := 3 * max (norm v).height (norm w).height + 3
  rw [reorderable_iff wf hty v r N (by omega), reorderable_iff wf hty w r N (by omega), if_pos hv, if_pos hw, encR_same n ty v w h]

theorem lastValue_mem {k : Bytes} {v : JVal} {l : List (Bytes × JVal)} (hnd : (l.map (·.1)).Nodup) :
    lastValue k l = some v ↔ (k, v) ∈ l := by
  induction l with
  | nil => simp [lastValue]
  | cons p l ih =>
    obtain ⟨a, b⟩ := p
    simp only [List.map_cons, List.nodup_cons] at hnd
    have ih := ih hnd.2
    simp only [lastValue, List.mem_cons, Prod.mk.injEq]
    cases hl : lastValue k l with
    | some x =>
      rw [hl] at ih
      simp only [Option.some.injEq] at ih ⊢
      constructor
      · intro e; exact .inr (ih.1 e)
      · rintro (⟨rfl, rfl⟩ | hm)
        · have : ¬ lastValue k l = none := by rw [hl]; simp
          rw [lastValue_none_iff] at this
          exact absurd hnd.1 this
        · exact ih.2 hm
    | none =>
      have hk := lastValue_none_iff.1 hl
      by_cases h : a = k
      · subst h
        simp only [if_true, Option.some.injEq, true_and]
        constructor
        · intro e; exact .inl e.symm
        · rintro (e | hm)
          · exact e.symm
          · exact absurd (List.mem_map.2 ⟨_, hm, rfl⟩) hk
      · simp only [if_neg h]
        constructor
        · intro h; simp at h
        · rintro (⟨rfl, -⟩ | hm)
          · exact absurd rfl h
          · exact absurd (List.mem_map.2 ⟨_, hm, rfl⟩) hk

/-- Permuting the members of an object with distinct keys. -/
theorem c30_permuted_members_same {ty : Ptr} {fs : List Field} (hk : T.get ty = some (.struct fs))
    {ms ms' : List (Bytes × JVal)} (hp : ms.Perm ms') (hnd : (ms.map (·.1)).Nodup) : Same T ty (.obj ms) (.obj ms') := by
  refine ⟨1, .inr ?_⟩
  simp only [hk]
  intro f _
  have hnd' : (ms'.map (·.1)).Nodup := (hp.map _).nodup_iff.1 hnd
  have : lastValue f.name ms = lastValue f.name ms' := by
    cases h : lastValue f.name ms with
    | none =>
      rw [lastValue_none_iff] at h
      rw [eq_comm, lastValue_none_iff]
      exact fun hm => h ((hp.map _).symm.subset hm)
    | some x =>
      rw [lastValue_mem hnd] at h
      rw [eq_comm, lastValue_mem hnd']
      exact hp.subset h
  rw [← this]
  cases h : lastValue f.name ms with
  | none => exact .inl ⟨rfl, rfl⟩
  | some x => exact .inr ⟨x, x, rfl, rfl, rfl⟩

/-- Adding a member that is no field of the struct, anywhere in the object. -/
theorem c30_unknown_member_same {ty : Ptr} {fs : List Field} (hk : T.get ty = some (.struct fs))
    (pre post : List (Bytes × JVal)) (k : Bytes) (x : JVal) (hu : ∀ f ∈ fs, f.name ≠ k) :
    Same T ty (.obj (pre ++ post)) (.obj (pre ++ (k, x) :: post)) := by
  refine ⟨1, .inr ?_⟩
  simp only [hk]
  intro f hf
  have : lastValue f.name (pre ++ (k, x) :: post) = lastValue f.name (pre ++ post) := by
    induction pre with
    | nil =>
      simp only [List.nil_append, lastValue]
      rw [if_neg (fun e => hu f hf e.symm)]
      cases lastValue f.name post <;> rfl
    | cons p pre ih => obtain ⟨a, b⟩ := p; simp only [List.cons_append, lastValue, ih]
  rw [this]
  cases h : lastValue f.name (pre ++ post) with
  | none => exact .inl ⟨rfl, rfl⟩
  | some x => exact .inr ⟨x, x, rfl, rfl, rfl⟩

/-- A value followed by a later value of the same key does not matter: the last value wins. -/
theorem c37_last_value_wins {ty : Ptr} {fs : List Field} (hk : T.get ty = some (.struct fs))
    (pre mid post : List (Bytes × JVal)) (k : Bytes) (x y : JVal) :
    Same T ty (.obj (pre ++ mid ++ (k, y) :: post)) (.obj (pre ++ (k, x) :: mid ++ (k, y) :: post)) := by
  refine ⟨1, .inr ?_⟩
  simp only [hk]
  intro f hf
  have : lastValue f.name (pre ++ (k, x) :: mid ++ (k, y) :: post) = lastValue f.name (pre ++ mid ++ (k, y) :: post) := by
    induction pre with
    | nil =>
      simp only [List.nil_append, List.cons_append, lastValue]
      by_cases hf : f.name = k
      · have : ¬ lastValue f.name (mid ++ (k, y) :: post) = none := by
          rw [lastValue_none_iff]; simp [hf]
        cases h : lastValue f.name (mid ++ (k, y) :: post) with
        | none => exact absurd h this
        | some z => rfl
      · rw [if_neg (fun e => hf e.symm)]
        cases lastValue f.name (mid ++ (k, y) :: post) <;> rfl
    | cons p pre ih =>
      obtain ⟨a, b⟩ := p
      simp only [List.cons_append, List.append_assoc, lastValue] at ih ⊢
      rw [ih]
  rw [this]
  cases h : lastValue f.name (pre ++ mid ++ (k, y) :: post) with
  | none => exact .inl ⟨rfl, rfl⟩
  | some x => exact .inr ⟨x, x, rfl, rfl, rfl⟩

/-- The changes may be made anywhere in the document: `Same` is a congruence. -/
theorem c30_same_congruence {ty : Ptr} {fs : List Field} (hk : T.get ty = some (.struct fs))
    (pre post : List (Bytes × JVal)) (k : Bytes) (x y : JVal) (hs : ∀ f ∈ fs, f.name = k → Same T f.type x y) :
    Same T ty (.obj (pre ++ (k, x) :: post)) (.obj (pre ++ (k, y) :: post)) := by
  have sameTo_succ : ∀ (n : Nat) (p : Ptr) (v w : JVal), SameTo T n p v w → SameTo T (n + 1) p v w := by
    intro n
    induction n with
    | zero => rintro p v w rfl; exact .inl rfl
    | succ n ih =>
      rintro p v w (rfl | h)
      · exact .inl rfl
      · right
        split at h
        · exact ih _ _ _ h
        · exact ih _ _ _ h
        · intro f hf
          rcases h f hf with h' | ⟨x, y, h1, h2, h3⟩
          · exact .inl h'
          · exact .inr ⟨x, y, h1, h2, ih _ _ _ h3⟩
        · exact h.imp fun _ _ => ih _ _ _
        · exact ⟨h.1, fun i f hf => ih _ _ _ (h.2 i f hf)⟩
        · exact h.elim
  have mono : ∀ {n m : Nat}, n ≤ m → ∀ {p v w}, SameTo T n p v w → SameTo T m p v w := by
    intro n m hnm p v w h
    induction hnm with
    | refl => exact h
    | step _ ih => exact sameTo_succ _ _ _ _ ih
  have : ∃ n, ∀ f ∈ fs, f.name = k → SameTo T n f.type x y := by
    clear hk
    induction fs with
    | nil => exact ⟨0, by simp⟩
    | cons f fs ih =>
      obtain ⟨n, hn⟩ := ih fun g hg => hs g (by simp [hg])
      by_cases h : f.name = k
      · obtain ⟨m, hm⟩ := hs f (by simp) h
        refine ⟨max n m, ?_⟩
        intro g hg e
        rcases List.mem_cons.1 hg with rfl | hg
        · exact mono (Nat.le_max_right _ _) hm
        · exact mono (Nat.le_max_left _ _) (hn g hg e)
      · refine ⟨n, ?_⟩
        intro g hg e
        rcases List.mem_cons.1 hg with rfl | hg
        · exact absurd e h
        · exact hn g hg e
  obtain ⟨n, hn⟩ := this
  refine ⟨n + 1, .inr ?_⟩
  simp only [hk]
  intro f hf
  by_cases h : f.name = k
  · have hcase : ∀ z, lastValue f.name (pre ++ (k, z) :: post) = match lastValue f.name post with
        | some u => some u
        | none => some z := by
      intro z
      induction pre with
      | nil =>
        simp only [List.nil_append, lastValue, if_pos h.symm]
        cases lastValue f.name post <;> rfl
      | cons p pre ih =>
        obtain ⟨a, b⟩ := p
        simp only [List.cons_append, lastValue, ih]
        cases lastValue f.name post <;> rfl
    rw [hcase, hcase]
    cases lastValue f.name post with
    | none => exact .inr ⟨x, y, rfl, rfl, hn f hf h⟩
    | some u => exact .inr ⟨u, u, rfl, rfl, by
        cases n with
        | zero => rfl
        | succ => exact .inl rfl⟩
  · have : lastValue f.name (pre ++ (k, x) :: post) = lastValue f.name (pre ++ (k, y) :: post) := by
      induction pre with
      | nil => simp only [List.nil_append, lastValue, if_neg (fun e : k = f.name => h e.symm)]
      | cons p pre ih => obtain ⟨a, b⟩ := p; simp only [List.cons_append, lastValue, ih]
    rw [this]
    cases lastValue f.name (pre ++ (k, y) :: post) with
    | none => exact .inl ⟨rfl, rfl⟩
    | some u => exact .inr ⟨u, u, rfl, rfl, by
        cases n with
        | zero => rfl
        | succ => exact .inl rfl⟩

theorem levels_drop (pre post : List (Bytes × JVal)) (k : Bytes) (x : JVal) :
    levels.goM (pre ++ post) ≤ levels.goM (pre ++ (k, x) :: post) := by
  induction pre with
  | nil => simp only [List.nil_append, levels.goM]; omega
  | cons p pre ih => obtain ⟨a, b⟩ := p; simp only [List.cons_append, levels.goM]; omega

/-- **C30**: permuting the members of an object with distinct keys does not change what `json_to_bin_reorderable` does. -/
theorem c30_permuted_members (wf : T.WF) {ty : Ptr} (hty : T.Valid ty) {fs : List Field} (hk : T.get ty = some (.struct fs))
    {ms ms' : List (Bytes × JVal)} (hp : ms.Perm ms') (hnd : (ms.map (·.1)).Nodup)
    (hv : levels (.obj ms) ≤ maxStack) (hw : levels (.obj ms') ≤ maxStack) (r : Res Bytes) :
    JsonToBinReorderable T L ty (.obj ms) r ↔ JsonToBinReorderable T L ty (.obj ms') r :=
  c30_same_documents_same_result wf hty _ _ (c30_permuted_members_same hk hp hnd) hv hw r

/-- **C30**: nor does a member that is no field of the struct, anywhere in the object. -/
theorem c30_unknown_member (wf : T.WF) {ty : Ptr} (hty : T.Valid ty) {fs : List Field} (hk : T.get ty = some (.struct fs))
    (pre post : List (Bytes × JVal)) (k : Bytes) (x : JVal) (hu : ∀ f ∈ fs, f.name ≠ k)
    (hw : levels (.obj (pre ++ (k, x) :: post)) ≤ maxStack) (r : Res Bytes) :
    JsonToBinReorderable T L ty (.obj (pre ++ post)) r ↔ JsonToBinReorderable T L ty (.obj (pre ++ (k, x) :: post)) r :=
  c30_same_documents_same_result wf hty _ _ (c30_unknown_member_same hk pre post k x hu)
    (Nat.le_trans (Nat.succ_le_succ (levels_drop pre post k x)) hw) hw r

/-- **C37**: of a repeated key the last value wins: an earlier value makes no difference to what `json_to_bin_reorderable` does. -/
theorem c37_reorderable_last_value_wins (wf : T.WF) {ty : Ptr} (hty : T.Valid ty) {fs : List Field} (hk : T.get ty = some (.struct fs))
    (pre mid post : List (Bytes × JVal)) (k : Bytes) (x y : JVal)
    (hw : levels (.obj (pre ++ (k, x) :: mid ++ (k, y) :: post)) ≤ maxStack) (r : Res Bytes) :
    JsonToBinReorderable T L ty (.obj (pre ++ mid ++ (k, y) :: post)) r ↔
      JsonToBinReorderable T L ty (.obj (pre ++ (k, x) :: mid ++ (k, y) :: post)) r :=
  c30_same_documents_same_result wf hty _ _ (c37_last_value_wins hk pre mid post k x y)
    (Nat.le_trans (Nat.succ_le_succ (by
      have := levels_drop pre (mid ++ (k, y) :: post) k x
      simpa using this)) hw) hw r

end

end Abieos
