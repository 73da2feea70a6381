import Verif.Model.Ship
import Verif.Model.ShipStatus
import Verif.Spec.Ship
import Verif.Props.StaticValue
import Verif.Props.KeyFormat
/-!
**C65.** The state-history protocol: messages, traces and rows are read back as they were written, traces nested to any depth; requests and
the status, byte by byte; the names of transaction states.
-/
namespace Abieos
open Spec
namespace Ship

mutual
/-- no extension is mentioned in the type -/
def plain : CTy → Bool
  | .leaf _ => true
  | .struct _ => true
  | .vec t => plain t
  | .opt t => plain t
  | .variant ts => plainAll ts
  | .ext _ => false
def plainAll : List CTy → Bool
  | [] => true
  | t :: ts => plain t && plainAll ts
end

theorem plain_mem : ∀ {ts : List CTy}, plainAll ts = true → ∀ t ∈ ts, plain t = true
  | [], _ => by simp
  | t :: ts, h => by
    rw [plainAll, Bool.and_eq_true] at h
    exact List.forall_mem_cons.2 ⟨h.1, plain_mem h.2⟩

theorem mem_of_lookup {α β : Type} [BEq α] [LawfulBEq α] {a : α} {b : β} : ∀ {l : List (α × β)}, l.lookup a = some b → (a, b) ∈ l
  | [], h => by simp at h
  | (c, d) :: l, h => by
    rw [List.lookup_cons] at h
    by_cases e : a = c
    · subst e; simp at h; subst h; simp
    · have : (a == c) = false := by simpa using e
      rw [this] at h
      exact List.mem_cons_of_mem _ (mem_of_lookup h)

theorem plain_noExt {P : Prog} (hP : ∀ s ∈ P, ∀ f ∈ s.2, plain f.2 = true) {t u : CTy} (h : Uses P t u) : plain t = true → plain u = true := by
  induction h with
  | self => exact id
  | vec _ ih => exact fun h => ih (by simpa [plain] using h)
  | opt _ ih => exact fun h => ih (by simpa [plain] using h)
  | ext _ ih => intro h; simp [plain] at h
  | alt hm _ ih => exact fun h => ih (plain_mem (by simpa [plain] using h) _ hm)
  | @field n m t u hm _ ih =>
    intro _
    refine ih ?_
    unfold Prog.fields at hm
    cases hl : P.lookup n with
    | none => rw [hl] at hm; simp at hm
    | some fs =>
      rw [hl] at hm
      exact hP _ (mem_of_lookup hl) _ hm

theorem prog_plain : ∀ s ∈ prog, ∀ f ∈ s.2, plain f.2 = true := by decide +kernel

theorem noExt {t : CTy} (h : plain t = true) : NoExt prog t := fun u hu => by
  have := plain_noExt prog_plain hu h
  simp [plain] at this

/-- **C65.** The structs of the protocol have different names, and so have the members of each. -/
theorem c65_names : (prog.map (·.1)).Nodup ∧ ∀ s ∈ prog, (s.2.map (·.1)).Nodup := by decide +kernel

/-- **C65.** A message, trace, row or any other value of the protocol that was written is read back, what follows it is left, and nothing else
can be read from these bytes. -/
theorem c65_round_trip {t : CTy} {v : SVal} {b : Bytes} (h : Stored prog t v b) (rest : Bytes) :
    convertToBinS prog t v [] = .ok b ∧ ∀ w r, FromBin prog t (b ++ rest) w r ↔ w = v ∧ r = rest := by
  obtain ⟨n, hn⟩ := stored_read h
  have hf : FromBin prog t (b ++ rest) v rest := ⟨n, hn n (Nat.le_refl n) rest⟩
  refine ⟨by simpa using c57_written h [], fun w r => ⟨fun h' => ?_, ?_⟩⟩
  · obtain ⟨h1, h2⟩ := fromBin_unique h' hf
    exact ⟨h1, h2⟩
  · rintro ⟨rfl, rfl⟩; exact hf

theorem variants_plain : ∀ t ∈ variants, plain t = true := by decide +kernel

/-- **C65.** Whatever is read as one of the protocol's variants or structs (from less than 2^32 bytes, in whatever form) is a value that is written
again, and read back from that. -/
theorem c65_rewrite {t : CTy} (ht : t ∈ variants ∨ ∃ n, t = .struct n) {s r : Bytes} {v : SVal} (hs : s.length < 2 ^ 32) (h : FromBin prog t s v r) :
    (∃ p, s = p ++ r) ∧ ∃ b, Stored prog t v b ∧ convertToBinS prog t v [] = .ok b ∧ FromBin prog t b v [] := by
  have hp : plain t = true := by
    rcases ht with h | ⟨n, rfl⟩
    · exact variants_plain _ h
    · simp [plain]
  obtain ⟨h1, h2⟩ := c57_within (noExt hp) h
  obtain ⟨b, h3, h4⟩ := h2 hs
  exact ⟨h1, b, h3, h4, c57_rewrite (noExt hp) hs h h4⟩

/-! ## transaction states -/

/-- **C65.** The text of a transaction's state is its name, and the state of a text is the one of this name; other states and texts are refused. -/
theorem c65_status (n : UInt8) (s : Bytes) :
    (statusToString n = .ok s ↔ (n, s) ∈ Spec.Ship.states) ∧ (getTransactionStatus s = .ok n ↔ (n, s) ∈ Spec.Ship.states) := by
  constructor
  · unfold statusToString Spec.Ship.states
    simp only [List.mem_cons, Prod.mk.injEq, List.not_mem_nil, or_false]
    by_cases h0 : n = 0
    · subst h0; simp [eq_comm]
    by_cases h1 : n = 1
    · subst h1; simp [eq_comm]
    by_cases h2 : n = 2
    · subst h2; simp [eq_comm]
    by_cases h3 : n = 3
    · subst h3; simp [eq_comm]
    by_cases h4 : n = 4
    · subst h4; simp [eq_comm]
    simp [h0, h1, h2, h3, h4]
  · unfold getTransactionStatus Spec.Ship.states
    simp only [List.mem_cons, Prod.mk.injEq, List.not_mem_nil, or_false]
    constructor
    · intro h
      split at h
      · injection h with h; exact .inl ⟨h.symm, ‹_›⟩
      split at h
      · injection h with h; exact .inr (.inl ⟨h.symm, ‹_›⟩)
      split at h
      · injection h with h; exact .inr (.inr (.inl ⟨h.symm, ‹_›⟩))
      split at h
      · injection h with h; exact .inr (.inr (.inr (.inl ⟨h.symm, ‹_›⟩)))
      split at h
      · injection h with h; exact .inr (.inr (.inr (.inr ⟨h.symm, ‹_›⟩)))
      cases h
    · rintro (⟨rfl, rfl⟩ | ⟨rfl, rfl⟩ | ⟨rfl, rfl⟩ | ⟨rfl, rfl⟩ | ⟨rfl, rfl⟩) <;> with_unfolding_all rfl

/-! ## requests and the status -/

theorem fields_of {n : Bytes} {fs : List (Bytes × CTy)} (h : (n, fs) ∈ prog) : prog.fields n = fs := by
  have : ∀ (l : Prog), (l.map (·.1)).Nodup → (n, fs) ∈ l → l.fields n = fs := by
    intro l
    induction l with
    | nil => simp
    | cons x l ih =>
      intro hd hm
      obtain ⟨a, b⟩ := x
      unfold Prog.fields
      rw [List.lookup_cons]
      rcases List.mem_cons.1 hm with e | hm
      · injection e with e1 e2; subst e1; subst e2; simp
      · simp only [List.map_cons, List.nodup_cons] at hd
        have : n ≠ a := fun e => hd.1 (List.mem_map.2 ⟨(n, fs), hm, e⟩)
        have : (n == a) = false := by simpa using this
        rw [this]
        exact ih hd.2 hm
  exact this prog c65_names.1 h

theorem leaf_iff {k : Builtin} {v : SVal} {b : Bytes} : Stored prog (.leaf k) v b ↔ v = .leaf b ∧ LeafBytes k b := by
  constructor
  · intro h; cases h; exact ⟨rfl, ‹_›⟩
  · rintro ⟨rfl, h⟩; exact .leaf h

theorem cons_iff {n : Bytes} {t : CTy} {fs : List (Bytes × CTy)} {l : List SVal} {b : Bytes} :
    StoredFields prog ((n, t) :: fs) l b ↔ ∃ v l' c d, l = v :: l' ∧ b = c ++ d ∧ Stored prog t v c ∧ StoredFields prog fs l' d := by
  constructor
  · intro h; cases h; exact ⟨_, _, _, _, rfl, rfl, ‹_›, ‹_›⟩
  · rintro ⟨v, l', c, d, rfl, rfl, h1, h2⟩; exact .cons h1 h2

theorem nil_iff {l : List SVal} {b : Bytes} : StoredFields prog [] l b ↔ l = [] ∧ b = [] := by
  constructor
  · intro h; cases h; exact ⟨rfl, rfl⟩
  · rintro ⟨rfl, rfl⟩; exact .nil

theorem struct_iff {n : Bytes} {fs : List (Bytes × CTy)} (hn : (n, fs) ∈ prog) {v : SVal} {b : Bytes} :
    Stored prog (.struct n) v b ↔ ∃ l, v = .struct l ∧ StoredFields prog fs l b := by
  rw [← fields_of hn]
  constructor
  · intro h; cases h; exact ⟨_, rfl, ‹_›⟩
  · rintro ⟨l, rfl, h⟩; exact .struct h

theorem position_iff {v : SVal} {b : Bytes} : Stored prog (.struct (str "block_position")) v b ↔
    ∃ p : Spec.Ship.Position, v = p.value ∧ b = p.num ++ p.id := by
  rw [struct_iff (fs := block_position.2) (by simp [prog, block_position])]
  simp only [block_position, cons_iff, nil_iff, leaf_iff, LeafBytes]
  constructor
  · rintro ⟨l, rfl, v1, l1, c1, d1, rfl, rfl, ⟨rfl, h1⟩, v2, l2, c2, d2, rfl, rfl, ⟨rfl, h2⟩, rfl, rfl⟩
    exact ⟨⟨c1, c2, h1, h2⟩, rfl, by simp⟩
  · rintro ⟨p, rfl, rfl⟩
    exact ⟨_, rfl, _, _, p.num, p.id, rfl, rfl, ⟨rfl, p.num_length⟩, _, _, p.id, [], rfl, by simp, ⟨rfl, p.id_length⟩, rfl, rfl⟩

theorem positions_iff : ∀ {l : List SVal} {b : Bytes}, StoredAll prog (.struct (str "block_position")) l b ↔
    ∃ ps : List Spec.Ship.Position, l = ps.map (·.value) ∧ b = (ps.map fun p => p.num ++ p.id).flatten
  | [], b => by
    constructor
    · intro h; cases h; exact ⟨[], rfl, rfl⟩
    · rintro ⟨ps, h1, rfl⟩
      cases ps with
      | nil => exact .nil
      | cons p ps => simp at h1
  | v :: l, b => by
    constructor
    · intro h
      cases h with
      | cons h1 h2 =>
        obtain ⟨p, rfl, rfl⟩ := position_iff.1 h1
        obtain ⟨ps, rfl, rfl⟩ := positions_iff.1 h2
        exact ⟨p :: ps, rfl, by simp⟩
    · rintro ⟨ps, h1, rfl⟩
      cases ps with
      | nil => simp at h1
      | cons p ps =>
        simp only [List.map_cons, List.cons.injEq] at h1
        obtain ⟨rfl, rfl⟩ := h1
        rw [List.map_cons, List.flatten_cons]
        exact .cons (position_iff.2 ⟨p, rfl, rfl⟩) (positions_iff.2 ⟨ps, rfl, rfl⟩)

theorem flag_iff {b : Bytes} : LeafBytes .bool b ↔ ∃ x : Bool, b = Spec.Ship.flag x := by
  simp only [LeafBytes, Spec.Ship.flag]
  constructor
  · rintro (rfl | rfl)
    · exact ⟨false, rfl⟩
    · exact ⟨true, rfl⟩
  · rintro ⟨x, rfl⟩; cases x <;> simp

theorem variant_iff {ts : List CTy} {v : SVal} {b : Bytes} : Stored prog (.variant ts) v b ↔
    ∃ i t x h c, ts[i]? = some t ∧ Size i h ∧ Stored prog t x c ∧ v = .alt i x ∧ b = h ++ c := by
  constructor
  · intro h; cases h; exact ⟨_, _, _, _, _, ‹_›, ‹_›, ‹_›, rfl, rfl⟩
  · rintro ⟨i, t, x, h, c, h1, h2, h3, rfl, rfl⟩; exact .alt h1 h2 h3

theorem vec_stored_iff {t : CTy} {v : SVal} {b : Bytes} : Stored prog (.vec t) v b ↔
    ∃ l h c, Size l.length h ∧ StoredAll prog t l c ∧ v = .vec l ∧ b = h ++ c := by
  constructor
  · intro h; cases h; exact ⟨_, _, _, ‹_›, ‹_›, rfl, rfl⟩
  · rintro ⟨l, h, c, h1, h2, rfl, rfl⟩; exact .vec h1 h2

theorem blocks_iff {x : SVal} {c : Bytes} : Stored prog (.struct (str "get_blocks_request_v0")) x c ↔
    ∃ (first last most count : Bytes) (ps : List Spec.Ship.Position) (f1 f2 f3 f4 : Bool),
      first.length = 4 ∧ last.length = 4 ∧ most.length = 4 ∧ Size ps.length count ∧
      x = .struct [.leaf first, .leaf last, .leaf most, .vec (ps.map (·.value)), .leaf (Spec.Ship.flag f1), .leaf (Spec.Ship.flag f2),
        .leaf (Spec.Ship.flag f3), .leaf (Spec.Ship.flag f4)] ∧
      c = first ++ (last ++ (most ++ ((count ++ (ps.map fun p => p.num ++ p.id).flatten) ++ (Spec.Ship.flag f1 ++ (Spec.Ship.flag f2 ++ (Spec.Ship.flag f3 ++
        (Spec.Ship.flag f4 ++ []))))))) := by
  rw [struct_iff (fs := get_blocks_request_v0.2) (by simp [prog, get_blocks_request_v0])]
  simp only [get_blocks_request_v0]
  constructor
  · rintro ⟨l, rfl, h⟩
    obtain ⟨v1, l1, c1, d1, rfl, rfl, k1, h⟩ := cons_iff.1 h
    obtain ⟨v2, l2, c2, d2, rfl, rfl, k2, h⟩ := cons_iff.1 h
    obtain ⟨v3, l3, c3, d3, rfl, rfl, k3, h⟩ := cons_iff.1 h
    obtain ⟨v4, l4, c4, d4, rfl, rfl, k4, h⟩ := cons_iff.1 h
    obtain ⟨v5, l5, c5, d5, rfl, rfl, k5, h⟩ := cons_iff.1 h
    obtain ⟨v6, l6, c6, d6, rfl, rfl, k6, h⟩ := cons_iff.1 h
    obtain ⟨v7, l7, c7, d7, rfl, rfl, k7, h⟩ := cons_iff.1 h
    obtain ⟨v8, l8, c8, d8, rfl, rfl, k8, h⟩ := cons_iff.1 h
    obtain ⟨rfl, rfl⟩ := nil_iff.1 h
    obtain ⟨rfl, m1⟩ := leaf_iff.1 k1
    obtain ⟨rfl, m2⟩ := leaf_iff.1 k2
    obtain ⟨rfl, m3⟩ := leaf_iff.1 k3
    obtain ⟨l, hh, e, m4, k, rfl, rfl⟩ := vec_stored_iff.1 k4
    obtain ⟨ps, rfl, rfl⟩ := positions_iff.1 k
    obtain ⟨rfl, m5⟩ := leaf_iff.1 k5
    obtain ⟨rfl, m6⟩ := leaf_iff.1 k6
    obtain ⟨rfl, m7⟩ := leaf_iff.1 k7
    obtain ⟨rfl, m8⟩ := leaf_iff.1 k8
    obtain ⟨f1, rfl⟩ := flag_iff.1 m5
    obtain ⟨f2, rfl⟩ := flag_iff.1 m6
    obtain ⟨f3, rfl⟩ := flag_iff.1 m7
    obtain ⟨f4, rfl⟩ := flag_iff.1 m8
    rw [List.length_map] at m4
    exact ⟨c1, c2, c3, hh, ps, f1, f2, f3, f4, m1, m2, m3, m4, rfl, rfl⟩
  · rintro ⟨first, last, most, count, ps, f1, f2, f3, f4, k1, k2, k3, k4, rfl, rfl⟩
    refine ⟨_, rfl, .cons (leaf_iff.2 ⟨rfl, k1⟩) (.cons (leaf_iff.2 ⟨rfl, k2⟩) (.cons (leaf_iff.2 ⟨rfl, k3⟩) (.cons (vec_stored_iff.2 ⟨_, _, _, ?_,
      positions_iff.2 ⟨ps, rfl, rfl⟩, rfl, rfl⟩) (.cons (leaf_iff.2 ⟨rfl, flag_iff.2 ⟨f1, rfl⟩⟩) (.cons (leaf_iff.2 ⟨rfl, flag_iff.2 ⟨f2, rfl⟩⟩)
      (.cons (leaf_iff.2 ⟨rfl, flag_iff.2 ⟨f3, rfl⟩⟩) (.cons (leaf_iff.2 ⟨rfl, flag_iff.2 ⟨f4, rfl⟩⟩) .nil)))))))⟩
    rw [List.length_map]; exact k4

/-- **C65.** The bytes of a request. -/
theorem c65_request (v : SVal) (b : Bytes) : Stored prog requestTy v b ↔ Spec.Ship.Request v b := by
  rw [requestTy, variant_iff]
  constructor
  · rintro ⟨i, t, x, h, c, h1, h2, h3, rfl, rfl⟩
    have hi : i < 3 := by
      rcases Nat.lt_or_ge i 3 with h | h
      · exact h
      · rw [List.getElem?_eq_none (by simpa using h)] at h1; cases h1
    have hh := (size_tag (by omega)).1 h2
    rcases (by omega : i = 0 ∨ i = 1 ∨ i = 2) with rfl | rfl | rfl
    · injection h1 with h1; subst h1
      rw [struct_iff (fs := get_status_request_v0.2) (by simp [prog, get_status_request_v0])] at h3
      obtain ⟨l, rfl, h3⟩ := h3
      obtain ⟨rfl, rfl⟩ := nil_iff.1 h3
      rw [hh]
      exact .status
    · injection h1 with h1; subst h1
      obtain ⟨first, last, most, count, ps, f1, f2, f3, f4, k1, k2, k3, k4, rfl, rfl⟩ := blocks_iff.1 h3
      have := Spec.Ship.Request.blocks (irreversible := f1) (block := f2) (traces := f3) (deltas := f4) k1 k2 k3 k4
      rw [hh]
      simp only [List.append_assoc, List.append_nil] at this ⊢
      exact this
    · injection h1 with h1; subst h1
      rw [struct_iff (fs := get_blocks_ack_request_v0.2) (by simp [prog, get_blocks_ack_request_v0])] at h3
      obtain ⟨l, rfl, h3⟩ := h3
      obtain ⟨v1, l1, c1, d1, rfl, rfl, k1, h⟩ := cons_iff.1 h3
      obtain ⟨rfl, rfl⟩ := nil_iff.1 h
      obtain ⟨rfl, m1⟩ := leaf_iff.1 k1
      rw [hh, List.append_nil]
      exact .ack m1
  · intro h
    cases h with
    | status =>
      refine ⟨0, _, _, [0], [], rfl, (size_tag (by omega)).2 rfl, (struct_iff (fs := get_status_request_v0.2) (by simp [prog, get_status_request_v0])).2 ?_, rfl, rfl⟩
      exact ⟨[], rfl, .nil⟩
    | @blocks first last most count ps f1 f2 f3 f4 k1 k2 k3 k4 =>
      refine ⟨1, _, _, [1], _, rfl, (size_tag (by omega)).2 rfl, blocks_iff.2 ⟨first, last, most, count, ps, f1, f2, f3, f4, k1, k2, k3, k4, rfl, rfl⟩, rfl, ?_⟩
      simp only [List.append_assoc, List.append_nil]
      rfl
    | @ack count k1 =>
      refine ⟨2, _, _, [2], count ++ [], rfl, (size_tag (by omega)).2 rfl, (struct_iff (fs := get_blocks_ack_request_v0.2)
        (by simp [prog, get_blocks_ack_request_v0])).2 ⟨_, rfl, .cons (leaf_iff.2 ⟨rfl, k1⟩) .nil⟩, rfl, by simp⟩

/-- **C65.** The bytes of the answer to a status request. -/
theorem c65_status_result (x : SVal) (b : Bytes) : Stored prog resultTy (.alt 0 x) b ↔ Spec.Ship.Status (.alt 0 x) b := by
  rw [resultTy, variant_iff]
  constructor
  · rintro ⟨i, t, y, h, c, h1, h2, h3, e, rfl⟩
    injection e with e1 e2
    subst e1; subst e2
    simp at h1; subst h1
    rw [struct_iff (fs := get_status_result_v0.2) (by simp [prog, get_status_result_v0])] at h3
    simp only [get_status_result_v0, cons_iff, nil_iff, leaf_iff, position_iff] at h3
    simp only [LeafBytes] at h3
    obtain ⟨l, rfl, v1, l1, c1, d1, rfl, rfl, ⟨p, rfl, rfl⟩, v2, l2, c2, d2, rfl, rfl, ⟨q, rfl, rfl⟩, v3, l3, c3, d3, rfl, rfl, ⟨rfl, k3⟩,
      v4, l4, c4, d4, rfl, rfl, ⟨rfl, k4⟩, v5, l5, c5, d5, rfl, rfl, ⟨rfl, k5⟩, v6, l6, c6, d6, rfl, rfl, ⟨rfl, k6⟩,
      v7, l7, c7, d7, rfl, rfl, ⟨rfl, k7⟩, rfl, rfl⟩ := h3
    rw [(size_tag (by omega)).1 h2]
    have := Spec.Ship.Status.mk (head := p) (irreversible := q) k3 k4 k5 k6 k7
    simpa using this
  · intro h
    generalize hx : SVal.alt 0 x = w at h
    cases h with
    | @mk p q a b c d chain k3 k4 k5 k6 k7 =>
      refine ⟨0, _, _, [0], p.num ++ p.id ++ (q.num ++ q.id ++ (a ++ (b ++ (c ++ (d ++ (chain ++ [])))))), rfl, (size_tag (by omega)).2 rfl,
        (struct_iff (fs := get_status_result_v0.2) (by simp [prog, get_status_result_v0])).2 ⟨_, rfl, ?_⟩, rfl, ?_⟩
      · exact .cons (position_iff.2 ⟨p, rfl, rfl⟩) (.cons (position_iff.2 ⟨q, rfl, rfl⟩) (.cons (leaf_iff.2 ⟨rfl, k3⟩) (.cons (leaf_iff.2 ⟨rfl, k4⟩)
          (.cons (leaf_iff.2 ⟨rfl, k5⟩) (.cons (leaf_iff.2 ⟨rfl, k6⟩) (.cons (leaf_iff.2 ⟨rfl, k7⟩) .nil))))))
      · simp only [List.append_assoc, List.append_nil]; rfl

/-! ## traces in traces -/

/-- A trace of a deferred transaction that failed in a transaction that failed … `n` times. -/
def nested : Nat → SVal × Bytes
  | 0 => trace [] [0]
  | n + 1 => trace [(nested n).1] (1 :: (nested n).2)
where
  trace (inner : List SVal) (b : Bytes) : SVal × Bytes :=
    (.alt 0 (.struct [.leaf (List.replicate 32 7), .leaf [2], .leaf [1, 0, 0, 0], .leaf [5], .leaf (List.replicate 8 1), .leaf (List.replicate 8 2), .leaf [1],
      .vec [], .absent, .present (.leaf (2 :: str "no")), .absent, .vec inner, .absent]),
    0 :: (List.replicate 32 7 ++ ([2] ++ ([1, 0, 0, 0] ++ ([5] ++ (List.replicate 8 1 ++ (List.replicate 8 2 ++ ([1] ++ ([0] ++ ([0] ++ ((1 :: 2 :: str "no") ++
      ([0] ++ (b ++ ([0] ++ []))))))))))))))

theorem trace_stored {inner : List SVal} {b : Bytes} (h : Stored prog (.vec transaction_traceTy) (.vec inner) b) :
    Stored prog transaction_traceTy (nested.trace inner b).1 (nested.trace inner b).2 := by
  refine variant_iff.2 ⟨0, _, _, [0], _, rfl, (size_tag (by omega)).2 rfl, (struct_iff (fs := transaction_trace_v0.2) (by simp [prog, transaction_trace_v0])).2
    ⟨_, rfl, ?_⟩, rfl, rfl⟩
  simp only [transaction_trace_v0]
  refine .cons (leaf_iff.2 ⟨rfl, by simp [LeafBytes]⟩) (.cons (leaf_iff.2 ⟨rfl, by simp [LeafBytes]⟩) (.cons (leaf_iff.2 ⟨rfl, by simp [LeafBytes]⟩) (.cons (leaf_iff.2 ⟨rfl, 5, by omega, .last (by omega)⟩)
    (.cons (leaf_iff.2 ⟨rfl, by simp [LeafBytes]⟩) (.cons (leaf_iff.2 ⟨rfl, by simp [LeafBytes]⟩) (.cons (leaf_iff.2 ⟨rfl, .inr rfl⟩) (.cons (b := [0]) ?_ (.cons .absent (.cons (.present ?_)
    (.cons .absent (.cons h (.cons .absent .nil))))))))))))
  · exact .vec (l := []) (h := [0]) ((size_tag (by simp)).2 rfl) .nil
  · exact leaf_iff.2 ⟨rfl, [2], str "no", (size_tag (by decide)).2 (by decide), rfl⟩

/-- **C65.** Traces nested to any depth are written and read: there is no limit but the stack. -/
theorem c65_nested (n : Nat) : Stored prog transaction_traceTy (nested n).1 (nested n).2 ∧
    FromBin prog transaction_traceTy (nested n).2 (nested n).1 [] := by
  have h : Stored prog transaction_traceTy (nested n).1 (nested n).2 := by
    induction n with
    | zero => exact trace_stored (.vec (l := []) (h := [0]) ((size_tag (by simp)).2 rfl) .nil)
    | succ n ih =>
      refine trace_stored (vec_stored_iff.2 ⟨_, [1], (nested n).2, (size_tag (by simp)).2 rfl, ?_, rfl, rfl⟩)
      rw [← List.append_nil (nested n).2]
      exact .cons ih .nil
  refine ⟨h, ?_⟩
  have := ((c65_round_trip h []).2 (nested n).1 []).2 ⟨rfl, rfl⟩
  rwa [List.append_nil] at this

/-- A request for the blocks 1 to 9, with one known block, for traces only. -/
example : Spec.Ship.Request (.alt 1 (.struct [.leaf [1, 0, 0, 0], .leaf [9, 0, 0, 0], .leaf [5, 0, 0, 0],
      .vec [.struct [.leaf [1, 0, 0, 0], .leaf (List.replicate 32 3)]], .leaf [0], .leaf [0], .leaf [1], .leaf [0]]))
    (1 :: ([1, 0, 0, 0, 9, 0, 0, 0, 5, 0, 0, 0, 1, 1, 0, 0, 0] ++ List.replicate 32 3 ++ [0, 0, 1, 0])) :=
  .blocks (have_ := [⟨[1, 0, 0, 0], List.replicate 32 3, rfl, rfl⟩]) (irreversible := false) (block := false) (traces := true) (deltas := false)
    rfl rfl rfl ((size_tag (by decide)).2 rfl : Size 1 [1])

end Ship
end Abieos
