import Verif.Props.Wire
import Verif.Props.Shown
import Verif.Proofs.KeyFaults
import Verif.Spec.Growth
/-
Lemmas for C76: how long the parts of texts and binary forms can be.
-/
namespace Abieos
open Spec

/-! ### from JSON to binary -/

theorem leb_length {n : Nat} {b : Bytes} (h : Leb n b) : 1 ≤ b.length ∧ ∀ k, n < 128 ^ (k + 1) → b.length ≤ k + 1 := by
  induction h with
  | last h => simp
  | @more n b h hb ih =>
    refine ⟨by simp, fun k hk => ?_⟩
    cases k with
    | zero => omega
    | succ k =>
      have := ih.2 k (by rw [Nat.pow_succ] at hk; omega)
      simp only [List.length_cons]; omega

theorem size_length {n : Nat} {b : Bytes} (h : Size n b) : 1 ≤ b.length ∧ b.length ≤ 5 := by
  have := leb_length h.2
  exact ⟨this.1, this.2 4 (Nat.lt_of_lt_of_le h.1 (by decide))⟩

/-- A size takes at most one byte more than half of what it counts. -/
theorem size_length_small {n : Nat} {b : Bytes} (h : Size n b) : b.length ≤ n + 1 := by
  have h5 := size_length h
  by_cases hn : n < 128
  · have := (leb_length h.2).2 0 (by simpa using hn); omega
  · omega

theorem hexText_length {s b : Bytes} (h : HexText s b) : s.length = 2 * b.length := by
  induction h with
  | nil => rfl
  | cons _ _ _ _ ih => simp only [List.length_cons, ih]; omega

theorem keyText_length {H : Bytes → Bytes} {t : BTy} {forms : List (Bytes × Nat × Bytes)} {s : Bytes} {v : BVal}
    (hf : ∀ f ∈ forms, 3 ≤ f.1.length) (h : KeyText H t forms s v) :
    ∃ bin rest, fromBin t bin = .ok (v, rest) ∧ bin.length ≤ 2 * s.length ∧ 3 ≤ s.length := by
  obtain ⟨pre, i, suffix, b58, payload, h1, rfl, h2, h3, rest, h4⟩ := h
  have := fromBase58_length h3
  have := hf _ h1
  refine ⟨_, rest, h4, ?_, ?_⟩
  · simp at *; omega
  · simp at *; omega

theorem public_layout_length {bin r b : Bytes} {v : BVal} (h : fromBin publicKeyTy bin = .ok (v, r)) (hl : Layout publicKeyTy v b) :
    b.length ≤ bin.length + 4 := by
  have key : ∀ {b'}, Layout publicKeyTy v b' → b = b' := fun h' => by
    have h1 := layout_write _ _ _ wf_publicKey hl []
    rw [layout_write _ _ _ wf_publicKey h' []] at h1
    simpa using (Except.ok.inj h1).symm
  rcases publicKey_read.1 h with ⟨tag, k, rfl, h1, h2, rfl⟩ | ⟨tag, k, rfl, h1, h2, rfl⟩ | ⟨tag, k, c, size, rpid, rfl, h1, h2, h3, rfl⟩
  · rw [key (layout_simple (i := 0) (by decide) rfl rfl h2)]
    obtain ⟨n, g, -⟩ := h1; cases g <;> (simp; omega)
  · rw [key (layout_simple (i := 1) (by decide) rfl rfl h2)]
    obtain ⟨n, g, -⟩ := h1; cases g <;> (simp; omega)
  · obtain ⟨size', hs⟩ := size_exists (varRead_lt h3)
    rw [key (layout_wa_public h2 hs)]
    have := size_length hs
    obtain ⟨n, g, -⟩ := h1
    obtain ⟨m, g', -⟩ := h3
    cases g <;> cases g' <;> simp <;> omega

theorem private_layout_length {bin r b : Bytes} {v : BVal} (h : fromBin privateKeyTy bin = .ok (v, r)) (hl : Layout privateKeyTy v b) :
    b.length ≤ bin.length := by
  have key : ∀ {b'}, Layout privateKeyTy v b' → b = b' := fun h' => by
    have h1 := layout_write _ _ _ wf_privateKey hl []
    rw [layout_write _ _ _ wf_privateKey h' []] at h1
    simpa using (Except.ok.inj h1).symm
  rcases privateKey_read.1 h with ⟨tag, k, rfl, h1, h2, rfl⟩ | ⟨tag, k, rfl, h1, h2, rfl⟩
  · rw [key (layout_simple (i := 0) (by decide) rfl rfl h2)]
    obtain ⟨n, g, -⟩ := h1; cases g with
    | last => simp
    | more => simp; omega
  · rw [key (layout_simple (i := 1) (by decide) rfl rfl h2)]
    obtain ⟨n, g, -⟩ := h1; cases g with
    | last => simp
    | more => simp; omega

theorem signature_layout_length {bin r b : Bytes} {v : BVal} (h : fromBin signatureTy bin = .ok (v, r)) (hl : Layout signatureTy v b) :
    b.length ≤ bin.length + 8 := by
  have key : ∀ {b'}, Layout signatureTy v b' → b = b' := fun h' => by
    have h1 := layout_write _ _ _ wf_signature hl []
    rw [layout_write _ _ _ wf_signature h' []] at h1
    simpa using (Except.ok.inj h1).symm
  rcases signature_read.1 h with ⟨tag, k, rfl, h1, h2, rfl⟩ | ⟨tag, k, rfl, h1, h2, rfl⟩ | ⟨tag, k, n, data, m, json, rfl, h1, h2, h3, -, h4, rfl⟩
  · rw [key (layout_simple (i := 0) (by decide) rfl rfl h2)]
    obtain ⟨n, g, -⟩ := h1; cases g <;> (simp; omega)
  · rw [key (layout_simple (i := 1) (by decide) rfl rfl h2)]
    obtain ⟨n, g, -⟩ := h1; cases g <;> (simp; omega)
  · obtain ⟨m', hm⟩ := size_exists (varRead_lt h4)
    by_cases hd : data.length < 2 ^ 32
    · obtain ⟨n', hn⟩ := size_exists hd
      rw [key (layout_wa_signature h2 hn hm)]
      have := size_length hn
      have := size_length hm
      obtain ⟨n0, g, -⟩ := h1
      obtain ⟨n1, g', -⟩ := h3
      obtain ⟨n2, g'', -⟩ := h4
      cases g <;> cases g' <;> cases g'' <;> simp <;> omega
    · exfalso
      obtain ⟨i, x, c, e, e1, e2, e3, rfl⟩ := hl
      injection e1 with e0 e1
      subst e0 e1
      rcases e3 with ⟨g, -⟩ | ⟨j, e4, e3⟩
      · cases g
      · rcases e3 with ⟨rfl, -⟩ | ⟨j, rfl, e3⟩
        · cases e4
        · rcases e3 with ⟨-, l, e5, v1, l1, x1, y1, rfl, -, ⟨v2, l2, x2, y2, rfl, ⟨hd2, s2, q, rfl, ⟨g2, -⟩, hk, -⟩, -⟩, -⟩ | ⟨j, rfl, e3⟩
          · injection e5 with e5
            injection e5 with _ e5
            injection e5 with e5
            injection e5 with e5
            subst e5
            omega
          · exact e3

/-- The binary form of a scalar has at most 16 times as many bytes as its text has characters. -/
theorem stored_length {F : Floats} {k : Builtin} {s b : Bytes} (h : StoredAs F k s b ∨ TimeStored k s b) : b.length ≤ 16 * max 1 s.length := by
  have fixed : ∀ {n : Nat} {v : Int} {b : Bytes}, TwosComplement n v b → n ≤ 16 → b.length ≤ 16 * max 1 s.length := fun h hn => by
    have := h.1; omega
  have int : ∀ {g : Bool} {n : Nat} {b : Bytes}, IntStored g n s b → n ≤ 16 → b.length ≤ 16 * max 1 s.length := fun ⟨_, _, _, h⟩ hn => fixed h hn
  have leb : ∀ {n : Nat} {b : Bytes}, Leb n b → n < 2 ^ 32 → b.length ≤ 16 * max 1 s.length := fun h hn => by
    have := size_length ⟨hn, h⟩; omega
  rcases h with h | h
  · cases k <;> simp only [StoredAs] at h
    case int8 | uint8 | int16 | uint16 | int32 | uint32 | int64 | uint64 | int128 | uint128 => exact int h (by decide)
    case varuint32 => obtain ⟨n, -, h1, h2⟩ := h; exact leb h2 h1
    case varint32 => obtain ⟨v, -, h1, h2, h3⟩ := h; refine leb h3 ?_; split <;> omega
    case float32 => obtain ⟨v, -, -, h⟩ := h; exact fixed h (by decide)
    case float64 => obtain ⟨v, -, -, h⟩ := h; exact fixed h (by decide)
    case float128 | checksum160 | checksum256 | checksum512 => have := hexText_length h.1; omega
    case name => exact fixed h (by decide)
    case bytes => obtain ⟨c, a, h1, h2, rfl⟩ := h; have := hexText_length h1; have := size_length h2; simp; omega
    case string => obtain ⟨c, h1, rfl⟩ := h; have := size_length h1; simp; omega
    case public_key =>
      obtain ⟨v, h1, h2⟩ := h
      obtain ⟨bin, r, g1, g2, g3⟩ := keyText_length (by decide) h1
      have := public_layout_length g1 h2; omega
    case private_key =>
      rcases h with ⟨-, v, h1, h2⟩ | ⟨-, a, key, extra, h1, h2, h3, rfl⟩
      · obtain ⟨bin, r, g1, g2, g3⟩ := keyText_length (by decide) h1
        have := private_layout_length g1 h2; omega
      · have := fromBase58_length h1
        simp at *; omega
    case signature =>
      obtain ⟨v, h1, h2⟩ := h
      obtain ⟨bin, r, g1, g2, g3⟩ := keyText_length (by decide) h1
      have := signature_layout_length g1 h2; omega
    case symbol => obtain ⟨w, bl, l, -, -, -, -, -, h⟩ := h; exact fixed h (by decide)
    case symbol_code => obtain ⟨bl, l, -, -, -, h⟩ := h; exact fixed h (by decide)
    case asset =>
      obtain ⟨b1, w, f, b2, l, neg, pt, x, y, -, -, -, -, -, -, -, h1, h2, rfl⟩ := h
      have := h1.1; have := h2.1; simp; omega
  · cases k <;> simp only [TimeStored] at h
    case time_point => obtain ⟨t, g, -, h⟩ := h; exact fixed h (by decide)
    case time_point_sec => obtain ⟨t, g, -, h⟩ := h; exact fixed h (by decide)
    case block_timestamp => obtain ⟨t, g, -, h⟩ := h; exact fixed h (by decide)

/-- A lower bound for the length of the texts of a document. -/
def docSize : JVal → Nat
  | .null => 4
  | .bool _ => 4
  | .str s => max 1 s.length
  | .arr l => 2 + go l
  | .obj l => 2 + goM l
where
  go : List JVal → Nat
    | [] => 0
    | v :: l => docSize v + go l
  goM : List (Bytes × JVal) → Nat
    | [] => 0
    | (_, v) :: l => docSize v + goM l

theorem docSize_pos (v : JVal) : 1 ≤ docSize v := by
  cases v <;> simp only [docSize] <;> omega

theorem charText_bound {t : Bytes} {n : Nat} (h : CharText t n) : (utf8Bytes n).length ≤ t.length := by
  have h4 : ∀ {t : Bytes} {n : Nat}, Hex4 t n → t.length = 4 := by
    rintro t n ⟨a, b, c, d, na, nb, nc, nd, rfl, -⟩; rfl
  have hu : ∀ n, (utf8Bytes n).length ≤ 4 := by
    intro n; unfold utf8Bytes; repeat' split
    all_goals simp
  cases h with
  | unescaped => exact Nat.le_refl _
  | simple e c h =>
    have : c.toNat < 0x80 := by
      simp only [simpleEscapes, List.mem_cons, Prod.mk.injEq, List.not_mem_nil, or_false] at h
      rcases h with ⟨-, rfl⟩ | ⟨-, rfl⟩ | ⟨-, rfl⟩ | ⟨-, rfl⟩ | ⟨-, rfl⟩ | ⟨-, rfl⟩ | ⟨-, rfl⟩ | ⟨-, rfl⟩ <;> decide
    unfold utf8Bytes; rw [if_pos this]; simp
  | unicode h _ => have := h4 h; have := hu n; simp only [List.length_cons]; omega
  | pair h h' => have := h4 h; have := hu; simp only [List.length_cons, List.length_append]; exact Nat.le_trans (hu _) (by omega)

theorem charsText_bound {t s : Bytes} (h : CharsText t s) : s.length ≤ t.length := by
  induction h with
  | nil => simp
  | cons h _ ih => have := charText_bound h; simp only [List.length_append]; omega

theorem stringText_length {t s : Bytes} (h : StringText t s) : s.length + 2 ≤ t.length := by
  obtain ⟨b, h1, rfl⟩ := h
  have := charsText_bound h1
  simp; omega

theorem jsonNumber_pos {t : Bytes} (h : JsonNumber t) : 1 ≤ t.length := by
  obtain ⟨c, s, rfl, -⟩ := jsonNumber_head h
  simp

mutual
theorem jsonText_size : ∀ {t : Bytes} {v : JVal}, JsonText t v → docSize v ≤ t.length
  | _, _, .null => by simp [docSize]
  | _, _, .true => by simp [docSize]
  | _, _, .false => by simp [docSize]
  | _, _, .number h => by have := jsonNumber_pos h; simp only [docSize]; omega
  | _, _, .string h => by have := stringText_length h; simp only [docSize]; omega
  | _, _, .emptyArray _ => by simp [docSize, docSize.go]
  | _, _, .array h => by have := elementsText_size h; simp [docSize]; omega
  | _, _, .emptyObject _ => by simp [docSize, docSize.goM]
  | _, _, .object h => by have := membersText_size h; simp [docSize]; omega

theorem elementsText_size : ∀ {t : Bytes} {l : List JVal}, ElementsText t l → docSize.go l ≤ t.length
  | _, _, .last _ h _ => by have := jsonText_size h; simp [docSize.go]; omega
  | _, _, .more _ h _ h' => by have := jsonText_size h; have := elementsText_size h'; simp [docSize.go]; omega

theorem membersText_size : ∀ {t : Bytes} {l : List (Bytes × JVal)}, MembersTextG t l → docSize.goM l ≤ t.length
  | _, _, .last _ _ _ _ h _ => by have := jsonText_size h; simp [docSize.goM]; omega
  | _, _, .more _ _ _ _ h _ h' => by have := jsonText_size h; have := membersText_size h'; simp [docSize.goM]; omega
end

/-- A text is at least as long as its document says. -/
theorem isJson_size {t : Bytes} {v : JVal} (h : IsJson t v) : docSize v ≤ t.length := by
  obtain ⟨w, u, w', rfl, -, h, -⟩ := h
  have := jsonText_size h
  simp; omega

/-- The members whose names are in the list. -/
def pick (ns : List Bytes) (ms : List (Bytes × JVal)) : List (Bytes × JVal) := ms.filter fun m => ns.contains m.1

theorem pick_cons {n : Bytes} {ns : List Bytes} (h : n ∉ ns) : ∀ ms : List (Bytes × JVal),
    docSize.goM (pick (n :: ns) ms) = docSize.goM (pick [n] ms) + docSize.goM (pick ns ms)
  | [] => rfl
  | (k, v) :: ms => by
    have ih := pick_cons h ms
    by_cases hk : k = n
    · subst hk
      simp [pick, docSize.goM, h] at ih ⊢; omega
    · by_cases hn : k ∈ ns
      · simp [pick, docSize.goM, hk, hn] at ih ⊢; omega
      · simp [pick, hk, hn] at ih ⊢; omega

theorem pick_all (ns : List Bytes) : ∀ ms : List (Bytes × JVal), docSize.goM (pick ns ms) ≤ docSize.goM ms
  | [] => Nat.le_refl _
  | (k, v) :: ms => by
    have := pick_all ns ms
    unfold pick at this ⊢
    rw [List.filter_cons]
    split <;> simp only [docSize.goM] <;> omega

theorem pick_last {n : Bytes} {x : JVal} : ∀ {ms : List (Bytes × JVal)}, (n, x) ∈ ms → docSize x ≤ docSize.goM (pick [n] ms)
  | (k, v) :: ms, h => by
    by_cases hk : k = n
    · subst hk
      have e : pick [k] ((k, v) :: ms) = (k, v) :: pick [k] ms := by simp [pick]
      rw [e, docSize.goM]
      rcases List.mem_cons.1 h with h | h
      · cases h; omega
      · have := pick_last h; omega
    · have e : pick [n] ((k, v) :: ms) = pick [n] ms := by simp [pick, hk]
      rw [e]
      rcases List.mem_cons.1 h with h | h
      · cases h; exact absurd rfl hk
      · exact pick_last h

theorem lastValue_in {n : Bytes} {x : JVal} : ∀ {ms : List (Bytes × JVal)}, lastValue n ms = some x → (n, x) ∈ ms
  | (k, v) :: ms, h => by
    rw [lastValue] at h
    split at h
    · rename_i y hy
      cases h
      exact .tail _ (lastValue_in hy)
    · split at h
      · rename_i hk; cases h; subst hk; exact .head _
      · cases h

theorem optional_declared {D : AbiDef} {p q : Ptr} (h : Meaning D p (.optional q)) : Undeclared D p ∧ ¬ Undeclared D q := by
  cases h with
  | optional h1 h2 h3 => exact ⟨h1, h3⟩

theorem extension_undeclared {D : AbiDef} {p q : Ptr} (h : Meaning D p (.extension q)) : Undeclared D p := by
  cases h with
  | extension h1 h2 h3 => exact h1

section
variable {D : AbiDef} {F : Floats} {M : List Bytes → List Bytes → Prop}

mutual
theorem wire_size (hd : DistinctDef D) : ∀ {last : Bool} {p : Ptr} {v : JVal} {b : Bytes}, Wire D (StoredScalar F) M last p v b →
    b.length ≤ 17 * docSize v ∧ (¬ Undeclared D p → b.length + 1 ≤ 17 * docSize v)
  | _, _, _, _, .scalar (s := .bool x) _ h => by
    obtain ⟨-, rfl⟩ := h
    simp [ofScalar, docSize]
  | _, _, _, _, .scalar (s := .str s) _ h => by
    have := stored_length h
    simp only [ofScalar, docSize]; omega
  | _, _, _, _, .none h => ⟨by simp [docSize], fun hp => absurd (optional_declared h).1 hp⟩
  | _, _, _, _, .some h _ hw => by
    have := (wire_size hd hw).2 (optional_declared h).2
    exact ⟨by simpa using this, fun hp => absurd (optional_declared h).1 hp⟩
  | _, _, _, _, .extension h hw => ⟨(wire_size hd hw).1, fun hp => absurd (extension_undeclared h) hp⟩
  | _, _, _, _, .struct (ms := ms) h _ hw => by
    have h1 := wireFields_size hd hw (hd _ _ h)
    have h2 := Nat.le_trans h1 (Nat.mul_le_mul_left 17 (pick_all _ ms))
    simp only [docSize]; omega
  | _, _, _, _, .array (l := l) h _ hs hw => by
    have h1 := wireElems_size hd hw
    have h2 := size_length hs
    simp only [docSize, List.length_append]; omega
  | _, _, _, _, .variant (f := f) h _ hs hw => by
    have h1 := (wire_size hd hw).1
    have h2 := size_length hs
    simp only [docSize, docSize.go, List.length_append]; omega

theorem wireFields_size (hd : DistinctDef D) : ∀ {last : Bool} {ms : List (Bytes × JVal)} {fs : List Field} {b : Bytes},
    WireFields D (StoredScalar F) M last ms fs b → (fs.map (·.name)).Nodup → b.length ≤ 17 * docSize.goM (pick (fs.map (·.name)) ms)
  | _, _, _, _, .nil, _ => by simp
  | _, _, _, _, .missing _, _ => by simp
  | _, ms, _, _, .present (f := f) h hw hws, hn => by
    rw [List.map_cons, List.nodup_cons] at hn
    have h1 := (wire_size hd hw).1
    have h2 := wireFields_size hd hws hn.2
    have h3 := pick_last (lastValue_in h)
    rw [List.map_cons, pick_cons hn.1, List.length_append]; omega

theorem wireElems_size (hd : DistinctDef D) : ∀ {q : Ptr} {l : List JVal} {b : Bytes}, WireElems D (StoredScalar F) M q l b → b.length ≤ 17 * docSize.go l
  | _, _, _, .nil => by simp
  | _, _, _, .cons hw hws => by
    have h1 := (wire_size hd hw).1
    have h2 := wireElems_size hd hws
    simp only [docSize.go, List.length_append]; omega
end
end

/-! ### from binary to JSON -/

theorem escaped_length {s t : Bytes} (h : Escaped s t) : t.length ≤ 6 * s.length := by
  induction h with
  | nil => simp
  | char _ _ _ _ _ _ ih => simp only [List.length_append]; omega
  | quote _ ih => simp only [List.length_cons]; omega
  | backslash _ ih => simp only [List.length_cons]; omega
  | control _ h _ ih =>
    have := hexText_length h.1
    simp only [List.length_cons, List.length_append, List.length_nil] at *; omega
  | bad _ _ ih => simp only [List.length_cons]; omega

theorem jsonStr_length {s t : Bytes} (h : JsonStr s t) : t.length ≤ 6 * s.length + 2 := by
  obtain ⟨e, h1, rfl⟩ := h
  have := escaped_length h1
  simp [quoted]; omega

theorem asString_length {R : Bytes → Prop} {t : Bytes} (h : AsString R t) {n : Nat} (hn : ∀ s, R s → s.length ≤ n) : t.length ≤ 6 * n + 2 := by
  obtain ⟨s, h1, h2⟩ := h
  have := jsonStr_length h2
  have := hn s h1
  omega

theorem shortDecimal_length {n : Nat} {s : Bytes} (h : ShortDecimal n s) {k : Nat} (hn : n < 10 ^ (k + 1)) : s.length ≤ k + 1 := by
  obtain ⟨⟨h1, h2, h3⟩, h4⟩ := h
  cases s with
  | nil => exact absurd rfl h1
  | cons c s =>
    by_cases hc : c = 48
    · have := h4 (by simp [hc])
      simp [this]
    · have hd := h2 c (.head _)
      have e : decVal (c :: s) = digitVal c * 10 ^ s.length + decVal s := by
        unfold decVal
        rw [decFrom, decFrom_eq]; simp [decVal]
      have hge : 1 ≤ digitVal c := by
        have : c.toNat ≠ 48 := fun h => hc (UInt8.toNat_inj.1 h)
        unfold IsDigit at hd
        unfold digitVal
        omega
      have h5 : 10 ^ s.length ≤ n := by
        rw [← h3, e]
        exact Nat.le_trans (Nat.le_mul_of_pos_left _ hge) (Nat.le_add_right _ _)
      have := (Nat.pow_lt_pow_iff_right (by decide : 1 < 10)).1 (Nat.lt_of_le_of_lt h5 hn)
      simp only [List.length_cons]; omega

theorem intShown_length {n k : Nat} {v : Int} {t : Bytes} (h : IntShown n v t) (hv : v.natAbs < 10 ^ (k + 1)) : t.length ≤ k + 4 := by
  obtain ⟨s, ⟨w, h1, rfl⟩, rfl⟩ := h
  have := shortDecimal_length h1 hv
  repeat' split
  all_goals simp [quoted]
  all_goals omega

theorem intRead_length {g : Bool} {n k : Nat} {b t : Bytes} (h : IntRead g n b t) (hk : 2 ^ (8 * n) ≤ 10 ^ (k + 1)) (hn : 0 < n) :
    b.length = n ∧ t.length ≤ k + 4 := by
  obtain ⟨v, h1, h2, h3⟩ := h
  refine ⟨h2.1, intShown_length h3 ?_⟩
  have e : (2 : Nat) ^ (8 * n) = 2 * 2 ^ (8 * n - 1) := by
    rw [← Nat.pow_succ']; congr 1; omega
  have e' : (2 : Int) ^ (8 * n - 1) = ((2 ^ (8 * n - 1) : Nat) : Int) := by simp
  have e'' : (2 : Int) ^ (8 * n) = ((2 ^ (8 * n) : Nat) : Int) := by simp
  split at h1
  · rw [e'] at h1; omega
  · rw [e''] at h1; omega

theorem lebAny_pos {n : Nat} {b : Bytes} (h : LebAny n b) : 1 ≤ b.length := by
  cases h <;> simp

theorem sizeRead_pos {w m n : Nat} {b : Bytes} (h : VarRead w m n b) : 1 ≤ b.length := by
  obtain ⟨n, h, -⟩ := h; exact lebAny_pos h

theorem dateTime_length {a b c d e f : Nat} {s : Bytes} (h : DateTimeText a b c d e f s) : s.length = 19 := by
  obtain ⟨s1, s2, s3, s4, s5, s6, ⟨h1, -⟩, ⟨h2, -⟩, ⟨h3, -⟩, ⟨h4, -⟩, ⟨h5, -⟩, ⟨h6, -⟩, rfl⟩ := h
  simp [h1, h2, h3, h4, h5, h6]

theorem timeShown_length {us : Int} {s : Bytes} (h : TimeShown us s) : s.length ≤ 23 := by
  obtain ⟨x, n, r, w, f, -, -, -, h1, ⟨h2, -⟩, rfl⟩ := h
  have := dateTime_length h1
  simp [h2, this]

theorem codeShown_length {v k : Nat} {s : Bytes} (h : CodeShown v s) (hv : v < 256 ^ k) : s.length ≤ k := by
  obtain ⟨h1, h2⟩ := h
  cases hs : s.getLast? with
  | none => rw [List.getLast?_eq_none_iff] at hs; simp [hs]
  | some c =>
    obtain ⟨r, rfl⟩ := List.getLast?_eq_some_iff.1 hs
    have hc : c ≠ 0 := fun h => h2 (by simp [h])
    have hc' : 1 ≤ c.toNat := by
      have : c.toNat ≠ 0 := fun h => hc (UInt8.toNat_inj.1 h)
      omega
    rw [leVal_append] at h1
    have h5 : 256 ^ r.length ≤ v := by
      rw [← h1]
      have : leVal [c] = c.toNat := by simp [leVal]
      rw [this]
      exact Nat.le_trans (Nat.le_mul_of_pos_right _ hc') (Nat.le_add_left _ _)
    have := (Nat.pow_lt_pow_iff_right (by decide : 1 < 256)).1 (Nat.lt_of_le_of_lt h5 hv)
    simp; omega

theorem toBase58_length (b : Bytes) : (toBase58 b).length ≤ 2 * b.length := by
  obtain ⟨z, r, rfl, hr, -⟩ := zeros_split b
  rw [toBase58_eq hr]
  have h1 : leVal r.reverse < 58 ^ (2 * r.length) := by
    have := leVal_lt r.reverse
    rw [List.length_reverse] at this
    exact Nat.lt_of_lt_of_le this (by rw [Nat.pow_mul]; exact Nat.pow_le_pow_left (by decide) _)
  have h2 := (Nat.digits_length_le_iff (b := 58) (by decide) (k := 2 * r.length) (leVal r.reverse)).2 h1
  simp; omega

theorem digest_length (m : Bytes) : (keyDigest m).length = 20 := digest_len m

theorem keyText_shown_length (pre kind key : Bytes) : (keyText pre kind key).length ≤ pre.length + 2 * key.length + 8 := by
  unfold keyText
  have h := toBase58_length (key ++ (keyDigest (key ++ kind)).take 4)
  simp [digest_length] at h ⊢
  omega

theorem publicKeyShown_length {b s : Bytes} (h : PublicKeyShown b s) : s.length ≤ 2 * b.length + 25 ∧ 34 ≤ b.length := by
  cases h with
  | k1 h1 h2 =>
    have := sizeRead_pos h1
    refine ⟨Nat.le_trans (keyText_shown_length _ _ _) ?_, ?_⟩ <;> simp only [List.length_append, show (str "PUB_K1_").length = 7 from rfl] <;> omega
  | r1 h1 h2 =>
    have := sizeRead_pos h1
    refine ⟨Nat.le_trans (keyText_shown_length _ _ _) ?_, ?_⟩ <;> simp only [List.length_append, show (str "PUB_R1_").length = 7 from rfl] <;> omega
  | wa h1 h2 h3 h4 =>
    have := sizeRead_pos h1; have := sizeRead_pos h3; have := size_length h4
    refine ⟨Nat.le_trans (keyText_shown_length _ _ _) ?_, ?_⟩ <;> simp only [List.length_append, List.length_cons, show (str "PUB_WA_").length = 7 from rfl] <;> omega

theorem privateKeyShown_length {b s : Bytes} (h : PrivateKeyShown b s) : s.length ≤ 2 * b.length + 25 ∧ 33 ≤ b.length := by
  cases h with
  | k1 h1 h2 =>
    have := sizeRead_pos h1
    refine ⟨Nat.le_trans (keyText_shown_length _ _ _) ?_, ?_⟩ <;> simp only [List.length_append, show (str "PVT_K1_").length = 7 from rfl] <;> omega
  | r1 h1 h2 =>
    have := sizeRead_pos h1
    refine ⟨Nat.le_trans (keyText_shown_length _ _ _) ?_, ?_⟩ <;> simp only [List.length_append, show (str "PVT_R1_").length = 7 from rfl] <;> omega

theorem signatureShown_length {b s : Bytes} (h : SignatureShown b s) : s.length ≤ 2 * b.length + 35 ∧ 66 ≤ b.length := by
  cases h with
  | k1 h1 h2 =>
    have := sizeRead_pos h1
    refine ⟨Nat.le_trans (keyText_shown_length _ _ _) ?_, ?_⟩ <;> simp only [List.length_append, show (str "SIG_K1_").length = 7 from rfl] <;> omega
  | r1 h1 h2 =>
    have := sizeRead_pos h1
    refine ⟨Nat.le_trans (keyText_shown_length _ _ _) ?_, ?_⟩ <;> simp only [List.length_append, show (str "SIG_R1_").length = 7 from rfl] <;> omega
  | wa h1 h2 h3 h4 h5 h6 =>
    have := sizeRead_pos h1; have := sizeRead_pos h3; have := size_length h4
    have := sizeRead_pos h5; have := size_length h6
    refine ⟨Nat.le_trans (keyText_shown_length _ _ _) ?_, ?_⟩ <;> simp only [List.length_append, show (str "SIG_WA_").length = 7 from rfl] <;> omega

theorem fpToJson_length {bits : Nat} {t : Bytes} (h : fpToJson bits = .ok t) : t.length ≤ 24 := by
  unfold fpToJson at h
  split at h
  · split at h
    · injection h with h; subst h; split <;> decide
    · injection h with h; subst h; decide
  · obtain ⟨t', -, h⟩ := bind_eq_ok.1 h
    split at h
    · rename_i hl; cases h; exact hl
    · cases h

/-- A scalar takes up at least one byte and is shown in at most 128 characters for each. -/
theorem libShown_length {k : Builtin} {b t : Bytes} (h : libShown k b t) : 1 ≤ b.length ∧ t.length ≤ 128 * b.length := by
  have upper : ∀ {s b : Bytes}, UpperHex s b → (quoted s).length = 2 * b.length + 2 := fun h => by
    have := hexText_length h.1; simp [quoted]; omega
  have size4 : ∀ {v : Int} {t : Bytes}, IntShown 4 v t → v.natAbs < 2 ^ 32 → t.length ≤ 13 := fun h hv =>
    intShown_length (k := 9) h (Nat.lt_of_lt_of_le hv (by decide))
  unfold libShown at h
  cases k <;> simp only [ShownScalar] at h
  case bool => obtain ⟨c, rfl, rfl⟩ := h; split <;> simp [str]
  case int8 | uint8 => have := intRead_length (k := 2) h (by decide) (by decide); omega
  case int16 | uint16 => have := intRead_length (k := 4) h (by decide) (by decide); omega
  case int32 | uint32 => have := intRead_length (k := 9) h (by decide) (by decide); omega
  case int64 | uint64 => have := intRead_length (k := 19) h (by decide) (by decide); omega
  case int128 | uint128 => have := intRead_length (k := 38) h (by decide) (by decide); omega
  case varuint32 =>
    obtain ⟨v, h1, h2⟩ := h
    have := sizeRead_pos h1; have := size4 h2 (by simpa using varRead_lt h1); omega
  case varint32 =>
    obtain ⟨v, h0, h0', h1, h2⟩ := h
    have := sizeRead_pos h1; have := size4 h2 (by omega); omega
  case float32 => obtain ⟨h1, h2⟩ := h; have := fpToJson_length h2; omega
  case float64 => obtain ⟨h1, h2⟩ := h; have := fpToJson_length h2; omega
  case float128 | checksum160 | checksum256 | checksum512 => obtain ⟨s, h1, h2, rfl⟩ := h; have := upper h1; omega
  case time_point =>
    obtain ⟨v, -, -, h1, h2⟩ := h
    have := asString_length h2 (fun _ => timeShown_length); have := h1.1; omega
  case time_point_sec => obtain ⟨h1, h2⟩ := h; have := asString_length h2 (fun _ => timeShown_length); omega
  case block_timestamp => obtain ⟨h1, h2⟩ := h; have := asString_length h2 (fun _ => timeShown_length); omega
  case name => obtain ⟨h1, h2⟩ := h; have := asString_length h2 (n := 13) (fun s hs => hs.1.1); omega
  case bytes =>
    obtain ⟨c, a, s, h1, rfl, h2, rfl⟩ := h
    have := sizeRead_pos h1; have := upper h2; simp only [List.length_append]; omega
  case string =>
    obtain ⟨c, s, h1, rfl, h2⟩ := h
    have := sizeRead_pos h1; have := jsonStr_length h2; simp only [List.length_append]; omega
  case public_key =>
    obtain ⟨s, h1, h2⟩ := h
    have := publicKeyShown_length h1; have := jsonStr_length h2; omega
  case private_key =>
    obtain ⟨s, h1, h2⟩ := h
    have := privateKeyShown_length h1; have := jsonStr_length h2; omega
  case signature =>
    obtain ⟨s, h1, h2⟩ := h
    have := signatureShown_length h1; have := jsonStr_length h2; omega
  case symbol =>
    obtain ⟨h1, h2⟩ := h
    have := asString_length h2 (n := 11) (fun s ⟨w, l, g1, g2, e⟩ => by
      have := shortDecimal_length (k := 2) g1 (by omega)
      have hl := leVal_lt b
      rw [h1] at hl
      have := codeShown_length (k := 7) g2 (by omega)
      rw [e]; simp; omega)
    omega
  case symbol_code =>
    obtain ⟨h1, h2⟩ := h
    have hl := leVal_lt b
    rw [h1] at hl
    have := asString_length h2 (n := 8) (fun s hs => codeShown_length hs hl); omega
  case asset =>
    obtain ⟨v, x, y, h0, h0', h1, h2, rfl, h3⟩ := h
    have := h1.1
    have hl := leVal_lt y
    rw [h2] at hl
    have := asString_length h3 (n := 285) (fun s ⟨w, f, l, g1, g2, g3, e⟩ => by
      have := shortDecimal_length (k := 18) g1 (Nat.lt_of_le_of_lt (Nat.div_le_self _ _) (by omega))
      have := codeShown_length (k := 7) g3 (by omega)
      have := g2.1
      have : leVal y % 256 < 256 := Nat.mod_lt _ (by decide)
      rw [e]
      simp only [List.length_append, List.length_cons]
      repeat' split
      all_goals simp only [List.length_cons, List.length_nil]
      all_goals omega)
    simp only [List.length_append]; omega

/-- The characters of the texts, with one more for each. -/
def sumText : List Bytes → Nat
  | [] => 0
  | t :: l => t.length + 1 + sumText l

theorem joinComma_length : ∀ l : List Bytes, (joinComma l).length ≤ sumText l
  | [] => by simp [joinComma]
  | [t] => by simp [joinComma, sumText]
  | t :: u :: l => by
    have := joinComma_length (u :: l)
    simp only [joinComma, List.length_append, sumText, show (str ",").length = 1 from rfl] at *; omega

theorem grow_add {A d1 d2 x y : Nat} : A * (d1 + 1) * x + A * (d2 + 1) * y ≤ A * (max d1 d2 + 1) * (x + y) := by
  rw [Nat.mul_add (A * (max d1 d2 + 1))]
  exact Nat.add_le_add (Nat.mul_le_mul_right _ (Nat.mul_le_mul_left _ (Nat.succ_le_succ (Nat.le_max_left _ _))))
    (Nat.mul_le_mul_right _ (Nat.mul_le_mul_left _ (Nat.succ_le_succ (Nat.le_max_right _ _))))

theorem grow_step {A d x y : Nat} (h : x ≤ y) : A * (d + 1) * x + A * y ≤ A * (d + 1 + 1) * y := by
  have e : A * (d + 1 + 1) * y = A * (d + 1) * y + A * y := by rw [Nat.mul_succ A (d + 1), Nat.add_mul]
  rw [e]
  exact Nat.add_le_add_right (Nat.mul_le_mul_left _ h) _

theorem namesSize_mem {f : Field} : ∀ {l r : List Field}, 6 * f.name.length + 4 ≤ namesSize (l ++ f :: r)
  | [], r => by simp only [List.nil_append, namesSize]; omega
  | g :: l, r => by have := namesSize_mem (f := f) (l := l) (r := r); simp only [List.cons_append, namesSize]; omega

section
variable {D : AbiDef} {w : Nat}

mutual
theorem shown_length (hw : NamesWithin D w) (hn : NoEmptyStruct D) : ∀ {last : Bool} {p : Ptr} {b t : Bytes} {d : Nat}, Shown D libShown last p b t d →
    1 ≤ b.length ∧ t.length ≤ (w + 128) * (d + 1) * b.length
  | _, _, b, _, _, .scalar _ h => by
    have := libShown_length h
    refine ⟨this.1, Nat.le_trans this.2 ?_⟩
    rw [Nat.zero_add, Nat.mul_one]
    exact Nat.mul_le_mul_right _ (by omega)
  | _, _, _, _, _, .none _ => by simp [str]
  | _, _, _, _, _, .some (d := d) _ _ h => by
    have := shown_length hw hn h
    refine ⟨by simp, Nat.le_trans this.2 (Nat.mul_le_mul_left _ (by simp))⟩
  | _, _, _, _, _, .extension _ h => shown_length hw hn h
  | _, _, b, _, _, .struct (fs := fs) (ms := ms) (d := d) hm h => by
    have h1 := shownFields_length hw hn h
    have h2 := hw _ _ (.inl hm)
    have h3 := joinComma_length ms
    obtain ⟨f, hf, -⟩ := hn _ _ hm
    have h4 := h1.1 (by obtain ⟨g, h5, h6⟩ := hn _ _ hm; exact ⟨g, h5, h6⟩)
    refine ⟨h4, Nat.le_trans ?_ (grow_step (Nat.le_refl _))⟩
    have h5 : w + 128 ≤ (w + 128) * b.length := Nat.le_mul_of_pos_right _ h4
    simp only [List.length_append, show (str "{").length = 1 from rfl, show (str "}").length = 1 from rfl]; omega
  | _, _, _, _, _, .array (c := c) (b := b) (ts := ts) (d := d) _ hc _ h => by
    have h1 := shownElems_length hw hn h
    have h2 := sizeRead_pos hc
    have h3 := joinComma_length ts
    refine ⟨by simp only [List.length_append]; omega, Nat.le_trans ?_ (grow_step (x := b.length) (by simp))⟩
    have h5 : 128 * (c ++ b).length ≤ (w + 128) * (c ++ b).length := Nat.mul_le_mul_right _ (by omega)
    simp only [List.length_append, show (str "[").length = 1 from rfl, show (str "]").length = 1 from rfl] at *; omega
  | _, _, _, _, _, .variant (c := c) (b := b) (d := d) hm hc h hs => by
    have h1 := shown_length hw hn h
    have h2 := sizeRead_pos hc
    have h3 := jsonStr_length hs
    have h4 := Nat.le_trans namesSize_mem (hw _ _ (.inr hm))
    refine ⟨by simp only [List.length_append]; omega, Nat.le_trans ?_ (grow_step (x := b.length) (by simp))⟩
    have h5 : w + 128 ≤ (w + 128) * (c ++ b).length := Nat.le_mul_of_pos_right _ (by simp only [List.length_append]; omega)
    simp only [List.length_append, show (str "[").length = 1 from rfl, show (str "]").length = 1 from rfl, show (str ",").length = 1 from rfl] at *; omega

theorem shownFields_length (hw : NamesWithin D w) (hn : NoEmptyStruct D) : ∀ {last : Bool} {fs : List Field} {b : Bytes} {ms : List Bytes} {d : Nat},
    ShownFields D libShown last fs b ms d →
    ((∃ f ∈ fs, ¬ ∃ q, Meaning D f.type (.extension q)) → 1 ≤ b.length) ∧ sumText ms ≤ namesSize fs + (w + 128) * (d + 1) * b.length
  | _, _, _, _, _, .nil => ⟨nofun, by simp [sumText, namesSize]⟩
  | _, _, _, _, _, .missing h => ⟨fun ⟨f, h1, h2⟩ => absurd (h f h1) h2, by simp [sumText]⟩
  | _, _, _, _, _, .present (b1 := b1) (b2 := b2) (d1 := d1) (d2 := d2) _ h hs hj => by
    have h1 := shown_length hw hn h
    have h2 := shownFields_length hw hn hs
    have h3 := jsonStr_length hj
    have h4 := grow_add (A := w + 128) (d1 := d1) (d2 := d2) (x := b1.length) (y := b2.length)
    refine ⟨fun _ => by simp only [List.length_append]; omega, ?_⟩
    simp only [sumText, namesSize, List.length_append, show (str ":").length = 1 from rfl]; omega

theorem shownElems_length (hw : NamesWithin D w) (hn : NoEmptyStruct D) : ∀ {q : Ptr} {b : Bytes} {ts : List Bytes} {d : Nat},
    ShownElems D libShown q b ts d → sumText ts ≤ b.length + (w + 128) * (d + 1) * b.length
  | _, _, _, _, .nil => by simp [sumText]
  | _, _, _, _, .cons (b1 := b1) (b2 := b2) (d1 := d1) (d2 := d2) h hs => by
    have h1 := shown_length hw hn h
    have h2 := shownElems_length hw hn hs
    have h4 := grow_add (A := w + 128) (d1 := d1) (d2 := d2) (x := b1.length) (y := b2.length)
    simp only [sumText, List.length_append]; omega
end
end

end Abieos
