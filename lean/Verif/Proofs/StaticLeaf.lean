import Verif.Proofs.StaticValue
import Verif.Props.RoundTrip
/-! `from_bin` of builtin types, and the texts of what was read. -/
namespace Abieos
open Spec

theorem wf_leafTy (k : Builtin) : WfType (leafTy k) := by
  cases k <;> simp [leafTy, WfType, WfTypes, publicKeyTy, privateKeyTy, signatureTy, charArray]

theorem zz_onto {m : Nat} (h : m < 2 ^ 32) : ∃ n, n < 2 ^ 32 ∧ zz n = m := by
  unfold zz
  by_cases e : m % 2 = 0
  · exact ⟨m / 2, by omega, by rw [if_pos (by omega)]; omega⟩
  · exact ⟨2 ^ 32 - (m + 1) / 2, by omega, by rw [if_neg (by omega)]; omega⟩

theorem zz_lt' {n : Nat} (h : n < 2 ^ 32) : zz n < 2 ^ 32 := by
  unfold zz; split <;> omega

theorem leafBytes_iff (k : Builtin) (b : Bytes) : LeafBytes k b ↔ ∃ x, Layout (leafTy k) x b := by
  cases k <;> simp only [LeafBytes, leafTy, Layout, exists_and_right, exists_eq_left, exists_eq, true_and]
  case varuint32 =>
    constructor
    · rintro ⟨n, h1, h2⟩; exact ⟨.num n, n, rfl, h1, h2⟩
    · rintro ⟨_, n, rfl, h1, h2⟩; exact ⟨n, h1, h2⟩
  case varint32 =>
    constructor
    · rintro ⟨m, h1, h2⟩
      obtain ⟨n, h3, rfl⟩ := zz_onto h1
      exact ⟨.num n, n, rfl, h3, h2⟩
    · rintro ⟨_, n, rfl, h1, h2⟩; exact ⟨_, zz_lt' h1, h2⟩
  case bytes =>
    constructor
    · rintro ⟨h, a, h1, rfl⟩
      exact ⟨.raw a, h, a, a.length, rfl, h1, by simp, by have := h1.1; omega, rfl⟩
    · rintro ⟨_, h, a, n, rfl, h1, h2, -, rfl⟩
      exact ⟨h, a, by rw [h2, Nat.mul_one]; exact h1, rfl⟩
  case string =>
    constructor
    · rintro ⟨h, a, h1, rfl⟩; exact ⟨.raw a, h, a, rfl, h1, rfl⟩
    · rintro ⟨_, h, a, rfl, h1, rfl⟩; exact ⟨h, a, h1, rfl⟩
  case asset =>
    simp only [LayoutFields, Layout]
    constructor
    · intro h
      refine ⟨.list [.raw (b.take 8), .raw (b.drop 8)], _, rfl, _, _, b.take 8, b.drop 8, rfl, ⟨rfl, by simp; omega⟩, ⟨_, _, b.drop 8, [], rfl, ⟨rfl, by simp; omega⟩, ⟨rfl, rfl⟩, by simp⟩, by simp⟩
    · rintro ⟨_, _, _, _, _, x, y, _, ⟨_, h1⟩, ⟨_, _, z, _, _, ⟨_, h2⟩, ⟨_, rfl⟩, rfl⟩, rfl⟩
      simp; omega

theorem leafFromBin_stored {k : Builtin} {b : Bytes} (h : LeafBytes k b) (rest : Bytes) : leafFromBin k (b ++ rest) = .ok (.leaf b, rest) := by
  obtain ⟨x, h⟩ := (leafBytes_iff k b).1 h
  unfold leafFromBin
  rw [layout_read _ _ _ (wf_leafTy k) h rest, bind_ok]
  simp only
  rw [layout_write _ _ _ (wf_leafTy k) h []]
  rfl

theorem leafFromBin_eq {k : Builtin} {s r : Bytes} {v : SVal} : leafFromBin k s = .ok (v, r) ↔
    ∃ x b, fromBin (leafTy k) s = .ok (x, r) ∧ toBinG vectorWrite (leafTy k) x [] = .ok b ∧ v = .leaf b := by
  unfold leafFromBin
  rw [bind_eq_ok]
  constructor
  · rintro ⟨⟨x, r'⟩, h1, h2⟩
    simp only at h2
    split at h2
    · rename_i b hb
      simp only [Except.ok.injEq, Prod.mk.injEq] at h2
      obtain ⟨rfl, rfl⟩ := h2
      exact ⟨x, b, h1, hb, rfl⟩
    · simp at h2
  · rintro ⟨x, b, h1, h2, rfl⟩
    exact ⟨(x, r), h1, by simp only [h2]⟩

theorem leafFromBin_took {k : Builtin} {s r : Bytes} {v : SVal} (h : leafFromBin k s = .ok (v, r)) :
    (∃ p, s = p ++ r) ∧ (s.length < 2 ^ 32 → ∃ b, v = .leaf b ∧ LeafBytes k b) := by
  obtain ⟨x, b, h1, h2, rfl⟩ := leafFromBin_eq.1 h
  obtain ⟨h3, h4⟩ := fromBin_took _ _ _ _ (wf_leafTy k) h1
  refine ⟨h3, fun hs => ⟨b, rfl, (leafBytes_iff k b).2 ⟨x, ?_⟩⟩⟩
  obtain ⟨b', h5⟩ := h4 hs
  rw [layout_write _ _ _ (wf_leafTy k) h5 []] at h2
  injection h2 with h2
  simpa [← h2] using h5

/-- `to_json` of a builtin value -/
def showLeaf : Builtin → BVal → Res Bytes
  | .bool, .raw b => .ok (if b ≠ [0] then str "true" else str "false")
  | .int8, .raw b => .ok (intToJson ⟨true, 8⟩ (IntTy.wrap ⟨true, 8⟩ (leVal b)))
  | .uint8, .raw b => .ok (intToJson ⟨false, 8⟩ (IntTy.wrap ⟨false, 8⟩ (leVal b)))
  | .int16, .raw b => .ok (intToJson ⟨true, 16⟩ (IntTy.wrap ⟨true, 16⟩ (leVal b)))
  | .uint16, .raw b => .ok (intToJson ⟨false, 16⟩ (IntTy.wrap ⟨false, 16⟩ (leVal b)))
  | .int32, .raw b => .ok (intToJson ⟨true, 32⟩ (IntTy.wrap ⟨true, 32⟩ (leVal b)))
  | .uint32, .raw b => .ok (intToJson ⟨false, 32⟩ (IntTy.wrap ⟨false, 32⟩ (leVal b)))
  | .int64, .raw b => .ok (intToJson ⟨true, 64⟩ (IntTy.wrap ⟨true, 64⟩ (leVal b)))
  | .uint64, .raw b => .ok (intToJson ⟨false, 64⟩ (IntTy.wrap ⟨false, 64⟩ (leVal b)))
  | .int128, .raw b => .ok (intToJson ⟨true, 128⟩ (IntTy.wrap ⟨true, 128⟩ (leVal b)))
  | .uint128, .raw b => .ok (intToJson ⟨false, 128⟩ (IntTy.wrap ⟨false, 128⟩ (leVal b)))
  | .varuint32, .num n => .ok (intToJson ⟨false, 32⟩ n)
  | .varint32, .num n => .ok (intToJson ⟨true, 32⟩ (BitVec.ofNat 32 n).toInt)
  | .float32, .raw b => fpToJson (widenFloat (leVal b))
  | .float64, .raw b => fpToJson (leVal b)
  | .float128, .raw b => .ok (34 :: (hexEncode b ++ [34]))
  | .time_point, .raw b => .ok (jsonString (microsecondsToStr (toI64 (leVal b))))
  | .time_point_sec, .raw b => .ok (jsonString (timePointSecToText (leVal b)))
  | .block_timestamp, .raw b => .ok (jsonString (slotToText (leVal b)))
  | .name, .raw b => .ok (jsonString (nameToString (leVal b)))
  | .bytes, .raw b => .ok (34 :: (hexEncode b ++ [34]))
  | .string, .raw b => .ok (jsonString b)
  | .checksum160, .raw b => .ok (34 :: (hexEncode b ++ [34]))
  | .checksum256, .raw b => .ok (34 :: (hexEncode b ++ [34]))
  | .checksum512, .raw b => .ok (34 :: (hexEncode b ++ [34]))
  | .public_key, v => (publicKeyToString keyDigest v).map jsonString
  | .private_key, v => (privateKeyToString keyDigest v).map jsonString
  | .signature, v => (signatureToString keyDigest v).map jsonString
  | .symbol, .raw b => .ok (jsonString (symbolToString (leVal b)))
  | .symbol_code, .raw b => .ok (jsonString (symbolCodeToString (leVal b)))
  | .asset, .list [.raw a, .raw b] => (assetToString (IntTy.wrap ⟨true, 64⟩ (leVal a)) (leVal b)).map jsonString
  | _, _ => .error .ub

theorem raw_show {n : Nat} {f : Bytes → Res Bytes} {g : BVal → Res Bytes} (hg : ∀ b, g (.raw b) = f b) (s : Bytes) :
    (do let (a, rest) ← readBytes n s; let t ← f a; .ok (t, rest)) = (do let (x, rest) ← fromBin (.raw n) s; let t ← g x; .ok (t, rest)) := by
  simp only [fromBin]
  cases h : readBytes n s with
  | error e => simp [bind_error]
  | ok p => obtain ⟨a, r⟩ := p; simp only [bind_ok, hg]

theorem builtinFromBin_eq (k : Builtin) (hk : k ≠ .bytes) (s : Bytes) :
    builtinFromBin k s = (do let (x, rest) ← fromBin (leafTy k) s; let t ← showLeaf k x; .ok (t, rest)) := by
  have word : ∀ {n : Nat} {p : Nat → Bytes} {g : BVal → Res Bytes}, (∀ b, g (.raw b) = .ok (jsonString (p (leVal b)))) →
      decWord n p s = (do let (x, rest) ← fromBin (.raw n) s; let t ← g x; .ok (t, rest)) :=
    fun hg => raw_show (f := fun b => .ok _) hg s
  have fixed : ∀ {n : Nat} {g : BVal → Res Bytes}, (∀ b, g (.raw b) = .ok (34 :: (hexEncode b ++ [34]))) →
      decFixed n s = (do let (x, rest) ← fromBin (.raw n) s; let t ← g x; .ok (t, rest)) :=
    fun hg => raw_show (f := fun b => .ok _) hg s
  have int : ∀ {t : IntTy} {n : Nat} {g : BVal → Res Bytes}, t.bits / 8 = n → (∀ b, g (.raw b) = .ok (intToJson t (t.wrap (leVal b)))) →
      decInt t s = (do let (x, rest) ← fromBin (.raw n) s; let t ← g x; .ok (t, rest)) := by
    intro t n g hn hg
    subst hn
    rw [← raw_show (f := fun b => .ok _) hg s]
    unfold decInt intFromBin
    cases h : readBytes (t.bits / 8) s with
    | error e => simp [bind_error]
    | ok p => obtain ⟨a, r⟩ := p; simp only [bind_ok]
  have key : ∀ {t : BTy} {f g : BVal → Res Bytes}, (∀ v, g v = (f v).map jsonString) → decKey t f s = (do let (x, rest) ← fromBin t s; let t ← g x; .ok (t, rest)) := by
    intro t f g hg
    unfold decKey
    cases h : fromBin t s with
    | error e => simp [bind_error]
    | ok p =>
      obtain ⟨a, r⟩ := p
      simp only [bind_ok, hg]
      cases f a <;> simp [bind_error, bind_ok, Except.map]
  cases k
  case bytes => exact absurd rfl hk
  case bool =>
    simp only [builtinFromBin, leafTy, fromBin]
    cases h : readU8 s with
    | error e => simp [bind_error]
    | ok p =>
      obtain ⟨a, r⟩ := p
      simp only [bind_ok, showLeaf]
      by_cases e : a = 0 <;> simp [e]
  case varuint32 =>
    simp only [builtinFromBin, leafTy, fromBin, decVaruint]
    cases h : varuint32FromBin s with
    | error e => simp [bind_error]
    | ok p => obtain ⟨a, r⟩ := p; simp only [bind_ok, showLeaf]
  case varint32 =>
    simp only [builtinFromBin, leafTy, fromBin, decVarint]
    cases h : varint32FromBin s with
    | error e => simp [bind_error]
    | ok p => obtain ⟨a, r⟩ := p; simp only [bind_ok, showLeaf]; simp
  case string =>
    simp only [builtinFromBin, leafTy, fromBin, decString]
    cases h : varuint32FromBin s with
    | error e => simp [bind_error]
    | ok p =>
      obtain ⟨n, r⟩ := p
      simp only [bind_ok]
      cases h : readBytes n r with
      | error e => simp [bind_error]
      | ok q => obtain ⟨a, r⟩ := q; simp only [bind_ok, showLeaf]
  case asset =>
    simp only [builtinFromBin, leafTy, fromBin, fromBinFields, decAsset, intFromBin]
    rw [show (⟨true, 64⟩ : IntTy).bits / 8 = 8 from rfl]
    cases h : readBytes 8 s with
    | error e => simp [bind_error]
    | ok p =>
      obtain ⟨n, r⟩ := p
      simp only [bind_ok]
      cases h : readBytes 8 r with
      | error e => simp [bind_error]
      | ok q =>
        obtain ⟨a, r⟩ := q
        simp only [bind_ok, showLeaf]
        cases assetToString (IntTy.wrap ⟨true, 64⟩ (leVal n)) (leVal a) <;> simp [bind_error, bind_ok, Except.map]
  case float32 => exact raw_show (f := fun b => fpToJson (widenFloat (leVal b))) (g := showLeaf .float32) (fun b => by simp only [showLeaf]) s
  case float64 => exact raw_show (f := fun b => fpToJson (leVal b)) (g := showLeaf .float64) (fun b => by simp only [showLeaf]) s
  case public_key => rw [builtinFromBin, leafTy]; exact key (g := showLeaf .public_key) fun v => by simp only [showLeaf]
  case private_key => rw [builtinFromBin, leafTy]; exact key (g := showLeaf .private_key) fun v => by simp only [showLeaf]
  case signature => rw [builtinFromBin, leafTy]; exact key (g := showLeaf .signature) fun v => by simp only [showLeaf]
  case float128 => rw [builtinFromBin, leafTy]; exact fixed (g := showLeaf .float128) fun b => by simp only [showLeaf]
  case checksum160 => rw [builtinFromBin, leafTy]; exact fixed (g := showLeaf .checksum160) fun b => by simp only [showLeaf]
  case checksum256 => rw [builtinFromBin, leafTy]; exact fixed (g := showLeaf .checksum256) fun b => by simp only [showLeaf]
  case checksum512 => rw [builtinFromBin, leafTy]; exact fixed (g := showLeaf .checksum512) fun b => by simp only [showLeaf]
  case time_point => rw [builtinFromBin, leafTy]; exact word (p := fun v => microsecondsToStr (toI64 v)) (g := showLeaf .time_point) fun b => by simp only [showLeaf]
  case time_point_sec => rw [builtinFromBin, leafTy]; exact word (p := timePointSecToText) (g := showLeaf .time_point_sec) fun b => by simp only [showLeaf]
  case block_timestamp => rw [builtinFromBin, leafTy]; exact word (p := slotToText) (g := showLeaf .block_timestamp) fun b => by simp only [showLeaf]
  case name => rw [builtinFromBin, leafTy]; exact word (p := nameToString) (g := showLeaf .name) fun b => by simp only [showLeaf]
  case symbol => rw [builtinFromBin, leafTy]; exact word (p := symbolToString) (g := showLeaf .symbol) fun b => by simp only [showLeaf]
  case symbol_code => rw [builtinFromBin, leafTy]; exact word (p := symbolCodeToString) (g := showLeaf .symbol_code) fun b => by simp only [showLeaf]
  case int8 => rw [builtinFromBin, leafTy]; exact int (t := ⟨true, 8⟩) (g := showLeaf .int8) rfl fun b => by simp only [showLeaf]
  case uint8 => rw [builtinFromBin, leafTy]; exact int (t := ⟨false, 8⟩) (g := showLeaf .uint8) rfl fun b => by simp only [showLeaf]
  case int16 => rw [builtinFromBin, leafTy]; exact int (t := ⟨true, 16⟩) (g := showLeaf .int16) rfl fun b => by simp only [showLeaf]
  case uint16 => rw [builtinFromBin, leafTy]; exact int (t := ⟨false, 16⟩) (g := showLeaf .uint16) rfl fun b => by simp only [showLeaf]
  case int32 => rw [builtinFromBin, leafTy]; exact int (t := ⟨true, 32⟩) (g := showLeaf .int32) rfl fun b => by simp only [showLeaf]
  case uint32 => rw [builtinFromBin, leafTy]; exact int (t := ⟨false, 32⟩) (g := showLeaf .uint32) rfl fun b => by simp only [showLeaf]
  case int64 => rw [builtinFromBin, leafTy]; exact int (t := ⟨true, 64⟩) (g := showLeaf .int64) rfl fun b => by simp only [showLeaf]
  case uint64 => rw [builtinFromBin, leafTy]; exact int (t := ⟨false, 64⟩) (g := showLeaf .uint64) rfl fun b => by simp only [showLeaf]
  case int128 => rw [builtinFromBin, leafTy]; exact int (t := ⟨true, 128⟩) (g := showLeaf .int128) rfl fun b => by simp only [showLeaf]
  case uint128 => rw [builtinFromBin, leafTy]; exact int (t := ⟨false, 128⟩) (g := showLeaf .uint128) rfl fun b => by simp only [showLeaf]

theorem builtinFromBin_iff {k : Builtin} {s t r : Bytes} (hs : s.length < 2 ^ 32) :
    builtinFromBin k s = .ok (t, r) ↔ ∃ x, fromBin (leafTy k) s = .ok (x, r) ∧ showLeaf k x = .ok t := by
  by_cases hk : k = .bytes
  · subst hk
    simp only [builtinFromBin, leafTy, fromBin, decBytes]
    cases h : varuint64FromBin s with
    | error e => simp [bind_error]
    | ok p =>
      obtain ⟨n, s'⟩ := p
      simp only [bind_ok]
      obtain ⟨q, rfl⟩ : ∃ q, s = q ++ s' := by
        have := prefix_varuint64 s n s' h
        exact this.imp fun _ h => h.1
      rw [List.length_append] at hs
      by_cases hn : n ≤ s'.length
      · have h1 : n * 1 % 2 ^ 64 = n := by omega
        rw [h1, show decide (n ≤ s'.length) = true by simpa using hn, show decide (n ≤ vectorMax 1) = true by simp [vectorMax]; omega]
        simp only [check_true, bind_ok]
        cases h : readBytes n s' with
        | error e => simp [bind_error]
        | ok p =>
          obtain ⟨a, r'⟩ := p
          simp only [bind_ok, Except.ok.injEq, Prod.mk.injEq]
          constructor
          · rintro ⟨rfl, rfl⟩; exact ⟨.raw a, ⟨rfl, rfl⟩, rfl⟩
          · rintro ⟨_, ⟨rfl, rfl⟩, h⟩; simpa [showLeaf] using h
      · have h1 : ¬ ∃ a r', readBytes n s' = .ok (a, r') := by
          rintro ⟨a, r', h⟩
          obtain ⟨rfl, h2⟩ := readBytes_ok h
          rw [List.length_append] at hn; omega
        constructor
        · intro h
          obtain ⟨⟨a, r'⟩, h2, -⟩ := bind_eq_ok.1 h
          exact absurd ⟨a, r', h2⟩ h1
        · rintro ⟨x, h, -⟩
          obtain ⟨_, hc, h⟩ := bind_eq_ok.1 h
          obtain ⟨_, hd, h⟩ := bind_eq_ok.1 h
          have hc := check_eq_ok.1 hc
          have hd := check_eq_ok.1 hd
          simp only [decide_eq_true_eq, vectorMax, Nat.mul_one, Nat.div_one] at hc hd
          rw [Nat.mod_eq_of_lt (by omega)] at hc
          omega
  · rw [builtinFromBin_eq k hk, bind_eq_ok]
    constructor
    · rintro ⟨⟨x, r'⟩, h1, h2⟩
      obtain ⟨t', h3, h4⟩ := bind_eq_ok.1 h2
      simp only [Except.ok.injEq, Prod.mk.injEq] at h4
      obtain ⟨rfl, rfl⟩ := h4
      exact ⟨x, h1, h3⟩
    · rintro ⟨x, h1, h2⟩
      exact ⟨(x, r), h1, by simp only [h2, bind_ok]⟩

theorem leaf_text {k : Builtin} {x : BVal} {b : Bytes} (h : Layout (leafTy k) x b) (rest : Bytes) :
    builtinFromBin k (b ++ rest) = (showLeaf k x).map (·, rest) := by
  by_cases hk : k = .bytes
  · subst hk
    simp only [leafTy, Layout] at h
    obtain ⟨y, a, n, rfl, h1, h2, -, rfl⟩ := h
    rw [Nat.mul_one] at h2
    simp only [builtinFromBin, decBytes]
    rw [List.append_assoc, size_read64 h1, bind_ok]
    simp only
    rw [readBytes_append n a rest h2, bind_ok]
    simp only [showLeaf, Except.map]
  · rw [builtinFromBin_eq k hk, layout_read _ _ _ (wf_leafTy k) h rest, bind_ok]
    simp only
    cases showLeaf k x <;> simp [bind_error, bind_ok, Except.map]

/-- the text of a builtin value does not depend on how it was written -/
theorem leaf_show {k : Builtin} {s t r : Bytes} (hs : s.length < 2 ^ 32) :
    builtinFromBin k s = .ok (t, r) ↔ ∃ b, leafFromBin k s = .ok (.leaf b, r) ∧ builtinFromBin k b = .ok (t, []) := by
  constructor
  · intro h
    obtain ⟨x, h1, h2⟩ := (builtinFromBin_iff hs).1 h
    obtain ⟨-, h3⟩ := fromBin_took _ _ _ _ (wf_leafTy k) h1
    obtain ⟨b, hb⟩ := h3 hs
    refine ⟨b, leafFromBin_eq.2 ⟨x, b, h1, by rw [layout_write _ _ _ (wf_leafTy k) hb []]; rfl, rfl⟩, ?_⟩
    have := leaf_text hb []
    rw [List.append_nil] at this
    rw [this, h2]; rfl
  · rintro ⟨b, h1, h2⟩
    obtain ⟨x, b', h3, h4, e⟩ := leafFromBin_eq.1 h1
    injection e with e; subst e
    obtain ⟨-, h5⟩ := fromBin_took _ _ _ _ (wf_leafTy k) h3
    obtain ⟨b', hb⟩ := h5 hs
    rw [layout_write _ _ _ (wf_leafTy k) hb []] at h4
    injection h4 with h4
    rw [List.nil_append] at h4; subst h4
    have := leaf_text hb []
    rw [List.append_nil] at this
    rw [this] at h2
    refine (builtinFromBin_iff hs).2 ⟨x, h3, ?_⟩
    cases e : showLeaf k x with
    | error => rw [e] at h2; simp [Except.map] at h2
    | ok t' => rw [e] at h2; simpa [Except.map] using h2

end Abieos
