import Verif.Spec.BinFaults
import Verif.Proofs.KeyFaults
import Verif.Proofs.ShownKey
import Verif.Props.Float
/-
What is wrong with bytes that do not begin with a value of a builtin type.
-/
namespace Abieos
open Spec

theorem sizeFault_iff {most : Nat} {b : Bytes} {m : String} : SizeFault most b m ↔ NoSize most b m := by
  constructor
  · intro h
    cases h with
    | short h1 h2 => exact .inl ⟨h1, h2, rfl⟩
    | long h1 h2 => exact .inr ⟨_, _, rfl, h1, h2, rfl⟩
  · rintro (⟨h1, h2, rfl⟩ | ⟨a, r, rfl, h1, h2, rfl⟩)
    · exact .short h1 h2
    · exact .long h1 h2

theorem size_fails {b : Bytes} {m : String} : Fails (varuint32FromBin b) m ↔ SizeFault 5 b m := by rw [sizeFault_iff, noSize32]

theorem fixed_fails {n : Nat} {b : Bytes} {m : String} : Fails (readBytes n b) m ↔ PartsFault [.fixed n] b m := by
  rw [partsFault_one, readBytes_fails]; rfl

theorem sized_fails {bits most : Nat} {rd : Reader Nat} (h1 : ∀ {b r v}, rd b = .ok (v, r) ↔ ∃ a, b = a ++ r ∧ VarRead bits most v a)
    (h2 : ∀ b m, Fails (rd b) m ↔ NoSize most b m) {α : Type} {f : Bytes × Bytes → Res α} (hf : ∀ x e, f x ≠ .error e) {b : Bytes} {m : String} :
    Fails (rd b >>= fun x => readBytes x.1 x.2 >>= f) m ↔ PartsFault [.sized bits most] b m := by
  rw [partsFault_one, fails_bind, h2]
  refine or_congr Iff.rfl ?_
  constructor
  · rintro ⟨⟨n, s⟩, g1, g2⟩
    rw [fails_map (fun a e _ => hf a e), readBytes_fails] at g2
    obtain ⟨a, rfl, g3⟩ := h1.1 g1
    exact ⟨a, s, n, rfl, g3, g2⟩
  · rintro ⟨a, s, n, rfl, g3, g4⟩
    refine ⟨(n, s), h1.2 ⟨a, rfl, g3⟩, ?_⟩
    rw [fails_map (fun a e _ => hf a e), readBytes_fails]
    exact g4

theorem fpToJson_error {bits : Nat} {e : Err} (h : fpToJson bits = .error e) : e = .ub := by
  by_cases hf : Spec.Finite bits
  · rcases c49_print_length hf with ⟨t, ht, -⟩ | ⟨ht, -⟩
    · rw [ht] at h; cases h
    · rw [ht] at h; injection h with h; exact h.symm
  · rw [c48_print_special hf] at h; cases h

theorem float_fails {n : Nat} {f : Nat → Nat} {b : Bytes} {m : String} : Fails (decFloat n f b) m ↔ PartsFault [.fixed n] b m := by
  unfold decFloat
  rw [fails_bind, fixed_fails]
  constructor
  · rintro (h | ⟨a, -, h⟩)
    · exact h
    · exfalso
      rcases fails_bind.1 h with ⟨e, h1, -, h3⟩ | ⟨_, -, h⟩
      · exact h1 (fpToJson_error h3)
      · exact fails_ok h
  · exact .inl

theorem asset_fails {b : Bytes} {m : String} : Fails (decAsset b) m ↔ PartsFault [.fixed 8, .fixed 8] b m := by
  unfold decAsset
  rw [fails_bind, partsFault_cons]
  have h1 : Fails (intFromBin ⟨true, 64⟩ b) m ↔ PartBad (.fixed 8) b m := by
    unfold intFromBin
    rw [fails_map (fun a e _ h => by cases h), fixed_fails, partsFault_one]
    exact Iff.rfl
  rw [h1]
  refine or_congr Iff.rfl ?_
  have h2 : ∀ (a : Int) (s : Bytes), Fails (readBytes 8 s >>= fun x => assetToString a (leVal x.1) >>= fun t => Except.ok (ε := Err) (jsonString t, (x.2 : Bytes))) m ↔
      PartsFault [.fixed 8] s m := by
    intro a s
    rw [fails_bind, fixed_fails]
    constructor
    · rintro (h | ⟨x, -, h⟩)
      · exact h
      · exfalso
        rcases fails_bind.1 h with ⟨e, g1, -, g3⟩ | ⟨_, -, h⟩
        · unfold assetToString at g3
          split at g3
          · injection g3 with g3; exact g1 g3.symm
          · cases g3
        · exact fails_ok h
    · exact .inl
  constructor
  · rintro ⟨⟨v, s⟩, g1, g2⟩
    have g3 := (h2 v s).1 g2
    unfold intFromBin at g1
    obtain ⟨⟨a, s'⟩, g4, g5⟩ := bind_eq_ok.1 g1
    injection g5 with g5
    injection g5 with _ g5
    subst g5
    obtain ⟨g6, g7⟩ := readBytes_ok g4
    exact ⟨a, s', g6, g7, g3⟩
  · rintro ⟨a, s, rfl, g1, g2⟩
    refine ⟨(IntTy.wrap ⟨true, 64⟩ (leVal a), s), ?_, (h2 _ s).2 g2⟩
    unfold intFromBin
    rw [show (⟨true, 64⟩ : IntTy).bits / 8 = 8 from rfl, readBytes_append 8 a s g1, bind_ok]

/-! ## Keys -/

theorem tagged_fails {ts : List BTy} {kinds : List (List KeyPart)} (hn : ∀ i, kinds.length ≤ i → ∀ s, variantFromBin ts i s = .error .bad_variant_index)
    (hk : ∀ i ps, kinds[i]? = some ps → ∀ (s : Bytes) m, s.length < 2 ^ 32 → (Fails (variantFromBin ts i s) m ↔ PartsFault ps s m)) {b : Bytes} (hb : b.length < 2 ^ 32)
    {m : String} : Fails (fromBin (.variant ts) b) m ↔ TaggedFault kinds b m := by
  rw [fromBin]
  beta_reduce
  rw [fails_bind, size_fails]
  constructor
  · rintro (h | ⟨⟨i, s⟩, h1, h2⟩)
    · exact .noIndex h
    · dsimp only at h2
      rw [fails_map (fun a e _ h => by cases h)] at h2
      obtain ⟨a, rfl, h3⟩ := varuint32_iff.1 h1
      by_cases hi : kinds.length ≤ i
      · rw [hn i hi, fails_error] at h2
        rw [← h2.2]
        exact .noKind h3 hi
      · have hg : kinds[i]? = some (kinds[i]'(by omega)) := List.getElem?_eq_getElem (by omega)
        rw [List.length_append] at hb
        exact .parts h3 hg ((hk _ _ hg s m (by omega)).1 h2)
  · intro h
    cases h with
    | noIndex h => exact .inl h
    | @noKind i c s h1 h2 =>
      refine .inr ⟨(i, s), varuint32_iff.2 ⟨c, rfl, h1⟩, ?_⟩
      dsimp only
      rw [fails_map (fun a e _ h => by cases h), hn i h2, fails_error]
      exact ⟨by simp, rfl⟩
    | @parts i c s ps _ h1 h2 h3 =>
      refine .inr ⟨(i, s), varuint32_iff.2 ⟨c, rfl, h1⟩, ?_⟩
      dsimp only
      rw [List.length_append] at hb
      rw [fails_map (fun a e _ h => by cases h), hk i ps h2 s m (by omega)]
      exact h3

theorem publicBytes_fails {b : Bytes} (hb : b.length < 2 ^ 32) {m : String} : Fails (fromBin publicKeyTy b) m ↔ BytesFault .public_key b m := by
  unfold publicKeyTy
  refine tagged_fails (fun i hi s => ?_) (fun i ps h s m hs => ?_) hb
  · obtain ⟨j, rfl⟩ : ∃ j, i = j + 3 := ⟨i - 3, by simp at hi; omega⟩
    rw [variantFromBin, variantFromBin, variantFromBin, variantFromBin]
  · match i, h with
    | 0, h => cases h; rw [variantFromBin]; exact char_fails s m hs
    | 1, h => cases h; rw [variantFromBin, variantFromBin]; exact char_fails s m hs
    | 2, h =>
      cases h
      rw [variantFromBin, variantFromBin, variantFromBin, struct_fails]
      exact fields_fails (.cons (follows_char 33) (.cons (follows_raw 1) (.cons follows_str .nil))) s m hs
    | i + 3, h => cases h

theorem privateBytes_fails {b : Bytes} (hb : b.length < 2 ^ 32) {m : String} : Fails (fromBin privateKeyTy b) m ↔ BytesFault .private_key b m := by
  unfold privateKeyTy
  refine tagged_fails (fun i hi s => ?_) (fun i ps h s m hs => ?_) hb
  · obtain ⟨j, rfl⟩ : ∃ j, i = j + 2 := ⟨i - 2, by simp at hi; omega⟩
    rw [variantFromBin, variantFromBin, variantFromBin]
  · match i, h with
    | 0, h => cases h; rw [variantFromBin]; exact char_fails s m hs
    | 1, h => cases h; rw [variantFromBin, variantFromBin]; exact char_fails s m hs
    | i + 2, h => cases h

theorem signatureBytes_fails {b : Bytes} (hb : b.length < 2 ^ 32) {m : String} : Fails (fromBin signatureTy b) m ↔ BytesFault .signature b m := by
  unfold signatureTy
  refine tagged_fails (fun i hi s => ?_) (fun i ps h s m hs => ?_) hb
  · obtain ⟨j, rfl⟩ : ∃ j, i = j + 3 := ⟨i - 3, by simp at hi; omega⟩
    rw [variantFromBin, variantFromBin, variantFromBin, variantFromBin]
  · match i, h with
    | 0, h => cases h; rw [variantFromBin]; exact char_fails s m hs
    | 1, h => cases h; rw [variantFromBin, variantFromBin]; exact char_fails s m hs
    | 2, h =>
      cases h
      rw [variantFromBin, variantFromBin, variantFromBin, struct_fails]
      exact fields_fails (.cons (follows_char 65) (.cons follows_rawVec (.cons follows_str .nil))) s m hs
    | i + 3, h => cases h

/-- If whatever is read can be shown, only reading fails. -/
theorem decKey_fails {t : BTy} {f : BVal → Res Bytes} {b : Bytes} (h : ∀ v r, fromBin t b = .ok (v, r) → ∃ x, decKey t f b = .ok x) {m : String} :
    Fails (decKey t f b) m ↔ Fails (fromBin t b) m := by
  cases hv : fromBin t b with
  | error e => unfold decKey; rw [hv, bind_error, fails_error, fails_error]
  | ok x =>
    obtain ⟨y, hy⟩ := h _ _ hv
    rw [hy]
    exact ⟨fun h => absurd h fails_ok, fun h => absurd h fails_ok⟩

theorem asString_of {R : Bytes → Prop} {x : Bytes} (h : R x) : AsString R (jsonString x) := ⟨x, h, jsonStr_iff.2 rfl⟩

theorem decPublic_fails {b : Bytes} (hb : b.length < 2 ^ 32) {m : String} : Fails (decKey publicKeyTy (publicKeyToString keyDigest) b) m ↔ BytesFault .public_key b m := by
  rw [decKey_fails, publicBytes_fails hb]
  intro v r h
  rcases publicKey_read.1 h with ⟨tag, key, h1, h2, h3, -⟩ | ⟨tag, key, h1, h2, h3, -⟩ | ⟨tag, key, c, size, rpid, h1, h2, h3, h4, -⟩
  · exact ⟨_, publicKey_shown.2 ⟨_, h1, asString_of (.k1 h2 h3)⟩⟩
  · exact ⟨_, publicKey_shown.2 ⟨_, h1, asString_of (.r1 h2 h3)⟩⟩
  · obtain ⟨s', hs⟩ := size_exists (n := rpid.length) (by rw [h1] at hb; simp at hb; omega)
    exact ⟨_, publicKey_shown.2 ⟨_, h1, asString_of (.wa h2 h3 h4 hs)⟩⟩

theorem decPrivate_fails {b : Bytes} (hb : b.length < 2 ^ 32) {m : String} :
    Fails (decKey privateKeyTy (privateKeyToString keyDigest) b) m ↔ BytesFault .private_key b m := by
  rw [decKey_fails, privateBytes_fails hb]
  intro v r h
  rcases privateKey_read.1 h with ⟨tag, key, h1, h2, h3, -⟩ | ⟨tag, key, h1, h2, h3, -⟩
  · exact ⟨_, privateKey_shown.2 ⟨_, h1, asString_of (.k1 h2 h3)⟩⟩
  · exact ⟨_, privateKey_shown.2 ⟨_, h1, asString_of (.r1 h2 h3)⟩⟩

theorem decSignature_fails {b : Bytes} (hb : b.length < 2 ^ 32) {m : String} :
    Fails (decKey signatureTy (signatureToString keyDigest) b) m ↔ BytesFault .signature b m := by
  rw [decKey_fails, signatureBytes_fails hb]
  intro v r h
  rcases signature_read.1 h with ⟨tag, key, h1, h2, h3, -⟩ | ⟨tag, key, h1, h2, h3, -⟩ | ⟨tag, key, n, data, k, json, h1, h2, h3, h4, -, h5, -⟩
  · exact ⟨_, signature_shown.2 ⟨_, h1, asString_of (.k1 h2 h3)⟩⟩
  · exact ⟨_, signature_shown.2 ⟨_, h1, asString_of (.r1 h2 h3)⟩⟩
  · obtain ⟨s', hs⟩ := size_exists (n := data.length) (by rw [h1] at hb; simp at hb; omega)
    obtain ⟨s'', hs'⟩ := size_exists (n := json.length) (by rw [h1] at hb; simp at hb; omega)
    exact ⟨_, signature_shown.2 ⟨_, h1, asString_of (.wa h2 h3 h4 hs h5 hs')⟩⟩

/-- What is wrong with the bytes of a scalar. -/
theorem bytes_fails {k : Builtin} {b : Bytes} (hb : b.length < 2 ^ 32) {m : String} : Fails (builtinFromBin k b) m ↔ BytesFault k b m := by
  have hi : ∀ (t : IntTy) n, t.bits / 8 = n → (Fails (decInt t b) m ↔ PartsFault [.fixed n] b m) := by
    intro t n hn
    unfold decInt intFromBin
    rw [fails_map (fun a e _ h => by cases h), fails_map (fun a e _ h => by cases h), hn, fixed_fails]
  have hw : ∀ n (f : Nat → Bytes), Fails (decWord n f b) m ↔ PartsFault [.fixed n] b m := by
    intro n f
    unfold decWord
    rw [fails_map (fun a e _ h => by cases h), fixed_fails]
  have hx : ∀ n, Fails (decFixed n b) m ↔ PartsFault [.fixed n] b m := by
    intro n
    unfold decFixed
    rw [fails_map (fun a e _ h => by cases h), fixed_fails]
  cases k <;> simp only [builtinFromBin, BytesFault]
  case bool =>
    rw [fails_map (fun a e _ h => by cases h)]
    unfold readU8
    rw [partsFault_one]
    cases b with
    | nil =>
      rw [fails_error]
      show _ ↔ ([] : Bytes).length < 1 ∧ _
      exact ⟨fun h => ⟨by simp, h.2.symm⟩, fun h => ⟨by simp, h.2.symm⟩⟩
    | cons c b =>
      show _ ↔ (c :: b).length < 1 ∧ _
      exact ⟨fun h => absurd h fails_ok, fun h => by simp at h⟩
  case varuint32 => unfold decVaruint; rw [fails_map (fun a e _ h => by cases h), size_fails]
  case varint32 =>
    unfold decVarint varint32FromBin
    rw [fails_map (fun a e _ h => by cases h), fails_map (fun a e _ h => by cases h), size_fails]
  case float32 => exact float_fails
  case float64 => exact float_fails
  case bytes => exact sized_fails varuint64_iff noSize64 (fun x e h => by cases h)
  case string => exact sized_fails varuint32_iff noSize32 (fun x e h => by cases h)
  case public_key => exact decPublic_fails hb
  case private_key => exact decPrivate_fails hb
  case signature => exact decSignature_fails hb
  case asset => exact asset_fails
  all_goals first | exact hi _ _ rfl | exact hw _ _ | exact hx _

end Abieos
