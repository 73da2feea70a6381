import Verif.Proofs.NoUb
import Verif.Props.StaticBin
import Verif.Props.RoundTrip
import Verif.Props.Single
import Verif.Props.Encode
import Verif.Spec.Defined
/-
Conversions have no undefined behaviour, but for the exceptions stated.
-/
namespace Abieos
open Spec

/-! ## Static types -/

/-- writing the value is not undefined -/
def Writable (t : BTy) (v : BVal) : Prop := ∀ acc, Defined (toBinG vectorWrite t v acc)

theorem defined_vectorWrite (b acc : Bytes) : Defined (vectorWrite b acc) := .ok _

theorem defined_writeEach : ∀ b acc, Defined (writeEach vectorWrite b acc)
  | [], _ => .ok _
  | _ :: l, _ => (defined_vectorWrite _ _).bind fun _ => defined_writeEach l _

theorem defined_varuintToBin (n : Nat) : Defined (varuint32ToBin n) := by
  unfold varuint32ToBin; split
  · exact .error (by decide)
  · exact .ok _

theorem defined_varuintWrite (n : Nat) (acc : Bytes) : Defined (varuint32Write vectorWrite n acc) :=
  (defined_varuintToBin _).bind fun _ => defined_writeEach _ _

theorem defined_writeAll {f : BVal → Bytes → Res Bytes} : ∀ l : List BVal, (∀ v ∈ l, ∀ acc, Defined (f v acc)) → ∀ acc, Defined (writeAll f l acc)
  | [], _, _ => .ok _
  | v :: l, h, _ => (h v (by simp) _).bind fun _ => defined_writeAll l (fun u hu => h u (by simp [hu])) _

theorem defined_readU8 (s : Bytes) : Defined (readU8 s) := by
  unfold readU8; cases s with
  | nil => exact .error (by decide)
  | cons => exact .ok _

theorem defined_readN {f : Reader BVal} (h : DefinedR f) : ∀ n, DefinedR (readN f n)
  | 0, _ => .ok _
  | n + 1, _ => (h _).bind fun _ => (defined_readN h n _).bind fun _ => .ok _

theorem defined_readAssoc {lt : BVal → BVal → Bool} {f : Reader BVal} (h : DefinedR f) : ∀ n acc, DefinedR (readAssoc lt f n acc)
  | 0, _, _ => .ok _
  | n + 1, _, _ => (h _).bind fun _ => defined_readAssoc h n _ _

mutual
theorem defined_fromBin : ∀ t, DefinedR (fromBin t)
  | .raw n => fun s => by rw [fromBin]; exact (defined_readBytes _ _).bind fun _ => .ok _
  | .bool => fun s => by rw [fromBin]; exact (defined_readU8 _).bind fun _ => .ok _
  | .varuint32 => fun s => by rw [fromBin]; exact (defined_varuint _).bind fun _ => .ok _
  | .varint32 => fun s => by
    rw [fromBin]; unfold varint32FromBin
    exact ((defined_varuint _).bind fun _ => .ok _).bind fun _ => .ok _
  | .str => fun s => by rw [fromBin]; exact (defined_varuint _).bind fun _ => (defined_readBytes _ _).bind fun _ => .ok _
  | .rawVec n => fun s => by
    rw [fromBin]
    exact (defined_varuint64 _).bind fun _ => (defined_check _ (by decide)).bind fun _ => (defined_check _ (by decide)).bind fun _ =>
      (defined_readBytes _ _).bind fun _ => .ok _
  | .vec t => fun s => by rw [fromBin]; exact (defined_varuint _).bind fun _ => (defined_readN (defined_fromBin t) _ _).bind fun _ => .ok _
  | .set lt t => fun s => by
    rw [fromBin]; exact (defined_varuint _).bind fun _ => (defined_readAssoc (defined_fromBin t) _ _ _).bind fun _ => .ok _
  | .map lt k v => fun s => by
    rw [fromBin]
    exact (defined_varuint _).bind fun _ => (defined_readAssoc (fun _ => (defined_fromBin k _).bind fun _ => (defined_fromBin v _).bind fun _ => .ok _)
      _ _ _).bind fun _ => .ok _
  | .stream => fun s => by
    rw [fromBin]
    exact (defined_varuint64 _).bind fun _ => (defined_check _ (by decide)).bind fun _ => (defined_readBytes _ _).bind fun _ => .ok _
  | .carr n t => fun s => by
    rw [fromBin]
    exact (defined_varuint _).bind fun _ => (defined_check _ (by decide)).bind fun _ => (defined_readN (defined_fromBin t) _ _).bind fun _ => .ok _
  | .arr n t => fun s => by rw [fromBin]; exact (defined_readN (defined_fromBin t) _ _).bind fun _ => .ok _
  | .opt t => fun s => by
    rw [fromBin]
    refine (defined_readU8 _).bind fun _ => ?_
    simp only
    split
    · exact .ok _
    · exact (defined_fromBin t _).bind fun _ => .ok _
  | .variant ts => fun s => by rw [fromBin]; exact (defined_varuint _).bind fun _ => (defined_variantFromBin ts _ _).bind fun _ => .ok _
  | .struct ts => fun s => by rw [fromBin]; exact (defined_fromBinFields ts _).bind fun _ => .ok _
  | .maybe d t => fun s => by
    rw [fromBin]; beta_reduce; split
    · exact .ok _
    · exact defined_fromBin t _
theorem defined_variantFromBin : ∀ ts i, DefinedR (variantFromBin ts i)
  | [], _ => fun s => by rw [variantFromBin]; exact .error (by decide)
  | t :: _, 0 => fun s => by rw [variantFromBin]; exact defined_fromBin t s
  | _ :: ts, i + 1 => fun s => by rw [variantFromBin]; exact defined_variantFromBin ts i s
theorem defined_fromBinFields : ∀ ts, DefinedR (fromBinFields ts)
  | [] => fun s => by rw [fromBinFields]; exact .ok _
  | t :: ts => fun s => by
    rw [fromBinFields]; exact (defined_fromBin t _).bind fun _ => (defined_fromBinFields ts _).bind fun _ => .ok _
end

theorem readN_all {f : Reader BVal} {P : BVal → Prop} (h : ∀ s v r, f s = .ok (v, r) → P v) : ∀ n s l r, readN f n s = .ok (l, r) → ∀ v ∈ l, P v
  | 0, s, l, r, e => by
    simp only [readN, Except.ok.injEq, Prod.mk.injEq] at e
    obtain ⟨rfl, rfl⟩ := e; simp
  | n + 1, s, l, r, e => by
    rw [readN] at e
    obtain ⟨⟨v, s1⟩, h1, e⟩ := bind_eq_ok.1 e
    obtain ⟨⟨l', s2⟩, h2, e⟩ := bind_eq_ok.1 e
    simp only [Except.ok.injEq, Prod.mk.injEq] at e
    obtain ⟨rfl, rfl⟩ := e
    intro u hu
    rcases List.mem_cons.1 hu with rfl | hu
    · exact h _ _ _ h1
    · exact readN_all h n _ _ _ h2 u hu

theorem emplace_all {lt : BVal → BVal → Bool} {P : BVal → Prop} {x : BVal} (hx : P x) : ∀ l, (∀ v ∈ l, P v) → ∀ v ∈ emplaceSorted lt x l, P v
  | [], _, v, hv => by
    simp only [emplaceSorted, List.mem_singleton] at hv; rw [hv]; exact hx
  | y :: l, h, v, hv => by
    rw [emplaceSorted] at hv
    split at hv
    · rcases List.mem_cons.1 hv with rfl | hv
      · exact h _ (by simp)
      · exact emplace_all hx l (fun u hu => h u (by simp [hu])) v hv
    · split at hv
      · rcases List.mem_cons.1 hv with rfl | hv
        · exact hx
        · exact h v hv
      · exact h v hv

theorem readAssoc_all {lt : BVal → BVal → Bool} {f : Reader BVal} {P : BVal → Prop} (h : ∀ s v r, f s = .ok (v, r) → P v) :
    ∀ n acc s l r, (∀ v ∈ acc, P v) → readAssoc lt f n acc s = .ok (l, r) → ∀ v ∈ l, P v
  | 0, acc, s, l, r, ha, e => by
    simp only [readAssoc, Except.ok.injEq, Prod.mk.injEq] at e
    obtain ⟨rfl, rfl⟩ := e; exact ha
  | n + 1, acc, s, l, r, ha, e => by
    rw [readAssoc] at e
    obtain ⟨⟨v, s1⟩, h1, e⟩ := bind_eq_ok.1 e
    exact readAssoc_all h n _ _ _ _ (emplace_all (h _ _ _ h1) _ ha) e

mutual
/-- a value that was read can be written -/
theorem writable_of_read : ∀ t s v r, WfType t → fromBin t s = .ok (v, r) → Writable t v
  | .raw n, s, v, r, _, h => by
    rw [fromBin] at h
    obtain ⟨⟨b, s1⟩, h1, h⟩ := bind_eq_ok.1 h
    simp only [Except.ok.injEq, Prod.mk.injEq] at h
    obtain ⟨rfl, rfl⟩ := h
    exact fun acc => by rw [toBinG]; exact .ok _
  | .bool, s, v, r, _, h => by
    rw [fromBin] at h
    obtain ⟨⟨b, s1⟩, h1, h⟩ := bind_eq_ok.1 h
    simp only [Except.ok.injEq, Prod.mk.injEq] at h
    obtain ⟨rfl, rfl⟩ := h
    exact fun acc => by rw [toBinG]; exact .ok _
  | .varuint32, s, v, r, _, h => by
    rw [fromBin] at h
    obtain ⟨⟨b, s1⟩, h1, h⟩ := bind_eq_ok.1 h
    simp only [Except.ok.injEq, Prod.mk.injEq] at h
    obtain ⟨rfl, rfl⟩ := h
    exact fun acc => by rw [toBinG]; exact defined_varuintWrite _ _
  | .varint32, s, v, r, _, h => by
    rw [fromBin] at h
    obtain ⟨⟨b, s1⟩, h1, h⟩ := bind_eq_ok.1 h
    simp only [Except.ok.injEq, Prod.mk.injEq] at h
    obtain ⟨rfl, rfl⟩ := h
    exact fun acc => by rw [toBinG]; exact defined_varuintWrite _ _
  | .str, s, v, r, _, h => by
    rw [fromBin] at h
    obtain ⟨⟨n, s1⟩, h1, h⟩ := bind_eq_ok.1 h
    obtain ⟨⟨b, s2⟩, h2, h⟩ := bind_eq_ok.1 h
    simp only [Except.ok.injEq, Prod.mk.injEq] at h
    obtain ⟨rfl, rfl⟩ := h
    exact fun acc => by rw [toBinG]; exact (defined_varuintWrite _ _).bind fun _ => .ok _
  | .rawVec n, s, v, r, _, h => by
    rw [fromBin] at h
    obtain ⟨⟨k, s1⟩, h1, h⟩ := bind_eq_ok.1 h
    obtain ⟨_, h2, h⟩ := bind_eq_ok.1 h
    obtain ⟨_, h3, h⟩ := bind_eq_ok.1 h
    obtain ⟨⟨b, s2⟩, h4, h⟩ := bind_eq_ok.1 h
    simp only [Except.ok.injEq, Prod.mk.injEq] at h
    obtain ⟨rfl, rfl⟩ := h
    exact fun acc => by rw [toBinG]; exact (defined_varuintWrite _ _).bind fun _ => .ok _
  | .vec t, s, v, r, hw, h => by
    rw [fromBin] at h
    obtain ⟨⟨n, s1⟩, h1, h⟩ := bind_eq_ok.1 h
    obtain ⟨⟨b, s2⟩, h2, h⟩ := bind_eq_ok.1 h
    simp only [Except.ok.injEq, Prod.mk.injEq] at h
    obtain ⟨rfl, rfl⟩ := h
    have := readN_all (P := Writable t) (fun s v r => writable_of_read t s v r hw) _ _ _ _ h2
    exact fun acc => by rw [toBinG]; exact (defined_varuintWrite _ _).bind fun _ => defined_writeAll _ this _
  | .set lt t, s, v, r, hw, h => by
    rw [fromBin] at h
    obtain ⟨⟨n, s1⟩, h1, h⟩ := bind_eq_ok.1 h
    obtain ⟨⟨b, s2⟩, h2, h⟩ := bind_eq_ok.1 h
    simp only [Except.ok.injEq, Prod.mk.injEq] at h
    obtain ⟨rfl, rfl⟩ := h
    have := readAssoc_all (P := Writable t) (fun s v r => writable_of_read t s v r hw.1) _ _ _ _ _ (by simp) h2
    exact fun acc => by rw [toBinG]; exact (defined_varuintWrite _ _).bind fun _ => defined_writeAll _ this _
  | .map lt k u, s, v, r, hw, h => by
    rw [fromBin] at h
    obtain ⟨⟨n, s1⟩, h1, h⟩ := bind_eq_ok.1 h
    obtain ⟨⟨b, s2⟩, h2, h⟩ := bind_eq_ok.1 h
    simp only [Except.ok.injEq, Prod.mk.injEq] at h
    obtain ⟨rfl, rfl⟩ := h
    have := readAssoc_all (P := fun p => ∃ x y, p = .list [x, y] ∧ Writable k x ∧ Writable u y) (fun s v r h => by
      obtain ⟨⟨x, s1⟩, h1, h⟩ := bind_eq_ok.1 h
      obtain ⟨⟨y, s2⟩, h2, h⟩ := bind_eq_ok.1 h
      simp only [Except.ok.injEq, Prod.mk.injEq] at h
      obtain ⟨rfl, rfl⟩ := h
      exact ⟨x, y, rfl, writable_of_read k _ _ _ hw.1 h1, writable_of_read u _ _ _ hw.2.1 h2⟩) _ _ _ _ _ (by simp) h2
    refine fun acc => by
      rw [toBinG]
      refine (defined_varuintWrite _ _).bind fun _ => defined_writeAll _ ?_ _
      intro p hp acc
      obtain ⟨x, y, rfl, hx, hy⟩ := this p hp
      exact (hx _).bind fun _ => hy _
  | .stream, s, v, r, _, h => by
    rw [fromBin] at h
    obtain ⟨⟨n, s1⟩, h1, h⟩ := bind_eq_ok.1 h
    obtain ⟨_, h3, h⟩ := bind_eq_ok.1 h
    obtain ⟨⟨b, s2⟩, h2, h⟩ := bind_eq_ok.1 h
    simp only [Except.ok.injEq, Prod.mk.injEq] at h
    obtain ⟨rfl, rfl⟩ := h
    exact fun acc => by rw [toBinG]; exact (defined_varuintWrite _ _).bind fun _ => .ok _
  | .carr n t, s, v, r, hw, h => by
    rw [fromBin] at h
    obtain ⟨⟨n, s1⟩, h1, h⟩ := bind_eq_ok.1 h
    obtain ⟨_, h3, h⟩ := bind_eq_ok.1 h
    obtain ⟨⟨b, s2⟩, h2, h⟩ := bind_eq_ok.1 h
    simp only [Except.ok.injEq, Prod.mk.injEq] at h
    obtain ⟨rfl, rfl⟩ := h
    have := readN_all (P := Writable t) (fun s v r => writable_of_read t s v r hw.2) _ _ _ _ h2
    exact fun acc => by rw [toBinG]; exact (defined_varuintWrite _ _).bind fun _ => defined_writeAll _ this _
  | .arr n t, s, v, r, hw, h => by
    rw [fromBin] at h
    obtain ⟨⟨b, s2⟩, h2, h⟩ := bind_eq_ok.1 h
    simp only [Except.ok.injEq, Prod.mk.injEq] at h
    obtain ⟨rfl, rfl⟩ := h
    have := readN_all (P := Writable t) (fun s v r => writable_of_read t s v r hw) _ _ _ _ h2
    exact fun acc => by rw [toBinG]; exact defined_writeAll _ this _
  | .opt t, s, v, r, hw, h => by
    rw [fromBin] at h
    obtain ⟨⟨c, s1⟩, h1, h⟩ := bind_eq_ok.1 h
    simp only at h
    split at h
    · simp only [Except.ok.injEq, Prod.mk.injEq] at h
      obtain ⟨rfl, rfl⟩ := h
      exact fun acc => by rw [toBinG]; exact .ok _
    · obtain ⟨⟨b, s2⟩, h2, h⟩ := bind_eq_ok.1 h
      simp only [Except.ok.injEq, Prod.mk.injEq] at h
      obtain ⟨rfl, rfl⟩ := h
      have := writable_of_read t _ _ _ hw h2
      exact fun acc => by rw [toBinG]; exact (defined_vectorWrite _ _).bind fun _ => this _
  | .variant ts, s, v, r, hw, h => by
    rw [fromBin] at h
    obtain ⟨⟨n, s1⟩, h1, h⟩ := bind_eq_ok.1 h
    obtain ⟨⟨b, s2⟩, h2, h⟩ := bind_eq_ok.1 h
    simp only [Except.ok.injEq, Prod.mk.injEq] at h
    obtain ⟨rfl, rfl⟩ := h
    have := writable_of_readAlt ts _ _ _ _ hw.2 h2
    exact fun acc => by rw [toBinG]; exact (defined_varuintWrite _ _).bind fun _ => this _
  | .struct ts, s, v, r, hw, h => by
    rw [fromBin] at h
    obtain ⟨⟨b, s2⟩, h2, h⟩ := bind_eq_ok.1 h
    simp only [Except.ok.injEq, Prod.mk.injEq] at h
    obtain ⟨rfl, rfl⟩ := h
    have := writable_of_readFields ts _ _ _ hw h2
    exact fun acc => by rw [toBinG]; exact this _
  | .maybe d t, s, v, r, hw, h => by
    have hd : Writable (.maybe d t) = Writable t := by
      funext v; unfold Writable; simp only [toBinG]
    rw [hd]
    rw [fromBin] at h
    beta_reduce at h
    split at h
    · simp only [Except.ok.injEq, Prod.mk.injEq] at h
      obtain ⟨rfl, rfl⟩ := h
      obtain ⟨b, hb⟩ := hw.2.2
      exact fun acc => by rw [layout_write _ _ _ hw.1 hb]; exact .ok _
    · exact writable_of_read t _ _ _ hw.1 h
theorem writable_of_readAlt : ∀ ts i s v r, WfTypes ts → variantFromBin ts i s = .ok (v, r) → ∀ acc, Defined (toBinAlt vectorWrite ts i v acc)
  | [], _, _, _, _, _, h => by rw [variantFromBin] at h; cases h
  | t :: _, 0, s, v, r, hw, h => fun acc => by
    rw [variantFromBin] at h
    rw [toBinAlt]
    exact writable_of_read t _ _ _ hw.1 h acc
  | _ :: ts, i + 1, s, v, r, hw, h => fun acc => by
    rw [variantFromBin] at h
    rw [toBinAlt]
    exact writable_of_readAlt ts i _ _ _ hw.2 h acc
theorem writable_of_readFields : ∀ ts s l r, WfTypes ts → fromBinFields ts s = .ok (l, r) → ∀ acc, Defined (toBinFields vectorWrite ts l acc)
  | [], s, l, r, _, h => fun acc => by
    simp only [fromBinFields, Except.ok.injEq, Prod.mk.injEq] at h
    obtain ⟨rfl, rfl⟩ := h
    rw [toBinFields]; exact .ok _
  | t :: ts, s, l, r, hw, h => fun acc => by
    rw [fromBinFields] at h
    obtain ⟨⟨v, s1⟩, h1, h⟩ := bind_eq_ok.1 h
    obtain ⟨⟨b, s2⟩, h2, h⟩ := bind_eq_ok.1 h
    simp only [Except.ok.injEq, Prod.mk.injEq] at h
    obtain ⟨rfl, rfl⟩ := h
    rw [toBinFields]
    exact (writable_of_read t _ _ _ hw.1 h1 _).bind fun _ => writable_of_readFields ts _ _ _ hw.2 h2 _
end

/-! ## Builtin types -/

theorem defined_fromJsonInt {t : IntTy} (ht : t.Std) (s : Bytes) : Defined (fromJsonInt t s) := by
  cases h : fromJsonInt t s with
  | ok v => exact .ok _
  | error e =>
    refine .error ?_
    rcases c16_from_json_int_error t ht s e h with rfl | rfl <;> decide

theorem defined_encInt {t : IntTy} (ht : t.Std) (s : Bytes) : Defined (encInt t s) := (defined_fromJsonInt ht s).bind fun _ => .ok _

theorem defined_encWord (n : Nat) (parse : Bytes → Option Nat) {e : Err} (he : e ≠ .ub) (s : Bytes) : Defined (encWord n parse e s) := by
  unfold encWord; split
  · exact .ok _
  · exact .error he

theorem defined_encFloat (f : Bytes → Option Nat) (n : Nat) (s : Bytes) : Defined (encFloat f n s) := by
  unfold encFloat; split
  · exact .error (by decide)
  · split
    · exact .ok _
    · exact .error (by decide)

theorem defined_fromJsonHex (s : Bytes) : Defined (fromJsonHex s) := by
  unfold fromJsonHex; split
  · exact .error (by decide)
  · split
    · exact .ok _
    · exact .error (by decide)

theorem defined_encFixed (n : Nat) (s : Bytes) : Defined (encFixed n s) :=
  (defined_fromJsonHex s).bind fun _ => (defined_check _ (by decide)).bind fun _ => .ok _

theorem defined_base58Loop : ∀ acc s, Defined (base58Loop acc s)
  | _, [] => .ok _
  | acc, c :: s => by
    rw [base58Loop]; split
    · exact .error (by decide)
    · exact defined_base58Loop _ s

theorem defined_fromBase58 (s : Bytes) : Defined (fromBase58 s) := (defined_base58Loop _ _).bind fun _ => .ok _

/-- the result is not undefined, and can be written -/
def KeyRead (t : BTy) (r : Res BVal) : Prop := Defined r ∧ ∀ v, r = .ok v → Writable t v

theorem keyRead_error {t : BTy} {e : Err} (h : e ≠ .ub) : KeyRead t (.error e) := ⟨.error h, fun _ h => by cases h⟩

theorem keyRead_convert {t : BTy} (hw : WfType t) (b : Bytes) : KeyRead t (convertFromBin t b) := by
  refine ⟨(defined_fromBin t b).bind fun _ => .ok _, fun v h => ?_⟩
  obtain ⟨⟨u, r⟩, h1, h⟩ := bind_eq_ok.1 h
  cases h
  exact writable_of_read t _ _ _ hw h1

theorem KeyRead.bind {α : Type} {t : BTy} {x : Res α} {f : α → Res BVal} (h : Defined x) (hf : ∀ a, KeyRead t (f a)) : KeyRead t (x >>= f) := by
  refine ⟨h.bind fun a => (hf a).1, fun v hv => ?_⟩
  obtain ⟨a, -, h2⟩ := bind_eq_ok.1 hv
  exact (hf a).2 v h2

theorem keyRead_stringToKey {H : Bytes → Bytes} {t : BTy} (hw : WfType t) (s : Bytes) (k : UInt8) (x : Bytes) : KeyRead t (stringToKey H t s k x) :=
  .bind (defined_fromBase58 _) fun _ => .bind (defined_check _ (by decide)) fun _ => .bind (defined_check _ (by decide)) fun _ => keyRead_convert hw _

theorem keyRead_public {H : Bytes → Bytes} (s : Bytes) : KeyRead publicKeyTy (publicKeyFromString H s) := by
  unfold publicKeyFromString
  split <;> [skip; split <;> [skip; split <;> [skip; split]]]
  all_goals first | exact keyRead_stringToKey wf_publicKey _ _ _ | exact keyRead_error (by decide)

theorem keyRead_private {H : Bytes → Bytes} (s : Bytes) : KeyRead privateKeyTy (privateKeyFromString H s) := by
  unfold privateKeyFromString
  split <;> [skip; split <;> [skip; split]]
  · exact keyRead_stringToKey wf_privateKey _ _ _
  · exact keyRead_stringToKey wf_privateKey _ _ _
  · exact keyRead_error (by decide)
  · exact .bind (defined_fromBase58 _) fun _ => .bind (defined_check _ (by decide)) fun _ => keyRead_convert wf_privateKey _

theorem keyRead_signature {H : Bytes → Bytes} (s : Bytes) : KeyRead signatureTy (signatureFromString H s) := by
  unfold signatureFromString
  split <;> [skip; split <;> [skip; split]]
  all_goals first | exact keyRead_stringToKey wf_signature _ _ _ | exact keyRead_error (by decide)

theorem defined_encKey {t : BTy} {f : Bytes → Res BVal} (h : ∀ s, KeyRead t (f s)) (s : Bytes) : Defined (encKey t f s) := by
  unfold encKey
  cases hv : f s with
  | error e => exact .error fun he => (h s).1 (by rw [hv, he])
  | ok v => exact (h s).2 v hv []

/-- Encoding a scalar is never undefined. -/
theorem defined_builtinToBin (F : Floats) (k : Builtin) (s : Scalar) : Defined (builtinToBin F k s) := by
  have hs : ∀ b, b = 8 ∨ b = 16 ∨ b = 32 ∨ b = 64 ∨ b = 128 → ∀ x, IntTy.Std ⟨x, b⟩ := fun b h x => std_int x h
  cases s with
  | bool b => cases k <;> first | exact .ok _ | exact .error (by decide)
  | str s =>
    cases k <;> simp only [builtinToBin, strToBin]
    case bool => exact .error (by decide)
    case varuint32 => exact (defined_fromJsonInt (std_int _ (by decide)) s).bind fun _ => defined_varuintToBin _
    case varint32 => exact (defined_fromJsonInt (std_int _ (by decide)) s).bind fun _ => defined_varuintToBin _
    case bytes =>
      unfold encBytes
      refine (defined_check _ (by decide)).bind fun _ => (defined_varuintToBin _).bind fun _ => ?_
      split
      · exact .ok _
      · exact .error (by decide)
    case string => exact (defined_varuintToBin _).bind fun _ => .ok _
    case asset =>
      unfold encAsset; split
      · exact .ok _
      · exact .error (by decide)
    case public_key => exact defined_encKey keyRead_public s
    case private_key => exact defined_encKey keyRead_private s
    case signature => exact defined_encKey keyRead_signature s
    all_goals first
      | exact defined_encInt (std_int _ (by decide)) s
      | exact defined_encFloat _ _ s
      | exact defined_encFixed _ s
      | exact defined_encWord _ _ (by decide) s

/-- The bytes start with a value of this builtin type that cannot be printed. -/
def Unprintable : Builtin → Bytes → Prop
  | .asset, b => SmallestAmount b
  | .float64, b => LongFloat64 b
  | .float32, b => LongFloat32 b
  | _, _ => False

theorem bind_ub {α β : Type} {x : Res α} {f : α → Res β} (h : (x >>= f) = .error .ub) (hx : Defined x) : ∃ a, x = .ok a ∧ f a = .error .ub := by
  cases x with
  | error e => exact absurd (by cases h; rfl) hx
  | ok a => exact ⟨a, rfl, h⟩

theorem intFromBin_min {b : Bytes} (h8 : b.length = 8) (h : IntTy.wrap ⟨true, 64⟩ (leVal b) = -2 ^ 63) : b = [0, 0, 0, 0, 0, 0, 0, 128] := by
  have h1 : leVal b < 256 ^ b.length := leVal_lt b
  rw [h8] at h1
  have h2 : leVal b = 2 ^ 63 := by
    simp only [IntTy.wrap, if_true] at h
    omega
  have h3 : leBytes 8 (leVal b) = b := by rw [← h8]; exact leBytes_leVal b
  rw [← h3, h2]
  decide

theorem defined_decKey {t : BTy} {f : BVal → Res Bytes} (hw : WfType t) (hf : ∀ v, Writable t v → Defined (f v)) (s : Bytes) : Defined (decKey t f s) := by
  unfold decKey
  cases hv : fromBin t s with
  | error e => exact .error fun he => defined_fromBin t s (by rw [hv, he])
  | ok x => exact (hf _ (writable_of_read t _ _ _ hw hv)).bind fun _ => .ok _

theorem defined_keyToString {H : Bytes → Bytes} {t : BTy} {v : BVal} (h : Writable t v) (x y : Bytes) : Defined (keyToString H t v x y) := by
  unfold keyToString
  rw [convertToBin_eq]
  exact (h _).bind fun _ => .ok _

theorem fpToJson_ub {bits : Nat} (h : fpToJson bits = .error .ub) : LongDouble bits := by
  by_cases hf : Spec.Finite bits
  · rcases c49_print_length hf with ⟨t, ht, -⟩ | ⟨-, hx⟩
    · rw [ht] at h; cases h
    · exact ⟨hf, hx⟩
  · rw [c48_print_special hf] at h; cases h

/-- Decoding a scalar is undefined only for the exceptions. -/
theorem builtinFromBin_ub {k : Builtin} {s : Bytes} (h : builtinFromBin k s = .error .ub) : Unprintable k s := by
  cases k <;> simp only [builtinFromBin] at h
  case asset =>
    unfold decAsset intFromBin at h
    obtain ⟨⟨a, s1⟩, h1, g⟩ := bind_ub h ((defined_readBytes _ _).bind fun _ => .ok _)
    obtain ⟨⟨c, s2⟩, h2, h1⟩ := bind_eq_ok.1 h1
    simp only [Except.ok.injEq, Prod.mk.injEq] at h1
    obtain ⟨rfl, rfl⟩ := h1
    clear h
    obtain ⟨⟨d, s3⟩, h3, h⟩ := bind_ub g (defined_readBytes _ _)
    obtain ⟨rfl, e1⟩ := readBytes_ok h2
    obtain ⟨rfl, e2⟩ := readBytes_ok h3
    clear g
    simp only at h
    unfold assetToString at h
    split at h
    · rename_i ha
      rw [intFromBin_min e1 ha]
      exact ⟨d, s3, e2, by simp⟩
    · cases h
  case float64 =>
    unfold decFloat at h
    obtain ⟨⟨c, s2⟩, h2, g⟩ := bind_ub h (defined_readBytes _ _)
    clear h
    obtain ⟨rfl, e1⟩ := readBytes_ok h2
    refine ⟨c, s2, e1, rfl, fpToJson_ub ?_⟩
    simp only [id] at g
    cases hp : fpToJson (leVal c) with
    | error e => rw [hp] at g; cases g; rfl
    | ok t => rw [hp] at g; cases g
  case float32 =>
    unfold decFloat at h
    obtain ⟨⟨c, s2⟩, h2, g⟩ := bind_ub h (defined_readBytes _ _)
    clear h
    obtain ⟨rfl, e1⟩ := readBytes_ok h2
    have hp : fpToJson (widenFloat (leVal c)) = .error .ub := by
      simp only at g
      cases hp : fpToJson (widenFloat (leVal c)) with
      | error e => rw [hp] at g; cases g; rfl
      | ok t => rw [hp] at g; cases g
    have hl := fpToJson_ub hp
    refine ⟨c, s2, _, e1, rfl, ?_, hl⟩
    by_cases hf : Finite32 (leVal c)
    · exact (c48_widen hf).2.2.1.symm
    · exact absurd hl.1 (c48_widen_special hf).1
  case public_key =>
    refine absurd h (defined_decKey wf_publicKey (fun v hv => ?_) s)
    unfold publicKeyToString
    split <;> [skip; split <;> [skip; split]]
    all_goals first | exact defined_keyToString hv _ _ | exact .error (by decide)
  case private_key =>
    refine absurd h (defined_decKey wf_privateKey (fun v hv => ?_) s)
    unfold privateKeyToString
    split <;> [skip; split]
    all_goals first | exact defined_keyToString hv _ _ | exact .error (by decide)
  case signature =>
    refine absurd h (defined_decKey wf_signature (fun v hv => ?_) s)
    unfold signatureToString
    split <;> [skip; split <;> [skip; split]]
    all_goals first | exact defined_keyToString hv _ _ | exact .error (by decide)
  case bool => exact absurd h ((defined_readU8 _).bind fun _ => .ok _)
  case varuint32 => exact absurd h ((defined_varuint _).bind fun _ => .ok _)
  case varint32 => exact absurd h (((defined_varuint _).bind fun _ => .ok _).bind fun _ => .ok _)
  case bytes => exact absurd h ((defined_varuint64 _).bind fun _ => (defined_readBytes _ _).bind fun _ => .ok _)
  case string => exact absurd h ((defined_varuint _).bind fun _ => (defined_readBytes _ _).bind fun _ => .ok _)
  all_goals first
    | exact absurd h (((defined_readBytes _ _).bind fun _ => .ok _).bind fun _ => .ok _)
    | exact absurd h ((defined_readBytes _ _).bind fun _ => .ok _)

end Abieos
