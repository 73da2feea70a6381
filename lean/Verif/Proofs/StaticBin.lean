import Verif.Spec.BinLayout
import Verif.Props.Varint
/-! Lemmas about native binary serialization. -/
namespace Abieos
open Spec

/-! ## LEB128 -/

theorem leb_iff {n : Nat} {b : Bytes} : Leb n b ↔ b = varuintLoop n := by
  constructor
  · intro h
    induction h with
    | last h => rw [varuintLoop_eq, if_pos h]
    | @more n b h _ ih => rw [varuintLoop_eq n, if_neg (by omega), ih]
  · rintro rfl
    induction n using Nat.strongRecOn with
    | _ n ih =>
      rw [varuintLoop_eq]
      split
      · exact .last ‹_›
      · exact .more (by omega) (ih _ (by omega))

theorem varuint32ToBin_eq {n : Nat} (h : n < 2 ^ 32) : varuint32ToBin n = .ok (varuintLoop n) := by
  have : n >>> 32 = 0 := by rw [Nat.shiftRight_eq_div_pow]; omega
  simp [varuint32ToBin, this]

theorem size_iff {n : Nat} {b : Bytes} : Size n b ↔ varuint32ToBin n = .ok b := by
  unfold Size
  rw [leb_iff]
  constructor
  · rintro ⟨h, rfl⟩; exact varuint32ToBin_eq h
  · intro h
    by_cases hn : n < 2 ^ 32
    · rw [varuint32ToBin_eq hn] at h
      injection h with h
      exact ⟨hn, h.symm⟩
    · rw [c01_varuint32_too_big n (by omega)] at h; simp at h

theorem size_read {n : Nat} {b : Bytes} (h : Size n b) (rest : Bytes) : varuint32FromBin (b ++ rest) = .ok (n, rest) := by
  obtain ⟨b', h1, h2⟩ := c01_varuint32_roundtrip n h.1 rest
  rw [size_iff.1 h] at h1
  injection h1 with h1
  rw [h1]; exact h2

theorem size_read64 {n : Nat} {b : Bytes} (h : Size n b) (rest : Bytes) : varuint64FromBin (b ++ rest) = .ok (n, rest) := by
  obtain ⟨b', h1, h2⟩ := c01_varuint64_reads_varuint32 n h.1 rest
  rw [size_iff.1 h] at h1
  injection h1 with h1
  rw [h1]; exact h2

theorem size_ne_nil {n : Nat} {b : Bytes} (h : Size n b) : b ≠ [] := by
  have := h.2
  cases this <;> simp

theorem size_exists {n : Nat} (h : n < 2 ^ 32) : ∃ b, Size n b := ⟨_, size_iff.2 (varuint32ToBin_eq h)⟩

/-! ## simulation of one output stream by another -/

/-- a stream that, when it has room (`ok`), behaves as `step` -/
structure Lawful {σ : Type} (w : Writer σ) (ok : Bytes → σ → Prop) (step : Bytes → σ → σ) : Prop where
  write : ∀ b s, ok b s → w b s = .ok (step b s)
  nil : ∀ s, step [] s = s
  append : ∀ a b s, step (a ++ b) s = step b (step a s)
  okAppend : ∀ a b s, ok (a ++ b) s → ok a s ∧ ok b (step a s)

def Sim {σ : Type} (ok : Bytes → σ → Prop) (step : Bytes → σ → σ) (total : Prop) (f : Bytes → Res Bytes) (g : σ → Res σ) : Prop :=
  (∃ b, (∀ acc, f acc = .ok (acc ++ b)) ∧ ∀ s, ok b s → g s = .ok (step b s)) ∨
  (∃ e, (∀ acc, f acc = .error e) ∧ (total → ∀ s, g s = .error e))

theorem sim_bind {σ : Type} {w : Writer σ} {ok : Bytes → σ → Prop} {step : Bytes → σ → σ} {total : Prop} (hw : Lawful w ok step)
    (ht : total → ∀ b s, ok b s)
    {f1 f2 : Bytes → Res Bytes} {g1 g2 : σ → Res σ} (h1 : Sim ok step total f1 g1) (h2 : Sim ok step total f2 g2) :
    Sim ok step total (fun s => f1 s >>= f2) (fun s => g1 s >>= g2) := by
  rcases h1 with ⟨b1, h1, h1'⟩ | ⟨e, h1, h1'⟩
  · rcases h2 with ⟨b2, h2, h2'⟩ | ⟨e, h2, h2'⟩
    · refine .inl ⟨b1 ++ b2, fun acc => ?_, fun s hs => ?_⟩
      · beta_reduce; rw [h1, bind_ok, h2, List.append_assoc]
      · obtain ⟨ha, hb⟩ := hw.okAppend _ _ _ hs
        beta_reduce; rw [h1' s ha, bind_ok, h2' _ hb, hw.append]
    · refine .inr ⟨e, fun acc => ?_, fun tt s => ?_⟩
      · beta_reduce; rw [h1, bind_ok, h2]
      · beta_reduce; rw [h1' s (ht tt _ _), bind_ok, h2' tt]
  · refine .inr ⟨e, fun acc => ?_, fun tt s => ?_⟩
    · beta_reduce; rw [h1, bind_error]
    · beta_reduce; rw [h1' tt, bind_error]

theorem sim_write {σ : Type} {w : Writer σ} {ok : Bytes → σ → Prop} {step : Bytes → σ → σ} {total : Prop} (hw : Lawful w ok step) (b : Bytes) :
    Sim ok step total (vectorWrite b) (w b) := .inl ⟨b, fun _ => rfl, fun s hs => hw.write b s hs⟩

theorem sim_error {σ : Type} {ok : Bytes → σ → Prop} {step : Bytes → σ → σ} {total : Prop} (e : Err) :
    Sim ok step total (fun _ => .error e) (fun _ => .error e) := .inr ⟨e, fun _ => rfl, fun _ _ => rfl⟩

theorem sim_pure {σ : Type} {w : Writer σ} {ok : Bytes → σ → Prop} {step : Bytes → σ → σ} {total : Prop} (hw : Lawful w ok step) :
    Sim ok step total (fun s => .ok s) (fun s => .ok s) := .inl ⟨[], fun _ => by simp, fun s _ => by rw [hw.nil]⟩

section
variable {σ : Type} {w : Writer σ} {ok : Bytes → σ → Prop} {step : Bytes → σ → σ} {total : Prop} (hw : Lawful w ok step)
  (ht : total → ∀ b s, ok b s)
include hw ht

theorem sim_writeEach : ∀ b, Sim ok step total (writeEach vectorWrite b) (writeEach w b)
  | [] => sim_pure hw
  | b :: l => sim_bind hw ht (sim_write hw [b]) (sim_writeEach l)

theorem sim_varuint (n : Nat) : Sim ok step total (varuint32Write vectorWrite n) (varuint32Write w n) := by
  unfold varuint32Write
  cases varuint32ToBin n with
  | error e => exact sim_error e
  | ok b => exact sim_writeEach hw ht b

theorem sim_writeAll {f : BVal → Bytes → Res Bytes} {g : BVal → σ → Res σ} (h : ∀ v, Sim ok step total (f v) (g v)) :
    ∀ l, Sim ok step total (writeAll f l) (writeAll g l)
  | [] => sim_pure hw
  | v :: l => sim_bind hw ht (h v) (sim_writeAll h l)

mutual
theorem sim_toBin : ∀ t v, Sim ok step total (toBinG vectorWrite t v) (toBinG w t v)
  | .raw n, v => by cases v <;> first | exact sim_error _ | exact sim_write hw _
  | .bool, v => by cases v <;> first | exact sim_error _ | exact sim_write hw _
  | .varuint32, v => by cases v <;> first | exact sim_error _ | exact sim_varuint hw ht _
  | .varint32, v => by cases v <;> first | exact sim_error _ | exact sim_varuint hw ht _
  | .str, v => by cases v <;> first | exact sim_error _ | exact sim_bind hw ht (sim_varuint hw ht _) (sim_write hw _)
  | .rawVec n, v => by cases v <;> first | exact sim_error _ | exact sim_bind hw ht (sim_varuint hw ht _) (sim_write hw _)
  | .vec t, v => by
    cases v <;> first | exact sim_error _ | exact sim_bind hw ht (sim_varuint hw ht _) (sim_writeAll hw ht (sim_toBin t) _)
  | .set _ t, v => by
    cases v <;> first | exact sim_error _ | exact sim_bind hw ht (sim_varuint hw ht _) (sim_writeAll hw ht (sim_toBin t) _)
  | .map _ k u, v => by
    cases v <;> first | exact sim_error _ | skip
    refine sim_bind hw ht (sim_varuint hw ht _) (sim_writeAll hw ht (fun p => ?_) _)
    split
    · exact sim_bind hw ht (sim_toBin k _) (sim_toBin u _)
    · exact sim_error _
  | .stream, v => by cases v <;> first | exact sim_error _ | exact sim_bind hw ht (sim_varuint hw ht _) (sim_write hw _)
  | .carr n t, v => by
    cases v <;> first | exact sim_error _ | exact sim_bind hw ht (sim_varuint hw ht _) (sim_writeAll hw ht (sim_toBin t) _)
  | .arr n t, v => by cases v <;> first | exact sim_error _ | exact sim_writeAll hw ht (sim_toBin t) _
  | .opt t, v => by
    cases v <;> first | exact sim_error _ | exact sim_write hw _ | exact sim_bind hw ht (sim_write hw [1]) (sim_toBin t _)
  | .variant ts, v => by
    cases v <;> first | exact sim_error _ | exact sim_bind hw ht (sim_varuint hw ht _) (sim_toBinAlt ts _ _)
  | .struct ts, v => by cases v <;> first | exact sim_error _ | exact sim_toBinFields ts _
  | .maybe _ t, v => by
    have := sim_toBin t v
    cases v <;> exact this
theorem sim_toBinAlt : ∀ ts i v, Sim ok step total (toBinAlt vectorWrite ts i v) (toBinAlt w ts i v)
  | [], _, _ => sim_error _
  | t :: _, 0, v => sim_toBin t v
  | _ :: ts, i + 1, v => sim_toBinAlt ts i v
theorem sim_toBinFields : ∀ ts l, Sim ok step total (toBinFields vectorWrite ts l) (toBinFields w ts l)
  | [], [] => sim_pure hw
  | [], _ :: _ => sim_error _
  | _ :: _, [] => sim_error _
  | t :: ts, v :: l => sim_bind hw ht (sim_toBin t v) (sim_toBinFields ts l)
end
end

theorem lawful_vector : Lawful vectorWrite (fun _ _ => True) (fun b s => s ++ b) :=
  ⟨fun _ _ _ => rfl, by simp, by simp, by simp⟩

theorem lawful_size : Lawful sizeWrite (fun _ _ => True) (fun b n => n + b.length) :=
  ⟨fun _ _ _ => rfl, by simp, by intros; simp; omega, by simp⟩

theorem lawful_fixed : Lawful fixedWrite (fun b s => b.length ≤ s.room) (fun b s => ⟨s.written ++ b, s.room - b.length⟩) :=
  ⟨fun b s h => by simp [fixedWrite, h], by simp, by intros; simp; omega, by intro a b s; simp; omega⟩

/-- `convert_to_bin` gives what a growing vector would be given. -/
theorem convertToBin_eq (t : BTy) (v : BVal) (bin : Bytes) : convertToBin t v bin = toBinG vectorWrite t v bin := by
  have h1 := sim_toBin (total := True) lawful_size (by simp) t v
  have h2 := sim_toBin (total := False) lawful_fixed (by simp) t v
  rcases h1 with ⟨b, h1, h1'⟩ | ⟨e, h1, h1'⟩
  · rcases h2 with ⟨b2, h2, h2'⟩ | ⟨e, h2, -⟩
    · have : b2 = b := by
        have := (h2 []).symm.trans (h1 [])
        simpa using this
      subst this
      unfold convertToBin
      rw [h1' 0 trivial, bind_ok, h2' _ (by simp), bind_ok, h1]
      simp
    · have := (h2 []).symm.trans (h1 [])
      simp at this
  · unfold convertToBin
    rw [h1' trivial, h1]; rfl

/-! ## layout of what is written -/

theorem writeEach_vector (b acc : Bytes) : writeEach vectorWrite b acc = .ok (acc ++ b) := by
  induction b generalizing acc with
  | nil => simp [writeEach]
  | cons x b ih => simp [writeEach, vectorWrite, ih]

theorem size_write {n : Nat} {h : Bytes} (hs : Size n h) (acc : Bytes) : varuint32Write vectorWrite n acc = .ok (acc ++ h) := by
  unfold varuint32Write
  rw [size_iff.1 hs, bind_ok, writeEach_vector]

theorem writeAll_elems {R : BVal → Bytes → Prop} {f : BVal → Bytes → Res Bytes} (hf : ∀ v b, R v b → ∀ acc, f v acc = .ok (acc ++ b)) :
    ∀ l e, Elems R l e → ∀ acc, writeAll f l acc = .ok (acc ++ e)
  | [], e, h, acc => by rw [show e = [] from h]; simp [writeAll]
  | v :: l, e, h, acc => by
    obtain ⟨x, y, h1, h2, rfl⟩ := h
    rw [writeAll, hf v x h1, bind_ok, writeAll_elems hf l y h2, List.append_assoc]

theorem zz_eq {n : Nat} (h : n < 2 ^ 32) : (zigzag (BitVec.ofNat 32 n)).toNat = zz n := by
  have h1 := zigzag_toNat (BitVec.ofNat 32 n)
  rw [BitVec.toInt_eq_toNat_cond] at h1
  have h2 : (BitVec.ofNat 32 n).toNat = n := by simp; omega
  rw [h2] at h1
  unfold zz
  by_cases hn : n < 2 ^ 31
  · rw [if_pos (by omega)] at h1
    rw [if_pos hn]
    rw [if_pos (by omega)] at h1
    omega
  · rw [if_neg (by omega)] at h1
    rw [if_neg hn]
    rw [if_neg (by omega)] at h1
    omega

theorem zz_lt {n : Nat} (h : n < 2 ^ 32) : zz n < 2 ^ 32 := by
  rw [← zz_eq h]; exact (zigzag _).isLt

mutual
theorem layout_write : ∀ t v b, WfType t → Layout t v b → ∀ acc, toBinG vectorWrite t v acc = .ok (acc ++ b)
  | .raw n, v, b, _, h, acc => by obtain ⟨rfl, -⟩ := h; rfl
  | .bool, v, b, _, h, acc => by obtain ⟨rfl, -⟩ := h; rfl
  | .varuint32, v, b, _, h, acc => by obtain ⟨n, rfl, h⟩ := h; exact size_write h acc
  | .varint32, v, b, _, h, acc => by
    obtain ⟨n, rfl, hn, h⟩ := h
    rw [toBinG, zz_eq hn]
    exact size_write ⟨zz_lt hn, h⟩ acc
  | .str, v, b, _, h, acc => by
    obtain ⟨hd, s, rfl, h, rfl⟩ := h
    rw [toBinG, size_write h, bind_ok, vectorWrite, List.append_assoc]
  | .rawVec n, v, b, hw, h, acc => by
    obtain ⟨hd, s, k, rfl, h, hk, hk', rfl⟩ := h
    have hn : 0 < n := hw
    have : s.length / n = k := by rw [hk, Nat.mul_div_cancel _ hn]
    rw [toBinG, this, size_write h, bind_ok, vectorWrite, List.append_assoc]
  | .vec t, v, b, hw, h, acc => by
    obtain ⟨hd, l, e, rfl, h, he, rfl⟩ := h
    rw [toBinG, size_write h, bind_ok, writeAll_elems (fun v b hv => layout_write t v b hw hv) l e he, List.append_assoc]
  | .set _ t, v, b, hw, h, acc => by
    obtain ⟨hd, l, e, rfl, -, h, he, rfl⟩ := h
    rw [toBinG, size_write h, bind_ok, writeAll_elems (fun v b hv => layout_write t v b hw.1 hv) l e he, List.append_assoc]
  | .map _ k u, v, b, hw, h, acc => by
    obtain ⟨hd, l, e, rfl, -, h, he, rfl⟩ := h
    rw [toBinG, size_write h, bind_ok]
    rw [writeAll_elems (R := fun p b => ∃ x y bx b', p = .list [x, y] ∧ Layout k x bx ∧ Layout u y b' ∧ b = bx ++ b') ?_ l e he, List.append_assoc]
    rintro v b ⟨x, y, bx, b', rfl, h1, h2, rfl⟩ acc
    simp only
    rw [layout_write k x bx hw.1 h1, bind_ok, layout_write u y b' hw.2.1 h2, List.append_assoc]
  | .stream, v, b, _, h, acc => by
    obtain ⟨hd, s, rfl, h, rfl⟩ := h
    rw [toBinG, size_write h, bind_ok, vectorWrite, List.append_assoc]
  | .carr n t, v, b, hw, h, acc => by
    obtain ⟨hd, l, e, rfl, -, h, he, rfl⟩ := h
    rw [toBinG, size_write h, bind_ok, writeAll_elems (fun v b hv => layout_write t v b hw.2 hv) l e he, List.append_assoc]
  | .arr n t, v, b, hw, h, acc => by
    obtain ⟨l, rfl, -, h⟩ := h
    rw [toBinG, writeAll_elems (fun v b hv => layout_write t v b hw hv) l b h]
  | .opt t, v, b, hw, h, acc => by
    rcases h with ⟨rfl, rfl⟩ | ⟨x, e, rfl, h, rfl⟩
    · rfl
    · rw [toBinG, vectorWrite, bind_ok, layout_write t x e hw h]; simp
  | .variant ts, v, b, hw, h, acc => by
    obtain ⟨i, x, hd, e, rfl, h, h2, rfl⟩ := h
    rw [toBinG, size_write h, bind_ok, layoutAlt_write ts i x e hw.2 h2, List.append_assoc]
  | .struct ts, v, b, hw, h, acc => by
    obtain ⟨l, rfl, h⟩ := h
    rw [toBinG, layoutFields_write ts l b hw h]
  | .maybe _ t, v, b, hw, h, acc => by
    have := layout_write t v b hw.1 h acc
    cases v <;> exact this
theorem layoutAlt_write : ∀ ts i v b, WfTypes ts → LayoutAlt ts i v b → ∀ acc, toBinAlt vectorWrite ts i v acc = .ok (acc ++ b)
  | [], _, _, _, _, h, _ => h.elim
  | t :: ts, i, v, b, hw, h, acc => by
    rcases h with ⟨rfl, h⟩ | ⟨j, rfl, h⟩
    · rw [toBinAlt]; exact layout_write t v b hw.1 h acc
    · rw [toBinAlt]; exact layoutAlt_write ts j v b hw.2 h acc
theorem layoutFields_write : ∀ ts l b, WfTypes ts → LayoutFields ts l b → ∀ acc, toBinFields vectorWrite ts l acc = .ok (acc ++ b)
  | [], l, b, _, h, acc => by obtain ⟨rfl, rfl⟩ := h; simp [toBinFields]
  | t :: ts, l, b, hw, h, acc => by
    obtain ⟨v, l', x, y, rfl, h1, h2, rfl⟩ := h
    rw [toBinFields, layout_write t v x hw.1 h1, bind_ok, layoutFields_write ts l' y hw.2 h2, List.append_assoc]
end

end Abieos
