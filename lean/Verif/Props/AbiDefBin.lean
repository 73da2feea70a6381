import Verif.Model.AbiDefBin
import Verif.Spec.AbiFormat
import Verif.Props.StaticBin
import Verif.Proofs.Bytes
/-!
**C41.** The binary form of ABI definitions.
-/
namespace Abieos
open Spec

/-! ## Writing -/

theorem str_write {s b : Bytes} : textToBin s = .ok b ↔ Str s b := by
  unfold textToBin Str
  simp only [bind_eq_ok, size_iff, Except.ok.injEq]
  constructor
  · rintro ⟨h, h1, rfl⟩; exact ⟨h, h1, rfl⟩
  · rintro ⟨h, h1, rfl⟩; exact ⟨h, h1, rfl⟩

theorem word_write {n v : Nat} {b : Bytes} (hv : v < 256 ^ n) : wordToBin n v = .ok b ↔ Word n v b := by
  unfold wordToBin Word
  simp only [Except.ok.injEq]
  constructor
  · rintro rfl; exact ⟨hv, leBytes_length n v, by rw [leVal_leBytes, Nat.mod_eq_of_lt hv]⟩
  · rintro ⟨-, rfl, rfl⟩; exact leBytes_leVal b

/-- writing a first and a second part -/
theorem then_write {α β : Type} {w1 : Res Bytes} {w2 : Res Bytes} {P Q : Bytes → Prop} (_a : α) (_b : β)
    (h1 : ∀ b, w1 = .ok b ↔ P b) (h2 : ∀ b, w2 = .ok b ↔ Q b) (b : Bytes) :
    (w1 >>= fun x => w2 >>= fun y => .ok (x ++ y)) = .ok b ↔ (P ⨟ Q) b := by
  simp only [bind_eq_ok, Except.ok.injEq, Then, h1, h2]
  constructor
  · rintro ⟨x, hx, y, hy, rfl⟩; exact ⟨x, y, hx, hy, rfl⟩
  · rintro ⟨x, y, hx, hy, rfl⟩; exact ⟨x, hx, y, hy, rfl⟩

theorem seq_write {w1 : Res Bytes} {w2 : Res Bytes} {P Q : Bytes → Prop}
    (h1 : ∀ b, w1 = .ok b ↔ P b) (h2 : ∀ b, w2 = .ok b ↔ Q b) (b : Bytes) :
    (w1 >>= fun x => w2 >>= fun y => .ok (x ++ y)) = .ok b ↔ (P ⨟ Q) b := then_write () () h1 h2 b

theorem parts_write {α : Type} {R : α → Bytes → Prop} {w : α → Res Bytes} : ∀ l : List α, (∀ a ∈ l, ∀ b, w a = .ok b ↔ R a b) →
    ∀ b, allToBin w l = .ok b ↔ Parts R l b
  | [], _, b => by simp [allToBin, Parts, eq_comm]
  | a :: l, h, b => seq_write (h a (by simp)) (parts_write l (fun a ha => h a (by simp [ha]))) b

theorem many_write {α : Type} {R : α → Bytes → Prop} {w : α → Res Bytes} {l : List α} (h : ∀ a ∈ l, ∀ b, w a = .ok b ↔ R a b) (b : Bytes) :
    vecToBin w l = .ok b ↔ Many R l b := seq_write (fun _ => size_iff.symm) (parts_write l h) b

theorem type_write (d : TypeDef) (b : Bytes) : typeDefToBin d = .ok b ↔ TypeFormat d b := seq_write (fun _ => str_write) (fun _ => str_write) b

theorem field_write (d : FieldDef) (b : Bytes) : fieldDefToBin d = .ok b ↔ FieldFormat d b :=
  seq_write (fun _ => str_write) (fun _ => str_write) b

theorem clause_write (d : ClausePair) (b : Bytes) : clauseToBin d = .ok b ↔ ClauseFormat d b :=
  seq_write (fun _ => str_write) (fun _ => str_write) b

theorem struct_write (d : StructDef) (b : Bytes) : structDefToBin d = .ok b ↔ StructFormat d b := by
  rw [StructFormat, ← seq_write (fun _ => str_write) (seq_write (fun _ => str_write) (many_write (fun a _ => field_write a)))]
  simp only [structDefToBin, bind_assoc, bind_ok]

theorem action_write (d : ActionDef) (h : d.name < 2 ^ 64) (b : Bytes) : actionDefToBin d = .ok b ↔ ActionFormat d b := by
  rw [ActionFormat, ← seq_write (fun _ => word_write h) (seq_write (fun _ => str_write) (fun _ => str_write))]
  simp only [actionDefToBin, bind_assoc, bind_ok]

theorem table_write (d : TableDef) (h : d.name < 2 ^ 64) (b : Bytes) : tableDefToBin d = .ok b ↔ TableFormat d b := by
  rw [TableFormat, ← seq_write (fun _ => word_write h) (seq_write (fun _ => str_write) (seq_write (many_write (fun a _ _ => str_write))
    (seq_write (many_write (fun a _ _ => str_write)) (fun _ => str_write))))]
  simp only [tableDefToBin, bind_assoc, bind_ok]

theorem errorMessage_write (d : ErrorMessage) (h : d.code < 2 ^ 64) (b : Bytes) : errorToBin d = .ok b ↔ ErrorFormat d b :=
  seq_write (fun _ => word_write h) (fun _ => str_write) b

theorem ext_write (d : Nat × Bytes) (h : d.1 < 2 ^ 16) (b : Bytes) : extToBin d = .ok b ↔ ExtensionFormat d b :=
  seq_write (fun _ => word_write h) (fun _ => str_write) b

theorem variantDef_write (d : VariantDef) (b : Bytes) : variantDefToBin d = .ok b ↔ VariantFormat d b :=
  seq_write (fun _ => str_write) (many_write (fun a _ _ => str_write)) b

theorem then_assoc {P Q R : Bytes → Prop} {b : Bytes} : ((P ⨟ Q) ⨟ R) b ↔ (P ⨟ Q ⨟ R) b := by
  constructor
  · rintro ⟨_, z, ⟨x, y, h1, h2, rfl⟩, h3, rfl⟩; exact ⟨x, y ++ z, h1, ⟨y, z, h2, h3, rfl⟩, by simp⟩
  · rintro ⟨x, _, h1, ⟨y, z, h2, h3, rfl⟩, rfl⟩; exact ⟨x ++ y, z, ⟨x, y, h1, h2, rfl⟩, h3, by simp⟩

theorem then_congr {P Q Q' : Bytes → Prop} (h : ∀ b, Q b ↔ Q' b) (b : Bytes) : (P ⨟ Q) b ↔ (P ⨟ Q') b := by
  simp only [Then, h]

theorem abiFormat_iff {d : AbiDef} {b : Bytes} : AbiFormat d b ↔
    (Str d.version ⨟ Many TypeFormat d.types ⨟ Many StructFormat d.structs ⨟ Many ActionFormat d.actions ⨟
      Many TableFormat d.tables ⨟ Many ClauseFormat d.clauses ⨟ Many ErrorFormat d.errors ⨟ Many ExtensionFormat d.extensions ⨟
      Many VariantFormat d.variants) b := by
  unfold AbiFormat HeadFormat
  iterate 7 refine then_assoc.trans (then_congr (fun b => ?_) b)
  rfl

/-- **C41.** What `to_bin` writes for an ABI definition is its binary format; if there is none, it fails. -/
theorem c41_format {d : AbiDef} (h : Words d) (b : Bytes) : abiDefToBin d = .ok b ↔ AbiFormat d b := by
  rw [abiFormat_iff, ← seq_write (fun _ => str_write) (seq_write (many_write (fun a _ => type_write a))
    (seq_write (many_write (fun a _ => struct_write a)) (seq_write (many_write (fun a ha => action_write a (h.actions a ha)))
    (seq_write (many_write (fun a ha => table_write a (h.tables a ha))) (seq_write (many_write (fun a _ => clause_write a))
    (seq_write (many_write (fun a ha => errorMessage_write a (h.errors a ha))) (seq_write (many_write (fun a ha => ext_write a (h.extensions a ha)))
    (many_write (fun a _ => variantDef_write a)))))))))]
  simp only [abiDefToBin, bind_assoc, bind_ok]

/-! ## Reading -/

theorem text_read {s b : Bytes} (h : Str s b) (rest : Bytes) : textFromBin (b ++ rest) = .ok (s, rest) := by
  obtain ⟨h, h1, rfl⟩ := h
  rw [textFromBin, List.append_assoc, size_read h1]
  exact readBytes_append _ s rest rfl

theorem word_read {n v : Nat} {b : Bytes} (h : Word n v b) (rest : Bytes) : wordFromBin n (b ++ rest) = .ok (v, rest) := by
  obtain ⟨-, h1, rfl⟩ := h
  rw [wordFromBin, readBytes_append n b rest h1]; rfl

theorem chars_read {s b : Bytes} (h : Str s b) (rest : Bytes) : charsFromBin (b ++ rest) = .ok (s, rest) := by
  obtain ⟨h, h1, rfl⟩ := h
  have h2 : s.length < 2 ^ 32 := h1.1
  rw [charsFromBin, List.append_assoc, size_read64 h1]
  have e1 : decide (s.length ≤ (s ++ rest).length) = true := by simp
  have e2 : decide (s.length ≤ vectorMax 1) = true := by simp [vectorMax]; omega
  simp only [bind_ok, e1, e2, check_true]
  exact readBytes_append _ s rest rfl

theorem parts_read {α : Type} {R : α → Bytes → Prop} {r : Reader α} (h : ∀ a b, R a b → ∀ rest, r (b ++ rest) = .ok (a, rest)) :
    ∀ (l : List α) b, Parts R l b → ∀ rest, allFromBin r l.length (b ++ rest) = .ok (l, rest)
  | [], b, hb, rest => by rw [show b = [] from hb]; rfl
  | a :: l, b, hb, rest => by
    obtain ⟨x, y, h1, h2, rfl⟩ := hb
    rw [List.length_cons, allFromBin, List.append_assoc, h a x h1]
    simp only [bind_ok]
    rw [parts_read h l y h2]; rfl

theorem many_read {α : Type} {R : α → Bytes → Prop} {r : Reader α} (h : ∀ a b, R a b → ∀ rest, r (b ++ rest) = .ok (a, rest))
    {l : List α} {b : Bytes} (hb : Many R l b) (rest : Bytes) : vecFromBin r (b ++ rest) = .ok (l, rest) := by
  obtain ⟨x, y, h1, h2, rfl⟩ := hb
  rw [vecFromBin, List.append_assoc, size_read h1]
  exact parts_read h l y h2 rest

theorem type_read (d : TypeDef) (b : Bytes) (h : TypeFormat d b) (rest : Bytes) : typeDefFromBin (b ++ rest) = .ok (d, rest) := by
  obtain ⟨x, y, h1, h2, rfl⟩ := h
  simp only [typeDefFromBin, List.append_assoc, text_read h1, text_read h2, bind_ok]

theorem field_read (d : FieldDef) (b : Bytes) (h : FieldFormat d b) (rest : Bytes) : fieldDefFromBin (b ++ rest) = .ok (d, rest) := by
  obtain ⟨x, y, h1, h2, rfl⟩ := h
  simp only [fieldDefFromBin, List.append_assoc, text_read h1, text_read h2, bind_ok]

theorem clause_read (d : ClausePair) (b : Bytes) (h : ClauseFormat d b) (rest : Bytes) : clauseFromBin (b ++ rest) = .ok (d, rest) := by
  obtain ⟨x, y, h1, h2, rfl⟩ := h
  simp only [clauseFromBin, List.append_assoc, text_read h1, text_read h2, bind_ok]

theorem struct_read (d : StructDef) (b : Bytes) (h : StructFormat d b) (rest : Bytes) : structDefFromBin (b ++ rest) = .ok (d, rest) := by
  obtain ⟨x, _, h1, ⟨y, z, h2, h3, rfl⟩, rfl⟩ := h
  simp only [structDefFromBin, List.append_assoc, text_read h1, text_read h2, many_read field_read h3, bind_ok]

theorem action_read (d : ActionDef) (b : Bytes) (h : ActionFormat d b) (rest : Bytes) : actionDefFromBin (b ++ rest) = .ok (d, rest) := by
  obtain ⟨x, _, h1, ⟨y, z, h2, h3, rfl⟩, rfl⟩ := h
  simp only [actionDefFromBin, List.append_assoc, word_read h1, text_read h2, text_read h3, bind_ok]

theorem table_read (d : TableDef) (b : Bytes) (h : TableFormat d b) (rest : Bytes) : tableDefFromBin (b ++ rest) = .ok (d, rest) := by
  obtain ⟨x, _, h1, ⟨y, _, h2, ⟨z, _, h3, ⟨u, v, h4, h5, rfl⟩, rfl⟩, rfl⟩, rfl⟩ := h
  simp only [tableDefFromBin, List.append_assoc, word_read h1, text_read h2, many_read (fun _ _ h => text_read h) h3,
    many_read (fun _ _ h => text_read h) h4, text_read h5, bind_ok]

theorem errorMessage_read (d : ErrorMessage) (b : Bytes) (h : ErrorFormat d b) (rest : Bytes) : errorFromBin (b ++ rest) = .ok (d, rest) := by
  obtain ⟨x, y, h1, h2, rfl⟩ := h
  simp only [errorFromBin, List.append_assoc, word_read h1, text_read h2, bind_ok]

theorem ext_read (d : Nat × Bytes) (b : Bytes) (h : ExtensionFormat d b) (rest : Bytes) : extFromBin (b ++ rest) = .ok (d, rest) := by
  obtain ⟨x, y, h1, h2, rfl⟩ := h
  simp only [extFromBin, List.append_assoc, word_read h1, chars_read h2, bind_ok]

theorem variantDef_read (d : VariantDef) (b : Bytes) (h : VariantFormat d b) (rest : Bytes) : variantDefFromBin (b ++ rest) = .ok (d, rest) := by
  obtain ⟨x, y, h1, h2, rfl⟩ := h
  simp only [variantDefFromBin, List.append_assoc, text_read h1, many_read (fun _ _ h => text_read h) h2, bind_ok]

/-- reading the first eight sections -/
theorem head_read {d : AbiDef} {b : Bytes} (h : HeadFormat d b) (rest : Bytes) : abiDefFromBin (b ++ rest) =
    (maybeFromBin [] (vecFromBin variantDefFromBin) rest).map fun p => ({ d with variants := p.1 }, p.2) := by
  obtain ⟨x1, _, h1, ⟨x2, _, h2, ⟨x3, _, h3, ⟨x4, _, h4, ⟨x5, _, h5, ⟨x6, _, h6, ⟨x7, x8, h7, h8, rfl⟩, rfl⟩, rfl⟩, rfl⟩, rfl⟩, rfl⟩, rfl⟩ := h
  simp only [abiDefFromBin, List.append_assoc, text_read h1, many_read type_read h2, many_read struct_read h3, many_read action_read h4,
    many_read table_read h5, many_read clause_read h6, many_read errorMessage_read h7, many_read ext_read h8, bind_ok]
  cases maybeFromBin [] (vecFromBin variantDefFromBin) rest <;> rfl

/-- **C41, round trip.** Writing any ABI definition that has a binary form gives that form, and reading it back — whatever comes after
it — gives the same definition. -/
theorem c41_roundtrip {d : AbiDef} {b : Bytes} (hw : Words d) (h : abiDefToBin d = .ok b) (rest : Bytes) :
    abiDefFromBin (b ++ rest) = .ok (d, rest) := by
  obtain ⟨x, y, h1, h2, rfl⟩ := (c41_format hw b).1 h
  rw [List.append_assoc, head_read h1, maybeFromBin]
  have : y ++ rest ≠ [] := by
    obtain ⟨s, _, hs, -, rfl⟩ := h2
    have := size_ne_nil hs
    simp [this]
  rw [if_neg this, many_read variantDef_read h2]
  rfl

/-- **C41, missing section.** A definition stored without the trailing section is read as having no variants, and has no other form
without it: adding an empty section gives the same definition. -/
theorem c41_without_trailing_section {d : AbiDef} {b : Bytes} (h : HeadFormat d b) :
    abiDefFromBin b = .ok ({ d with variants := [] }, []) ∧ abiDefFromBin (b ++ [0]) = .ok ({ d with variants := [] }, []) := by
  constructor
  · have := head_read h []
    rw [List.append_nil] at this
    rw [this]; rfl
  · have : Many VariantFormat [] [0] := ⟨[0], [], ⟨by decide, .last (by decide)⟩, rfl, rfl⟩
    have h1 := many_read variantDef_read this []
    rw [head_read h, maybeFromBin, if_neg (by simp)]
    rw [List.append_nil] at h1
    rw [h1]; rfl

/-! ## Which definitions have a binary form -/

theorem then_exists {P Q : Bytes → Prop} : (∃ b, (P ⨟ Q) b) ↔ (∃ b, P b) ∧ ∃ b, Q b := by
  constructor
  · rintro ⟨b, x, y, h1, h2, rfl⟩; exact ⟨⟨x, h1⟩, y, h2⟩
  · rintro ⟨⟨x, h1⟩, y, h2⟩; exact ⟨_, x, y, h1, h2, rfl⟩

theorem size_exists_iff {n : Nat} : (∃ b, Size n b) ↔ n < 2 ^ 32 := by
  constructor
  · rintro ⟨b, h, -⟩; exact h
  · intro h
    obtain ⟨b, hb, -⟩ := c01_varuint32_roundtrip n h []
    exact ⟨b, size_iff.2 hb⟩

theorem str_exists {s : Bytes} : (∃ b, Str s b) ↔ Fits s := by
  unfold Fits
  rw [← size_exists_iff]
  constructor
  · rintro ⟨_, h, h1, rfl⟩; exact ⟨h, h1⟩
  · rintro ⟨h, h1⟩; exact ⟨_, h, h1, rfl⟩

theorem word_exists {n v : Nat} : (∃ b, Word n v b) ↔ v < 256 ^ n := by
  constructor
  · rintro ⟨b, h, -⟩; exact h
  · intro h; exact ⟨_, (word_write h).1 rfl⟩

theorem parts_exists {α : Type} {R : α → Bytes → Prop} : ∀ {l : List α}, (∃ b, Parts R l b) ↔ ∀ a ∈ l, ∃ b, R a b
  | [] => by simp [Parts]
  | a :: l => by rw [Parts, then_exists, parts_exists]; simp

theorem many_exists {α : Type} {R : α → Bytes → Prop} {l : List α} : (∃ b, Many R l b) ↔ Fits l ∧ ∀ a ∈ l, ∃ b, R a b := by
  rw [Many, then_exists, parts_exists, size_exists_iff, Fits]

theorem c41_storable {d : AbiDef} : Storable d ↔ ∃ b, AbiFormat d b := by
  rw [AbiFormat, HeadFormat]
  simp only [then_exists, many_exists, str_exists, TypeFormat, StructFormat, FieldFormat, ActionFormat, TableFormat, ClauseFormat, ErrorFormat,
    ExtensionFormat, VariantFormat, word_exists]
  constructor
  · rintro ⟨h1, h2, h3, h4, h5, h6, h7, h8, h9⟩
    exact ⟨⟨h1, h2, h3, h4, h5, h6, h7, h8⟩, h9⟩
  · rintro ⟨⟨h1, h2, h3, h4, h5, h6, h7, h8⟩, h9⟩
    exact ⟨h1, h2, h3, h4, h5, h6, h7, h8, h9⟩

theorem Spec.Storable.words {d : AbiDef} (h : Storable d) : Words d :=
  ⟨fun t ht => (h.actions.2 t ht).1, fun t ht => (h.tables.2 t ht).1, fun t ht => (h.errors.2 t ht).1, fun t ht => (h.extensions.2 t ht).1⟩

/-- **C41.** Every ABI definition whose sizes and numbers fit is written, and read back as it was. -/
theorem c41_every_storable {d : AbiDef} (h : Storable d) : ∃ b, abiDefToBin d = .ok b ∧ abiDefFromBin b = .ok (d, []) := by
  obtain ⟨b, hb⟩ := c41_storable.1 h
  have := (c41_format h.words b).2 hb
  refine ⟨b, this, ?_⟩
  have := c41_roundtrip h.words this []
  rwa [List.append_nil] at this

/-! ## What is read can be written -/

/-- `r` is a suffix of `s`, and what was read has a format. -/
def TookFormat (P : Bytes → Prop) (s r : Bytes) : Prop := (∃ p, s = p ++ r) ∧ (s.length < 2 ^ 32 → ∃ b, P b)

theorem TookFormat.seq {P Q : Bytes → Prop} {s s1 r : Bytes} (h1 : TookFormat P s s1) (h2 : TookFormat Q s1 r) : TookFormat (P ⨟ Q) s r := by
  obtain ⟨⟨p, rfl⟩, h1⟩ := h1
  obtain ⟨⟨q, rfl⟩, h2⟩ := h2
  refine ⟨⟨p ++ q, by simp⟩, fun h => then_exists.2 ⟨h1 h, h2 (by simp at h ⊢; omega)⟩⟩

theorem size_took {s r : Bytes} {n : Nat} (h : varuint32FromBin s = .ok (n, r)) : TookFormat (Size n) s r := by
  obtain ⟨h1, h2⟩ := varuint_took h
  exact ⟨h1, fun _ => h2⟩

theorem str_took {s r a : Bytes} (h : textFromBin s = .ok (a, r)) : TookFormat (Str a) s r := by
  unfold textFromBin at h
  obtain ⟨⟨n, s1⟩, h1, h⟩ := bind_eq_ok.1 h
  obtain ⟨rfl, rfl⟩ := readBytes_ok h
  obtain ⟨⟨p, rfl⟩, b, hb⟩ := varuint_took h1
  exact ⟨⟨p ++ a, by simp⟩, fun _ => ⟨_, b, hb, rfl⟩⟩

theorem word_took {n : Nat} {s r : Bytes} {v : Nat} (h : wordFromBin n s = .ok (v, r)) : TookFormat (Word n v) s r := by
  unfold wordFromBin at h
  obtain ⟨⟨b, s1⟩, h1, h⟩ := bind_eq_ok.1 h
  simp only [Except.ok.injEq, Prod.mk.injEq] at h
  obtain ⟨rfl, rfl⟩ := h
  obtain ⟨rfl, rfl⟩ := readBytes_ok h1
  exact ⟨⟨b, rfl⟩, fun _ => ⟨b, leVal_lt b, rfl, rfl⟩⟩

theorem chars_eq (s : Bytes) : fromBin (.rawVec 1) s = (charsFromBin s).map fun p => (.raw p.1, p.2) := by
  rw [fromBin, charsFromBin]
  beta_reduce
  cases hv : varuint64FromBin s with
  | error e => rfl
  | ok p =>
    obtain ⟨k, s1⟩ := p
    simp only [bind_ok, Nat.mul_one]
    have hk : k < 2 ^ 64 := by
      exact (c01_varuint64_read s s1 k hv).1
    rw [Nat.mod_eq_of_lt hk]
    cases check (decide (k ≤ s1.length)) .overrun with
    | error e => rfl
    | ok _ =>
      simp only [bind_ok]
      cases check (decide (k ≤ vectorMax 1)) .alloc with
      | error e => rfl
      | ok _ =>
        simp only [bind_ok]
        cases readBytes k s1 <;> rfl

theorem chars_took {s r a : Bytes} (h : charsFromBin s = .ok (a, r)) : TookFormat (Str a) s r := by
  have := fromBin_took (.rawVec 1) s (.raw a) r (by simp [WfType]) (by rw [chars_eq, h]; rfl)
  refine ⟨this.1, fun hs => ?_⟩
  obtain ⟨b, hh, t, k, e, h1, h2, -, -⟩ := this.2 hs
  injection e with e
  subst e
  rw [Nat.mul_one] at h2
  subst h2
  exact ⟨_, hh, h1, rfl⟩

theorem all_took {α : Type} {R : α → Bytes → Prop} {f : Reader α} (hf : ∀ s a r, f s = .ok (a, r) → TookFormat (R a) s r) :
    ∀ n s l r, allFromBin f n s = .ok (l, r) → l.length = n ∧ TookFormat (Parts R l) s r
  | 0, s, l, r, h => by
    simp only [allFromBin, Except.ok.injEq, Prod.mk.injEq] at h
    obtain ⟨rfl, rfl⟩ := h
    exact ⟨rfl, ⟨[], rfl⟩, fun _ => ⟨[], rfl⟩⟩
  | n + 1, s, l, r, h => by
    rw [allFromBin] at h
    obtain ⟨⟨a, s1⟩, h1, h⟩ := bind_eq_ok.1 h
    obtain ⟨⟨l', s2⟩, h2, h⟩ := bind_eq_ok.1 h
    simp only [Except.ok.injEq, Prod.mk.injEq] at h
    obtain ⟨rfl, rfl⟩ := h
    obtain ⟨e, h3⟩ := all_took hf n s1 l' s2 h2
    exact ⟨by simp [e], (hf s a s1 h1).seq h3⟩

theorem vec_took {α : Type} {R : α → Bytes → Prop} {f : Reader α} (hf : ∀ s a r, f s = .ok (a, r) → TookFormat (R a) s r)
    {s r : Bytes} {l : List α} (h : vecFromBin f s = .ok (l, r)) : TookFormat (Many R l) s r := by
  unfold vecFromBin at h
  obtain ⟨⟨n, s1⟩, h1, h⟩ := bind_eq_ok.1 h
  obtain ⟨rfl, h2⟩ := all_took hf n s1 l r h
  exact (size_took h1).seq h2

theorem type_took (s : Bytes) (d : TypeDef) (r : Bytes) (h : typeDefFromBin s = .ok (d, r)) : TookFormat (TypeFormat d) s r := by
  obtain ⟨⟨a, s1⟩, h1, h⟩ := bind_eq_ok.1 h
  obtain ⟨⟨b, s2⟩, h2, h⟩ := bind_eq_ok.1 h
  simp only [Except.ok.injEq, Prod.mk.injEq] at h
  obtain ⟨rfl, rfl⟩ := h
  exact (str_took h1).seq (str_took h2)

theorem field_took (s : Bytes) (d : FieldDef) (r : Bytes) (h : fieldDefFromBin s = .ok (d, r)) : TookFormat (FieldFormat d) s r := by
  obtain ⟨⟨a, s1⟩, h1, h⟩ := bind_eq_ok.1 h
  obtain ⟨⟨b, s2⟩, h2, h⟩ := bind_eq_ok.1 h
  simp only [Except.ok.injEq, Prod.mk.injEq] at h
  obtain ⟨rfl, rfl⟩ := h
  exact (str_took h1).seq (str_took h2)

theorem clause_took (s : Bytes) (d : ClausePair) (r : Bytes) (h : clauseFromBin s = .ok (d, r)) : TookFormat (ClauseFormat d) s r := by
  obtain ⟨⟨a, s1⟩, h1, h⟩ := bind_eq_ok.1 h
  obtain ⟨⟨b, s2⟩, h2, h⟩ := bind_eq_ok.1 h
  simp only [Except.ok.injEq, Prod.mk.injEq] at h
  obtain ⟨rfl, rfl⟩ := h
  exact (str_took h1).seq (str_took h2)

theorem struct_took (s : Bytes) (d : StructDef) (r : Bytes) (h : structDefFromBin s = .ok (d, r)) : TookFormat (StructFormat d) s r := by
  obtain ⟨⟨a, s1⟩, h1, h⟩ := bind_eq_ok.1 h
  obtain ⟨⟨b, s2⟩, h2, h⟩ := bind_eq_ok.1 h
  obtain ⟨⟨c, s3⟩, h3, h⟩ := bind_eq_ok.1 h
  simp only [Except.ok.injEq, Prod.mk.injEq] at h
  obtain ⟨rfl, rfl⟩ := h
  exact (str_took h1).seq ((str_took h2).seq (vec_took field_took h3))

theorem action_took (s : Bytes) (d : ActionDef) (r : Bytes) (h : actionDefFromBin s = .ok (d, r)) : TookFormat (ActionFormat d) s r := by
  obtain ⟨⟨a, s1⟩, h1, h⟩ := bind_eq_ok.1 h
  obtain ⟨⟨b, s2⟩, h2, h⟩ := bind_eq_ok.1 h
  obtain ⟨⟨c, s3⟩, h3, h⟩ := bind_eq_ok.1 h
  simp only [Except.ok.injEq, Prod.mk.injEq] at h
  obtain ⟨rfl, rfl⟩ := h
  exact (word_took h1).seq ((str_took h2).seq (str_took h3))

theorem table_took (s : Bytes) (d : TableDef) (r : Bytes) (h : tableDefFromBin s = .ok (d, r)) : TookFormat (TableFormat d) s r := by
  obtain ⟨⟨a, s1⟩, h1, h⟩ := bind_eq_ok.1 h
  obtain ⟨⟨b, s2⟩, h2, h⟩ := bind_eq_ok.1 h
  obtain ⟨⟨c, s3⟩, h3, h⟩ := bind_eq_ok.1 h
  obtain ⟨⟨e, s4⟩, h4, h⟩ := bind_eq_ok.1 h
  obtain ⟨⟨f, s5⟩, h5, h⟩ := bind_eq_ok.1 h
  simp only [Except.ok.injEq, Prod.mk.injEq] at h
  obtain ⟨rfl, rfl⟩ := h
  exact (word_took h1).seq ((str_took h2).seq ((vec_took (fun _ _ _ => str_took) h3).seq
    ((vec_took (fun _ _ _ => str_took) h4).seq (str_took h5))))

theorem errorMessage_took (s : Bytes) (d : ErrorMessage) (r : Bytes) (h : errorFromBin s = .ok (d, r)) : TookFormat (ErrorFormat d) s r := by
  obtain ⟨⟨a, s1⟩, h1, h⟩ := bind_eq_ok.1 h
  obtain ⟨⟨b, s2⟩, h2, h⟩ := bind_eq_ok.1 h
  simp only [Except.ok.injEq, Prod.mk.injEq] at h
  obtain ⟨rfl, rfl⟩ := h
  exact (word_took h1).seq (str_took h2)

theorem ext_took (s : Bytes) (d : Nat × Bytes) (r : Bytes) (h : extFromBin s = .ok (d, r)) : TookFormat (ExtensionFormat d) s r := by
  obtain ⟨⟨a, s1⟩, h1, h⟩ := bind_eq_ok.1 h
  obtain ⟨⟨b, s2⟩, h2, h⟩ := bind_eq_ok.1 h
  simp only [Except.ok.injEq, Prod.mk.injEq] at h
  obtain ⟨rfl, rfl⟩ := h
  exact (word_took h1).seq (chars_took h2)

theorem variantDef_took (s : Bytes) (d : VariantDef) (r : Bytes) (h : variantDefFromBin s = .ok (d, r)) : TookFormat (VariantFormat d) s r := by
  obtain ⟨⟨a, s1⟩, h1, h⟩ := bind_eq_ok.1 h
  obtain ⟨⟨b, s2⟩, h2, h⟩ := bind_eq_ok.1 h
  simp only [Except.ok.injEq, Prod.mk.injEq] at h
  obtain ⟨rfl, rfl⟩ := h
  exact (str_took h1).seq (vec_took (fun _ _ _ => str_took) h2)

theorem maybe_took {s r : Bytes} {l : List VariantDef} (h : maybeFromBin [] (vecFromBin variantDefFromBin) s = .ok (l, r)) :
    TookFormat (Many VariantFormat l) s r := by
  unfold maybeFromBin at h
  split at h
  · simp only [Except.ok.injEq, Prod.mk.injEq] at h
    obtain ⟨rfl, rfl⟩ := h
    exact ⟨⟨[], rfl⟩, fun _ => many_exists.2 ⟨by simp [Fits], by simp⟩⟩
  · exact vec_took variantDef_took h

/-- **C41, reading first.** Reading an ABI definition takes a prefix of the input, and — from inputs below 4 GiB — gives a definition
that can be written, and that is read back from what was written. -/
theorem c41_reread {s r : Bytes} {d : AbiDef} (h : abiDefFromBin s = .ok (d, r)) : (∃ p, s = p ++ r) ∧
    (s.length < 2 ^ 32 → Storable d ∧ ∃ b, abiDefToBin d = .ok b ∧ abiDefFromBin b = .ok (d, [])) := by
  obtain ⟨⟨x1, s1⟩, h1, h⟩ := bind_eq_ok.1 h
  obtain ⟨⟨x2, s2⟩, h2, h⟩ := bind_eq_ok.1 h
  obtain ⟨⟨x3, s3⟩, h3, h⟩ := bind_eq_ok.1 h
  obtain ⟨⟨x4, s4⟩, h4, h⟩ := bind_eq_ok.1 h
  obtain ⟨⟨x5, s5⟩, h5, h⟩ := bind_eq_ok.1 h
  obtain ⟨⟨x6, s6⟩, h6, h⟩ := bind_eq_ok.1 h
  obtain ⟨⟨x7, s7⟩, h7, h⟩ := bind_eq_ok.1 h
  obtain ⟨⟨x8, s8⟩, h8, h⟩ := bind_eq_ok.1 h
  obtain ⟨⟨x9, s9⟩, h9, h⟩ := bind_eq_ok.1 h
  simp only [Except.ok.injEq, Prod.mk.injEq] at h
  obtain ⟨rfl, rfl⟩ := h
  have := (str_took h1).seq ((vec_took type_took h2).seq ((vec_took struct_took h3).seq ((vec_took action_took h4).seq
    ((vec_took table_took h5).seq ((vec_took clause_took h6).seq ((vec_took errorMessage_took h7).seq ((vec_took ext_took h8).seq
    (maybe_took h9))))))))
  refine ⟨this.1, fun hs => ?_⟩
  obtain ⟨b, hb⟩ := this.2 hs
  have hst : Storable ⟨x1, x2, x3, x4, x5, x6, x7, x8, x9⟩ := c41_storable.2 ⟨b, abiFormat_iff.2 hb⟩
  exact ⟨hst, c41_every_storable hst⟩

/-! ## The same functions as the generic serializer

`abiDefTy` is the C++ type `abi_def` in the universe of Model/StaticBin.lean, `AbiDef.toVal` embeds definitions into its values. -/

def TypeDef.toVal (d : TypeDef) : BVal := .list [.raw d.newName, .raw d.type]
def FieldDef.toVal (d : FieldDef) : BVal := .list [.raw d.name, .raw d.type]
def StructDef.toVal (d : StructDef) : BVal := .list [.raw d.name, .raw d.base, .list (d.fields.map FieldDef.toVal)]
def ActionDef.toVal (d : ActionDef) : BVal := .list [.raw (leBytes 8 d.name), .raw d.type, .raw d.ricardian]
def TableDef.toVal (d : TableDef) : BVal :=
  .list [.raw (leBytes 8 d.name), .raw d.indexType, .list (d.keyNames.map .raw), .list (d.keyTypes.map .raw), .raw d.type]
def ClausePair.toVal (d : ClausePair) : BVal := .list [.raw d.id, .raw d.body]
def ErrorMessage.toVal (d : ErrorMessage) : BVal := .list [.raw (leBytes 8 d.code), .raw d.msg]
def extVal (d : Nat × Bytes) : BVal := .list [.raw (leBytes 2 d.1), .raw d.2]
def VariantDef.toVal (d : VariantDef) : BVal := .list [.raw d.name, .list (d.types.map .raw)]
def AbiDef.toVal (d : AbiDef) : BVal :=
  .list [.raw d.version, .list (d.types.map TypeDef.toVal), .list (d.structs.map StructDef.toVal), .list (d.actions.map ActionDef.toVal),
    .list (d.tables.map TableDef.toVal), .list (d.clauses.map ClausePair.toVal), .list (d.errors.map ErrorMessage.toVal),
    .list (d.extensions.map extVal), .list (d.variants.map VariantDef.toVal)]

def typeDefTy : BTy := .struct [.str, .str]
def structDefTy : BTy := .struct [.str, .str, .vec typeDefTy]
def actionDefTy : BTy := .struct [.raw 8, .str, .str]
def tableDefTy : BTy := .struct [.raw 8, .str, .vec .str, .vec .str, .str]
def clauseTy : BTy := .struct [.str, .str]
def errorTy : BTy := .struct [.raw 8, .str]
def extTy : BTy := .struct [.raw 2, .rawVec 1]
def variantDefTy : BTy := .struct [.str, .vec .str]
/-- `abi_def` (include/eosio/abi.hpp:127-140) -/
def abiDefTy : BTy := .struct [.str, .vec typeDefTy, .vec structDefTy, .vec actionDefTy, .vec tableDefTy, .vec clauseTy, .vec errorTy,
  .vec extTy, .maybe (.list []) (.vec variantDefTy)]

/-- the typed reader and the generic reader do the same -/
def SameRead {α : Type} (t : BTy) (r : Reader α) (f : α → BVal) : Prop := ∀ s, fromBin t s = (r s).map fun p => (f p.1, p.2)

theorem same_str : SameRead .str textFromBin .raw := by
  intro s
  rw [fromBin, textFromBin]
  beta_reduce
  cases varuint32FromBin s with
  | error e => rfl
  | ok p =>
    simp only [bind_ok]
    cases readBytes p.1 p.2 <;> rfl

theorem same_word (n : Nat) : SameRead (.raw n) (wordFromBin n) fun v => .raw (leBytes n v) := by
  intro s
  rw [fromBin, wordFromBin]
  beta_reduce
  cases h : readBytes n s with
  | error e => rfl
  | ok p =>
    obtain ⟨b, r⟩ := p
    obtain ⟨-, rfl⟩ := readBytes_ok h
    simp only [h, bind_ok, Except.map, leBytes_leVal]

theorem same_all {α : Type} {t : BTy} {r : Reader α} {f : α → BVal} (h : SameRead t r f) :
    ∀ n s, readN (fromBin t) n s = (allFromBin r n s).map fun p => (p.1.map f, p.2)
  | 0, s => rfl
  | n + 1, s => by
    rw [readN, allFromBin, h]
    cases r s with
    | error e => rfl
    | ok p =>
      simp only [Except.map, bind_ok]
      rw [same_all h n]
      cases allFromBin r n p.2 <;> rfl

theorem same_vec {α : Type} {t : BTy} {r : Reader α} {f : α → BVal} (h : SameRead t r f) : SameRead (.vec t) (vecFromBin r) fun l => .list (l.map f) := by
  intro s
  rw [fromBin, vecFromBin]
  beta_reduce
  cases varuint32FromBin s with
  | error e => rfl
  | ok p =>
    simp only [bind_ok]
    rw [same_all h]
    cases allFromBin r p.1 p.2 <;> rfl

theorem same_maybe {α : Type} {t : BTy} {r : Reader α} {f : α → BVal} {d : α} (h : SameRead t r f) : SameRead (.maybe (f d) t) (maybeFromBin d r) f := by
  intro s
  rw [fromBin, maybeFromBin]
  beta_reduce
  split
  · rfl
  · exact h s

/-- reading the fields of a struct -/
theorem fields_cons {α : Type} {t : BTy} {ts : List BTy} {r : Reader α} {f : α → BVal} (h : SameRead t r f) (s : Bytes) :
    fromBinFields (t :: ts) s = r s >>= fun p => (fromBinFields ts p.2).map fun q => (f p.1 :: q.1, q.2) := by
  rw [fromBinFields]
  beta_reduce
  rw [h]
  cases r s with
  | error e => rfl
  | ok p =>
    simp only [Except.map, bind_ok]
    cases fromBinFields ts p.2 <;> rfl

theorem fields_nil (s : Bytes) : fromBinFields [] s = .ok ([], s) := by rw [fromBinFields]

theorem map_bind' {α β γ : Type} (x : Res α) (g : α → Res β) (f : β → γ) : (x >>= g).map f = x >>= fun a => (g a).map f := by
  cases x <;> rfl

theorem struct_eq (ts : List BTy) (s : Bytes) : fromBin (.struct ts) s = (fromBinFields ts s).map fun p => (.list p.1, p.2) := by
  rw [fromBin]
  beta_reduce
  cases fromBinFields ts s <;> rfl

theorem map_ok' {α β : Type} (a : α) (f : α → β) : (Except.ok a : Res α).map f = .ok (f a) := rfl

theorem map_map' {α β γ : Type} (x : Res α) (g : α → β) (f : β → γ) : (x.map g).map f = x.map fun a => f (g a) := by
  cases x <;> rfl

theorem same_type : SameRead typeDefTy typeDefFromBin TypeDef.toVal := by
  intro s
  simp only [typeDefTy, struct_eq, fields_cons same_str, fields_nil, typeDefFromBin, map_bind', map_map', map_ok', TypeDef.toVal]

theorem same_field : SameRead typeDefTy fieldDefFromBin FieldDef.toVal := by
  intro s
  simp only [typeDefTy, struct_eq, fields_cons same_str, fields_nil, fieldDefFromBin, map_bind', map_map', map_ok', FieldDef.toVal]

theorem same_clause : SameRead clauseTy clauseFromBin ClausePair.toVal := by
  intro s
  simp only [clauseTy, struct_eq, fields_cons same_str, fields_nil, clauseFromBin, map_bind', map_map', map_ok', ClausePair.toVal]

theorem same_struct : SameRead structDefTy structDefFromBin StructDef.toVal := by
  intro s
  simp only [structDefTy, struct_eq, fields_cons same_str, fields_cons (same_vec same_field), fields_nil, structDefFromBin, map_bind', map_map',
    map_ok', StructDef.toVal]

theorem same_action : SameRead actionDefTy actionDefFromBin ActionDef.toVal := by
  intro s
  simp only [actionDefTy, struct_eq, fields_cons same_str, fields_cons (same_word 8), fields_nil, actionDefFromBin, map_bind', map_map',
    map_ok', ActionDef.toVal]

theorem same_table : SameRead tableDefTy tableDefFromBin TableDef.toVal := by
  intro s
  simp only [tableDefTy, struct_eq, fields_cons same_str, fields_cons (same_word 8), fields_cons (same_vec same_str), fields_nil, tableDefFromBin,
    map_bind', map_map', map_ok', TableDef.toVal]

theorem same_error : SameRead errorTy errorFromBin ErrorMessage.toVal := by
  intro s
  simp only [errorTy, struct_eq, fields_cons same_str, fields_cons (same_word 8), fields_nil, errorFromBin, map_bind', map_map',
    map_ok', ErrorMessage.toVal]

theorem same_ext : SameRead extTy extFromBin extVal := by
  intro s
  simp only [extTy, struct_eq, fields_cons (same_word 2), fields_cons (f := .raw) chars_eq, fields_nil, extFromBin, map_bind', map_map',
    map_ok', extVal]

theorem same_variant : SameRead variantDefTy variantDefFromBin VariantDef.toVal := by
  intro s
  simp only [variantDefTy, struct_eq, fields_cons same_str, fields_cons (same_vec same_str), fields_nil, variantDefFromBin, map_bind', map_map',
    map_ok', VariantDef.toVal]

/-- Reading an ABI definition is reading a value of the type `abi_def` with the generic reader. -/
theorem c41_generic_read : SameRead abiDefTy abiDefFromBin AbiDef.toVal := by
  intro s
  have h : SameRead (.maybe (.list []) (.vec variantDefTy)) (maybeFromBin [] (vecFromBin variantDefFromBin)) fun l => .list (l.map VariantDef.toVal) :=
    same_maybe (d := []) (same_vec same_variant)
  simp only [abiDefTy, struct_eq, fields_cons same_str, fields_cons (same_vec same_type), fields_cons (same_vec same_struct),
    fields_cons (same_vec same_action), fields_cons (same_vec same_table), fields_cons (same_vec same_clause), fields_cons (same_vec same_error),
    fields_cons (same_vec same_ext), fields_cons h, fields_nil, abiDefFromBin,
    map_bind', map_map', map_ok', AbiDef.toVal]

/-- the typed writer and the generic writer do the same -/
def SameWrite (t : BTy) (v : BVal) (w : Res Bytes) : Prop := ∀ acc, toBinG vectorWrite t v acc = w.map (acc ++ ·)

theorem size_writes (n : Nat) (acc : Bytes) : varuint32Write vectorWrite n acc = (varuint32ToBin n).map (acc ++ ·) := by
  unfold varuint32Write
  cases varuint32ToBin n with
  | error e => rfl
  | ok b => exact writeEach_vector b acc

theorem write_str (s : Bytes) : SameWrite .str (.raw s) (textToBin s) := by
  intro acc
  rw [toBinG, size_writes, textToBin]
  cases varuint32ToBin s.length with
  | error e => rfl
  | ok h => simp [Except.map, vectorWrite]

theorem write_chars (s : Bytes) : SameWrite (.rawVec 1) (.raw s) (textToBin s) := by
  intro acc
  rw [toBinG, Nat.div_one, size_writes, textToBin]
  cases varuint32ToBin s.length with
  | error e => rfl
  | ok h => simp [Except.map, vectorWrite]

theorem write_word (n v : Nat) : SameWrite (.raw n) (.raw (leBytes n v)) (wordToBin n v) := by
  intro acc
  rw [toBinG]; rfl

theorem write_all {α : Type} {t : BTy} {f : α → BVal} {w : α → Res Bytes} (h : ∀ a, SameWrite t (f a) (w a)) :
    ∀ (l : List α) acc, writeAll (toBinG vectorWrite t) (l.map f) acc = (allToBin w l).map (acc ++ ·)
  | [], acc => by simp [writeAll, allToBin, Except.map]
  | a :: l, acc => by
    rw [List.map_cons, writeAll, h, allToBin]
    cases w a with
    | error e => rfl
    | ok x =>
      simp only [Except.map, bind_ok]
      rw [write_all h l]
      cases allToBin w l <;> simp [Except.map]

theorem write_vec {α : Type} {t : BTy} {f : α → BVal} {w : α → Res Bytes} (h : ∀ a, SameWrite t (f a) (w a)) (l : List α) :
    SameWrite (.vec t) (.list (l.map f)) (vecToBin w l) := by
  intro acc
  rw [toBinG, List.length_map, size_writes, vecToBin]
  cases varuint32ToBin l.length with
  | error e => rfl
  | ok x =>
    simp only [Except.map, bind_ok]
    rw [write_all h l]
    cases allToBin w l <;> simp [Except.map]

theorem fields_write {t : BTy} {ts : List BTy} {v : BVal} {vs : List BVal} {w : Res Bytes} (h : SameWrite t v w) (acc : Bytes) :
    toBinFields vectorWrite (t :: ts) (v :: vs) acc = w >>= fun x => toBinFields vectorWrite ts vs (acc ++ x) := by
  rw [toBinFields, h]
  cases w <;> rfl

theorem fields_write_nil (acc : Bytes) : toBinFields vectorWrite [] [] acc = .ok acc := by rw [toBinFields]

theorem structs_write (ts : List BTy) (vs : List BVal) (acc : Bytes) : toBinG vectorWrite (.struct ts) (.list vs) acc = toBinFields vectorWrite ts vs acc := by
  rw [toBinG]

theorem write_type (d : TypeDef) : SameWrite typeDefTy d.toVal (typeDefToBin d) := by
  intro acc
  simp only [typeDefTy, TypeDef.toVal, structs_write, fields_write (write_str _), fields_write_nil, typeDefToBin, map_bind', map_ok', List.append_assoc]

theorem write_field (d : FieldDef) : SameWrite typeDefTy d.toVal (fieldDefToBin d) := by
  intro acc
  simp only [typeDefTy, FieldDef.toVal, structs_write, fields_write (write_str _), fields_write_nil, fieldDefToBin, map_bind', map_ok', List.append_assoc]

theorem write_clause (d : ClausePair) : SameWrite clauseTy d.toVal (clauseToBin d) := by
  intro acc
  simp only [clauseTy, ClausePair.toVal, structs_write, fields_write (write_str _), fields_write_nil, clauseToBin, map_bind', map_ok', List.append_assoc]

theorem write_struct (d : StructDef) : SameWrite structDefTy d.toVal (structDefToBin d) := by
  intro acc
  simp only [structDefTy, StructDef.toVal, structs_write, fields_write (write_str _), fields_write (write_vec write_field _), fields_write_nil,
    structDefToBin, map_bind', map_ok', List.append_assoc]

theorem write_action (d : ActionDef) : SameWrite actionDefTy d.toVal (actionDefToBin d) := by
  intro acc
  simp only [actionDefTy, ActionDef.toVal, structs_write, fields_write (write_str _), fields_write (write_word 8 _), fields_write_nil,
    actionDefToBin, map_bind', map_ok', List.append_assoc]

theorem write_table (d : TableDef) : SameWrite tableDefTy d.toVal (tableDefToBin d) := by
  intro acc
  simp only [tableDefTy, TableDef.toVal, structs_write, fields_write (write_str _), fields_write (write_word 8 _),
    fields_write (write_vec write_str _), fields_write_nil, tableDefToBin, map_bind', map_ok', List.append_assoc]

theorem write_error (d : ErrorMessage) : SameWrite errorTy d.toVal (errorToBin d) := by
  intro acc
  simp only [errorTy, ErrorMessage.toVal, structs_write, fields_write (write_str _), fields_write (write_word 8 _), fields_write_nil,
    errorToBin, map_bind', map_ok', List.append_assoc]

theorem write_ext (d : Nat × Bytes) : SameWrite extTy (extVal d) (extToBin d) := by
  intro acc
  simp only [extTy, extVal, structs_write, fields_write (write_chars _), fields_write (write_word 2 _), fields_write_nil,
    extToBin, map_bind', map_ok', List.append_assoc]

theorem write_variant (d : VariantDef) : SameWrite variantDefTy d.toVal (variantDefToBin d) := by
  intro acc
  simp only [variantDefTy, VariantDef.toVal, structs_write, fields_write (write_str _), fields_write (write_vec write_str _), fields_write_nil,
    variantDefToBin, map_bind', map_ok', List.append_assoc]

theorem write_maybe {t : BTy} {d v : BVal} {w : Res Bytes} (h : SameWrite t v w) : SameWrite (.maybe d t) v w := by
  intro acc
  rw [toBinG]
  exact h acc

/-- Writing an ABI definition is writing a value of the type `abi_def` with the generic writer: `convert_to_bin` appends to its buffer
what `abiDefToBin` gives. -/
theorem c41_generic_write (d : AbiDef) (bin : Bytes) : convertToBin abiDefTy d.toVal bin = (abiDefToBin d).map (bin ++ ·) := by
  rw [convertToBin_eq]
  simp only [abiDefTy, AbiDef.toVal, structs_write, fields_write (write_str _), fields_write (write_vec write_type _),
    fields_write (write_vec write_struct _), fields_write (write_vec write_action _), fields_write (write_vec write_table _),
    fields_write (write_vec write_clause _), fields_write (write_vec write_error _), fields_write (write_vec write_ext _),
    fields_write (write_maybe (write_vec write_variant _)), fields_write_nil, abiDefToBin, map_bind', map_ok', List.append_assoc]

/-! ## Example -/

/-- a definition with something in every section -/
def exampleDef : AbiDef where
  version := str "eosio::abi/1.1"
  types := [⟨str "account", str "name"⟩]
  structs := [⟨str "transfer", [], [⟨str "to", str "account"⟩, ⟨str "memo", str "string"⟩]⟩]
  actions := [⟨14829575313431724032, str "transfer", []⟩]
  tables := [⟨3607749779137757184, str "i64", [str "id"], [str "uint64"], str "transfer"⟩]
  clauses := [⟨str "a", str "b"⟩]
  errors := [⟨7, str "seven"⟩]
  extensions := [(300, [1, 2])]
  variants := [⟨str "v", [str "int8", str "account"]⟩]

example : Words exampleDef := by constructor <;> decide
example : Storable exampleDef := by constructor <;> (simp only [Fits]; decide)

/-- It is written and read back. -/
example : ∃ b, abiDefToBin exampleDef = .ok b ∧ abiDefFromBin b = .ok (exampleDef, []) :=
  c41_every_storable (by constructor <;> (simp only [Fits]; decide))

end Abieos
