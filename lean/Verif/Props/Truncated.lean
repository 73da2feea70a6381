import Verif.Spec.Truncated
import Verif.Proofs.Cut
import Verif.Props.Messages
/-!
C68: binary data of which only the beginning is there.
-/
namespace Abieos
open Spec

/-! ## Definitions without extensions -/

theorem ends_dollar {a b : Bytes} : a ++ str "?" ≠ b ++ str "$" := by
  intro h
  rw [show str "?" = [63] by decide, show str "$" = [36] by decide] at h
  have := congrArg List.getLast? h
  rw [List.getLast?_append, List.getLast?_append] at this
  revert this
  simp

theorem ends_dollar' {a b : Bytes} : a ++ str "[]" ≠ b ++ str "$" := by
  intro h
  rw [show str "[]" = [91] ++ [93] by decide, ← List.append_assoc] at h
  have := congrArg List.getLast? h
  rw [List.getLast?_append, show str "$" = [36] by decide, List.getLast?_append] at this
  revert this
  simp

theorem noExt_denotes {D : AbiDef} {T : Table} (hl : Loaded D T) {k : Bytes} {p : Ptr} (h : Denotes D k p) (hk : ¬ ∃ b, k = b ++ str "$") : ¬ IsExt T p := by
  rintro ⟨q, hq⟩
  have hm := hl.1.meaning _ _ hq rfl
  generalize hd : TData.extension q = d at hm
  cases hm with
  | extension hu =>
    rename_i b p' h1 h2
    generalize hk' : b ++ str "$" = p at h hu
    cases h with
    | declared h3 h4 => exact hu _ h3
    | typedef h3 h4 h5 => exact h5 ⟨hu, _, hk'.symm⟩
    | optional => exact ends_dollar hk'.symm
    | array => exact ends_dollar' hk'.symm
    | extension => exact hk ⟨_, rfl⟩
  | _ => cases hd

theorem noExt_fieldsOf {D : AbiDef} {T : Table} (hl : Loaded D T) {ds : List FieldDef} {fs : List Field} (h : FieldsOf D ds fs)
    (hx : ∀ f ∈ ds, ¬ ∃ b, f.type = b ++ str "$") : ∀ f ∈ fs, ¬ IsExt T f.type := by
  induction h with
  | nil => simp
  | cons h1 h2 ih =>
    intro g hg
    rcases List.mem_cons.1 hg with rfl | hg
    · exact noExt_denotes hl h1 (hx _ (by simp))
    · exact ih (fun f hf => hx f (by simp [hf])) g hg

theorem noExt_denotes_self {D : AbiDef} {T : Table} (hl : Loaded D T) {k : Bytes} {d : TData} (h : Declares D k d) : ¬ IsExt T k := by
  rintro ⟨q, hq⟩
  have hm := hl.1.meaning _ _ hq rfl
  generalize hd : TData.extension q = d' at hm
  cases hm with
  | extension hu => exact hu _ h
  | _ => cases hd

theorem noExt_builtinStruct {D : AbiDef} {T : Table} (hl : Loaded D T) {k : Bytes} {fs : List Field} (h : Declares D k (.struct fs)) :
    ∀ f ∈ fs, ¬ IsExt T f.type := by
  cases h with
  | extendedAsset =>
    intro f hf
    rcases List.mem_cons.1 hf with rfl | hf
    · exact noExt_denotes_self hl (.builtin .asset)
    · rcases List.mem_cons.1 hf with rfl | hf
      · exact noExt_denotes_self hl (.builtin .name)
      · cases hf

theorem noExt_struct {D : AbiDef} {T : Table} (hl : Loaded D T) (hx : NoExtensions D) {s : StructDef} {fs : List Field} (h : StructFields D s fs)
    (hs : s ∈ D.structs) : ∀ f ∈ fs, ¬ IsExt T f.type := by
  have mem : ∀ {p : Ptr} {b : StructDef}, Declares D p (.structDef b) → b ∈ D.structs := by
    intro p b hb
    generalize hd : TData.structDef b = d at hb
    cases hb with
    | struct hm => cases hd; exact hm
    | _ => cases hd
  induction h with
  | root h1 h2 => exact noExt_fieldsOf hl h2 (hx _ hs)
  | derived h1 h2 h3 h4 h5 ih =>
    intro f hf
    rcases List.mem_append.1 hf with hf | hf
    · exact ih (mem h3) f hf
    · exact noExt_fieldsOf hl h5 (hx _ hs) f hf
  | fromBuiltin h1 h2 h3 h4 =>
    intro f hf
    rcases List.mem_append.1 hf with hf | hf
    · exact noExt_builtinStruct hl h3 f hf
    · exact noExt_fieldsOf hl h4 (hx _ hs) f hf

theorem noExtFields {D : AbiDef} {T : Table} (hl : Loaded D T) (hx : NoExtensions D) : NoExtFields T := by
  intro p fs hp
  have hm := hl.1.meaning _ _ hp rfl
  generalize hd : TData.struct fs = d at hm
  cases hm with
  | extendedAsset h => cases hd; exact noExt_builtinStruct hl h
  | struct h1 h2 =>
    cases hd
    refine noExt_struct hl hx h2 ?_
    generalize hd : TData.structDef _ = d at h1
    cases h1 with
    | struct hm => cases hd; exact hm
    | _ => cases hd
  | _ => cases hd

/-! ## The C API -/

theorem dec_of {env : Env} {D : AbiDef} {T : Table} (hT : LoadedThen D T) {type : Bytes} {p : Ptr} (hp : (lookupType type T).1 = .ok p) (bin : Bytes)
    (r : Res (Bytes × Bytes)) : BinToJson (lookupType type T).2 env.leaves p bin r ↔ r = dec (lookupType type T).2 env.leaves (3 * maxStack + 3) 0 true p bin :=
  binToJson_iff (loaded_of (hT.lookup type)).wf (c26_found hT hp) bin _ (by omega) r

theorem online_leaves {env : Env} {F : Floats} (hF : env.leaves = builtins F) : ∀ k, Online (env.leaves.fromBin k) := by
  rw [hF]
  exact online_builtin

/-- **C68.** If the bytes are a complete value, then every proper beginning of them is refused with `Stream overrun`, unless a field of the
definition is a binary extension and the beginning is a complete value too. -/
theorem c68_truncated {env : Env} {F : Floats} (hF : env.leaves = builtins F) {h : List (Call × Ret)} {c : Ctx}
    (hc : Calls env (some Ctx.init) h (some c)) {k : Nat} {q : Call} {D : AbiDef} (hf : FirstLoad env h k q D) {type : Option Bytes} {bin more t : Bytes}
    (hd : DecodesAll env D (cstr type) (bin ++ more) t) (hm : more ≠ []) :
    DecodeSays env c k type bin (str "Stream overrun") ∨ (¬ NoExtensions D ∧ ∃ t', DecodesAll env D (cstr type) bin t') := by
  obtain ⟨a, ha, h2, -⟩ := firstLoad_has hc hf
  obtain ⟨p, hp, hd⟩ := (decodesAll_iff h2).1 hd
  have hd := ((dec_of h2 hp _ _).1 hd).symm
  have overrun : dec (lookupType (cstr type) a.types).2 env.leaves (3 * maxStack + 3) 0 true p bin = .error .overrun →
      DecodeSays env c k type bin (str "Stream overrun") := by
    intro ho
    have := c67_binary hc hf (type := type) (bin := bin) (w := str "Stream overrun")
      (.inl ⟨.overrun, what_messageOf .overrun (by decide) (by decide), (decodesTo_iff h2).2 ⟨p, hp, (dec_of h2 hp _ _).2 ho.symm⟩⟩)
    exact ⟨this.1, this.2.2⟩
  by_cases hx : NoExtensions D
  · rcases (online_dec (noExtFields (loaded_of (h2.lookup (cstr type))) hx) (online_leaves hF) _ _ _ _).cut hd with hd | ⟨r', -, hr⟩
    · exact .inl (overrun hd)
    · exact absurd (List.append_eq_nil_iff.1 hr.symm).2 hm
  · rcases (cut_dec (online_leaves hF) _ _ _ _).cut _ _ _ _ hd with hd | ⟨r', -, hr⟩ | ⟨t', hd⟩
    · exact .inl (overrun hd)
    · exact absurd (List.append_eq_nil_iff.1 hr.symm).2 hm
    · exact .inr ⟨hx, t', (decodesAll_iff h2).2 ⟨p, hp, (dec_of h2 hp _ _).2 hd.symm⟩⟩

/-- **C68.** Bytes after a complete value of a definition without extensions are refused with `Extra data`. -/
theorem c68_extra {env : Env} {F : Floats} (hF : env.leaves = builtins F) {h : List (Call × Ret)} {c : Ctx}
    (hc : Calls env (some Ctx.init) h (some c)) {k : Nat} {q : Call} {D : AbiDef} (hf : FirstLoad env h k q D) (hx : NoExtensions D)
    {type : Option Bytes} {bin more t : Bytes} (hd : DecodesAll env D (cstr type) bin t) (hm : more ≠ []) :
    DecodeSays env c k type (bin ++ more) (str "Extra data") := by
  obtain ⟨a, ha, h2, -⟩ := firstLoad_has hc hf
  obtain ⟨p, hp, hd⟩ := (decodesAll_iff h2).1 hd
  have hd := ((dec_of h2 hp _ _).1 hd).symm
  obtain ⟨b, hb, hd⟩ := (online_dec (noExtFields (loaded_of (h2.lookup (cstr type))) hx) (online_leaves hF) _ _ _ _).reads _ _ _ hd
  rw [List.append_nil] at hb
  subst hb
  have := c67_binary hc hf (type := type) (bin := bin ++ more) (w := str "Extra data")
    (.inr ⟨rfl, t, more, hm, (decodesTo_iff h2).2 ⟨p, hp, (dec_of h2 hp _ _).2 (hd more).symm⟩⟩)
  exact ⟨this.1, this.2.2⟩

/-- what `abieos_bin_to_json` makes of the result of the decoder -/
def decodeOut (c : Ctx) : Res (Bytes × Bytes) → Out
  | .error e => failed c e
  | .ok (t, rest) => if rest = [] then .returns { c with resultStr := t } (.str (some (cut t))) else .throws { c with resultStr := t } (str "Extra data")

theorem convertBin_iff {env : Env} {c : Ctx} {k : Nat} {a : Abi} {D : AbiDef} (ha : c.contracts.lookup k = some a) (h2 : LoadedThen D a.types) {type : Bytes} {p : Ptr}
    (hp : (lookupType type a.types).1 = .ok p) (bin : Bytes) (x : Out) : ConvertBin env k type bin c x ↔
      x = decodeOut ((c.setError (str "binary decode error")).setTypes k (lookupType type a.types).2)
        (dec (lookupType type a.types).2 env.leaves (3 * maxStack + 3) 0 true p bin) := by
  have hd := fun r => dec_of (env := env) h2 hp bin r
  unfold ConvertBin
  simp only [Ctx.lookup_setError, ha]
  generalize lookupType type a.types = g at hp hd
  obtain ⟨r, T⟩ := g
  cases hp
  simp only at hd ⊢
  constructor
  · rintro ⟨r, h1, rfl⟩
    cases (hd r).1 h1
    rfl
  · rintro rfl
    exact ⟨_, (hd _).2 rfl, rfl⟩

theorem getError_last {env : Env} {c : Ctx} {w : Bytes} (h : Step env (some c) .getError (.done (some c) (.str (some w)))) : c.lastError = w := by
  injection h with _ h
  injection h with h
  injection h with h
  exact h.symm

/-- **C68.** A definition without extensions: bytes refused with an error other than `Stream overrun` are refused with the same error
whatever bytes are put after them. -/
theorem c68_final {env : Env} {F : Floats} (hF : env.leaves = builtins F) {h : List (Call × Ret)} {c : Ctx}
    (hc : Calls env (some Ctx.init) h (some c)) {k : Nat} {q : Call} {D : AbiDef} (hf : FirstLoad env h k q D) (hx : NoExtensions D)
    {type : Option Bytes} {bin w : Bytes} (hs : Says env c (.binToJson k type (some bin)) w) (hw : w ≠ str "Stream overrun") (more : Bytes) :
    DecodeSays env c k type (bin ++ more) w := by
  obtain ⟨a, ha, h2, -⟩ := firstLoad_has hc hf
  cases hp : (lookupType (cstr type) a.types).1 with
  | error e =>
    have hub : e ≠ .ub := by rcases getType_errors (loaded_of h2).2 _ _ _ hp with rfl | rfl | rfl <;> decide
    have hw' : w = str e.what := by
      have h1 : ConvertBin env k (cstr type) bin c (failed ((c.setError (str "binary decode error")).setTypes k (lookupType (cstr type) a.types).2) e) := by
        unfold ConvertBin
        simp only [Ctx.lookup_setError, ha]
        generalize lookupType (cstr type) a.types = g at hp
        obtain ⟨r, T⟩ := g
        cases hp
        rfl
      obtain ⟨c', r, g1, -, g3⟩ := hs _ (handled_iff.2 ⟨_, h1, rfl⟩)
      rw [failed, if_neg hub] at g1
      cases g1
      exact (getError_last g3).symm
    subst hw'
    exact ⟨conversion_says ha hp hub ⟨rfl, rfl⟩, fun hex hb => conversion_says ha hp hub ⟨rfl, rfl, _, hb⟩⟩
  | ok p =>
    have ho := online_dec (noExtFields (loaded_of (h2.lookup (cstr type))) hx) (online_leaves hF) (3 * maxStack + 3) 0 true p
    have same : ∀ o, CallConvertBin env k type (some (bin ++ more)) (some c) o → CallConvertBin env k type (some bin) (some c) o := by
      intro o ho'
      obtain ⟨x, h3, rfl⟩ := handled_iff.1 ho'
      refine handled_iff.2 ⟨x, ?_, rfl⟩
      rw [Option.getD_some, convertBin_iff ha h2 hp] at h3 ⊢
      rw [h3]
      obtain ⟨c', r, g1, g2, g3⟩ := hs _ (handled_iff.2 ⟨_, (convertBin_iff ha h2 hp bin _).2 rfl, rfl⟩)
      cases hd : dec (lookupType (cstr type) a.types).2 env.leaves (3 * maxStack + 3) 0 true p bin with
      | error e =>
        rw [hd] at g1
        by_cases he : e = .overrun
        · subst he
          cases g1
          exact absurd (getError_last g3).symm hw
        · rw [ho.final _ _ hd he more]
      | ok y =>
        obtain ⟨t, rest⟩ := y
        by_cases hr : rest = []
        · rw [hd, decodeOut, if_pos hr] at g1
          cases g1
          cases g2
        · obtain ⟨b, rfl, hb⟩ := ho.reads _ _ _ hd
          rw [List.append_assoc, hb, decodeOut, decodeOut, if_neg hr, if_neg fun h => hr (List.append_eq_nil_iff.1 h).1]
    have key : ∀ o, CallConvertBin env k type (some (bin ++ more)) (some c) o → ∃ c' r, o = .done (some c') r ∧ Failure r ∧ c'.lastError = w := by
      intro o ho
      obtain ⟨c', r, g1, g2, g3⟩ := hs o (same o ho)
      exact ⟨c', r, g1, g2, getError_last g3⟩
    exact ⟨says_of key, fun hex hb => says_of (hex_says hb key)⟩

/-! ## Loading -/

theorem online_text : Online textFromBin := online_bind online_varuint32 online_readBytes

theorem online_all {α : Type} {f : Reader α} (hf : Online f) : ∀ n, Online (allFromBin f n)
  | 0 => online_ok _
  | n + 1 => online_bind (g := fun v s => allFromBin f n s >>= fun x => .ok (v :: x.1, x.2)) hf (fun v => online_map (fun l => v :: l) (online_all hf n))

theorem online_vec {α : Type} {f : Reader α} (hf : Online f) : Online (vecFromBin f) := online_bind online_varuint32 (online_all hf)

theorem online_word (n : Nat) : Online (wordFromBin n) := online_map leVal (online_readBytes n)

theorem online_two {α β γ : Type} {f : Reader α} {g : Reader β} (k : α → β → γ) (hf : Online f) (hg : Online g) :
    Online (fun s => f s >>= fun x => g x.2 >>= fun y => .ok (k x.1 y.1, y.2)) :=
  online_bind (g := fun a s => g s >>= fun y => .ok (k a y.1, y.2)) hf fun a => online_map (k a) hg

theorem online_chars : Online charsFromBin := by
  refine online_bind (g := fun k s => check (decide (k ≤ s.length)) .overrun >>= fun _ =>
    check (decide (k ≤ vectorMax 1)) .alloc >>= fun _ => readBytes k s) online_varuint64
    (fun k => online_room (online_check _ _ (online_readBytes _)) ?_)
  intro s v r h
  obtain ⟨_, -, h⟩ := bind_eq_ok.1 h
  obtain ⟨rfl, hl⟩ := readBytes_ok h
  rw [List.length_append, hl]

theorem online_typeDef : Online typeDefFromBin :=
  (online_bind (β := TypeDef) (g := fun x0 s => (textFromBin s >>= fun y => (fun x1 s => (Except.ok (ε := Err) ((⟨x0, x1⟩ : TypeDef), (s : Bytes)))) y.1 y.2)) online_text fun x0 => (online_bind (β := TypeDef) (g := fun x1 s => (Except.ok (ε := Err) ((⟨x0, x1⟩ : TypeDef), (s : Bytes)))) online_text fun _ => online_ok _))

theorem online_fieldDef : Online fieldDefFromBin :=
  (online_bind (β := FieldDef) (g := fun x0 s => (textFromBin s >>= fun y => (fun x1 s => (Except.ok (ε := Err) ((⟨x0, x1⟩ : FieldDef), (s : Bytes)))) y.1 y.2)) online_text fun x0 => (online_bind (β := FieldDef) (g := fun x1 s => (Except.ok (ε := Err) ((⟨x0, x1⟩ : FieldDef), (s : Bytes)))) online_text fun _ => online_ok _))

theorem online_structDef : Online structDefFromBin :=
  (online_bind (β := StructDef) (g := fun x0 s => (textFromBin s >>= fun y => (fun x1 s => (vecFromBin fieldDefFromBin s >>= fun y => (fun x2 s => (Except.ok (ε := Err) ((⟨x0, x1, x2⟩ : StructDef), (s : Bytes)))) y.1 y.2)) y.1 y.2)) online_text fun x0 => (online_bind (β := StructDef) (g := fun x1 s => (vecFromBin fieldDefFromBin s >>= fun y => (fun x2 s => (Except.ok (ε := Err) ((⟨x0, x1, x2⟩ : StructDef), (s : Bytes)))) y.1 y.2)) online_text fun x1 => (online_bind (β := StructDef) (g := fun x2 s => (Except.ok (ε := Err) ((⟨x0, x1, x2⟩ : StructDef), (s : Bytes)))) (online_vec online_fieldDef) fun _ => online_ok _)))

theorem online_actionDef : Online actionDefFromBin :=
  (online_bind (β := ActionDef) (g := fun x0 s => (textFromBin s >>= fun y => (fun x1 s => (textFromBin s >>= fun y => (fun x2 s => (Except.ok (ε := Err) ((⟨x0, x1, x2⟩ : ActionDef), (s : Bytes)))) y.1 y.2)) y.1 y.2)) (online_word 8) fun x0 => (online_bind (β := ActionDef) (g := fun x1 s => (textFromBin s >>= fun y => (fun x2 s => (Except.ok (ε := Err) ((⟨x0, x1, x2⟩ : ActionDef), (s : Bytes)))) y.1 y.2)) online_text fun x1 => (online_bind (β := ActionDef) (g := fun x2 s => (Except.ok (ε := Err) ((⟨x0, x1, x2⟩ : ActionDef), (s : Bytes)))) online_text fun _ => online_ok _)))

theorem online_tableDef : Online tableDefFromBin :=
  (online_bind (β := TableDef) (g := fun x0 s => (textFromBin s >>= fun y => (fun x1 s => (vecFromBin textFromBin s >>= fun y => (fun x2 s => (vecFromBin textFromBin s >>= fun y => (fun x3 s => (textFromBin s >>= fun y => (fun x4 s => (Except.ok (ε := Err) ((⟨x0, x1, x2, x3, x4⟩ : TableDef), (s : Bytes)))) y.1 y.2)) y.1 y.2)) y.1 y.2)) y.1 y.2)) (online_word 8) fun x0 => (online_bind (β := TableDef) (g := fun x1 s => (vecFromBin textFromBin s >>= fun y => (fun x2 s => (vecFromBin textFromBin s >>= fun y => (fun x3 s => (textFromBin s >>= fun y => (fun x4 s => (Except.ok (ε := Err) ((⟨x0, x1, x2, x3, x4⟩ : TableDef), (s : Bytes)))) y.1 y.2)) y.1 y.2)) y.1 y.2)) online_text fun x1 => (online_bind (β := TableDef) (g := fun x2 s => (vecFromBin textFromBin s >>= fun y => (fun x3 s => (textFromBin s >>= fun y => (fun x4 s => (Except.ok (ε := Err) ((⟨x0, x1, x2, x3, x4⟩ : TableDef), (s : Bytes)))) y.1 y.2)) y.1 y.2)) (online_vec online_text) fun x2 => (online_bind (β := TableDef) (g := fun x3 s => (textFromBin s >>= fun y => (fun x4 s => (Except.ok (ε := Err) ((⟨x0, x1, x2, x3, x4⟩ : TableDef), (s : Bytes)))) y.1 y.2)) (online_vec online_text) fun x3 => (online_bind (β := TableDef) (g := fun x4 s => (Except.ok (ε := Err) ((⟨x0, x1, x2, x3, x4⟩ : TableDef), (s : Bytes)))) online_text fun _ => online_ok _)))))

theorem online_clause : Online clauseFromBin :=
  (online_bind (β := ClausePair) (g := fun x0 s => (textFromBin s >>= fun y => (fun x1 s => (Except.ok (ε := Err) ((⟨x0, x1⟩ : ClausePair), (s : Bytes)))) y.1 y.2)) online_text fun x0 => (online_bind (β := ClausePair) (g := fun x1 s => (Except.ok (ε := Err) ((⟨x0, x1⟩ : ClausePair), (s : Bytes)))) online_text fun _ => online_ok _))

theorem online_errorMessage : Online errorFromBin :=
  (online_bind (β := ErrorMessage) (g := fun x0 s => (textFromBin s >>= fun y => (fun x1 s => (Except.ok (ε := Err) ((⟨x0, x1⟩ : ErrorMessage), (s : Bytes)))) y.1 y.2)) (online_word 8) fun x0 => (online_bind (β := ErrorMessage) (g := fun x1 s => (Except.ok (ε := Err) ((⟨x0, x1⟩ : ErrorMessage), (s : Bytes)))) online_text fun _ => online_ok _))

theorem online_ext : Online extFromBin :=
  (online_bind (β := Nat × Bytes) (g := fun x0 s => (charsFromBin s >>= fun y => (fun x1 s => (Except.ok (ε := Err) ((⟨x0, x1⟩ : Nat × Bytes), (s : Bytes)))) y.1 y.2)) (online_word 2) fun x0 => (online_bind (β := Nat × Bytes) (g := fun x1 s => (Except.ok (ε := Err) ((⟨x0, x1⟩ : Nat × Bytes), (s : Bytes)))) online_chars fun _ => online_ok _))

theorem online_variantDef : Online variantDefFromBin :=
  (online_bind (β := VariantDef) (g := fun x0 s => (vecFromBin textFromBin s >>= fun y => (fun x1 s => (Except.ok (ε := Err) ((⟨x0, x1⟩ : VariantDef), (s : Bytes)))) y.1 y.2)) online_text fun x0 => (online_bind (β := VariantDef) (g := fun x1 s => (Except.ok (ε := Err) ((⟨x0, x1⟩ : VariantDef), (s : Bytes)))) (online_vec online_text) fun _ => online_ok _))

/-- all but the variants -/
def headFromBin : Reader AbiDef := fun s => textFromBin s >>= fun a => vecFromBin typeDefFromBin a.2 >>= fun b => vecFromBin structDefFromBin b.2 >>= fun c => vecFromBin actionDefFromBin c.2 >>= fun e =>
  vecFromBin tableDefFromBin e.2 >>= fun f => vecFromBin clauseFromBin f.2 >>= fun g => vecFromBin errorFromBin g.2 >>= fun h => vecFromBin extFromBin h.2 >>= fun i =>
  .ok ((⟨a.1, b.1, c.1, e.1, f.1, g.1, h.1, i.1, []⟩ : AbiDef), i.2)

theorem online_head : Online headFromBin :=
  (online_bind (β := AbiDef) (g := fun x0 s => (vecFromBin typeDefFromBin s >>= fun y => (fun x1 s => (vecFromBin structDefFromBin s >>= fun y => (fun x2 s => (vecFromBin actionDefFromBin s >>= fun y => (fun x3 s => (vecFromBin tableDefFromBin s >>= fun y => (fun x4 s => (vecFromBin clauseFromBin s >>= fun y => (fun x5 s => (vecFromBin errorFromBin s >>= fun y => (fun x6 s => (vecFromBin extFromBin s >>= fun y => (fun x7 s => (Except.ok (ε := Err) ((⟨x0, x1, x2, x3, x4, x5, x6, x7, []⟩ : AbiDef), (s : Bytes)))) y.1 y.2)) y.1 y.2)) y.1 y.2)) y.1 y.2)) y.1 y.2)) y.1 y.2)) y.1 y.2)) online_text fun x0 => (online_bind (β := AbiDef) (g := fun x1 s => (vecFromBin structDefFromBin s >>= fun y => (fun x2 s => (vecFromBin actionDefFromBin s >>= fun y => (fun x3 s => (vecFromBin tableDefFromBin s >>= fun y => (fun x4 s => (vecFromBin clauseFromBin s >>= fun y => (fun x5 s => (vecFromBin errorFromBin s >>= fun y => (fun x6 s => (vecFromBin extFromBin s >>= fun y => (fun x7 s => (Except.ok (ε := Err) ((⟨x0, x1, x2, x3, x4, x5, x6, x7, []⟩ : AbiDef), (s : Bytes)))) y.1 y.2)) y.1 y.2)) y.1 y.2)) y.1 y.2)) y.1 y.2)) y.1 y.2)) (online_vec online_typeDef) fun x1 => (online_bind (β := AbiDef) (g := fun x2 s => (vecFromBin actionDefFromBin s >>= fun y => (fun x3 s => (vecFromBin tableDefFromBin s >>= fun y => (fun x4 s => (vecFromBin clauseFromBin s >>= fun y => (fun x5 s => (vecFromBin errorFromBin s >>= fun y => (fun x6 s => (vecFromBin extFromBin s >>= fun y => (fun x7 s => (Except.ok (ε := Err) ((⟨x0, x1, x2, x3, x4, x5, x6, x7, []⟩ : AbiDef), (s : Bytes)))) y.1 y.2)) y.1 y.2)) y.1 y.2)) y.1 y.2)) y.1 y.2)) (online_vec online_structDef) fun x2 => (online_bind (β := AbiDef) (g := fun x3 s => (vecFromBin tableDefFromBin s >>= fun y => (fun x4 s => (vecFromBin clauseFromBin s >>= fun y => (fun x5 s => (vecFromBin errorFromBin s >>= fun y => (fun x6 s => (vecFromBin extFromBin s >>= fun y => (fun x7 s => (Except.ok (ε := Err) ((⟨x0, x1, x2, x3, x4, x5, x6, x7, []⟩ : AbiDef), (s : Bytes)))) y.1 y.2)) y.1 y.2)) y.1 y.2)) y.1 y.2)) (online_vec online_actionDef) fun x3 => (online_bind (β := AbiDef) (g := fun x4 s => (vecFromBin clauseFromBin s >>= fun y => (fun x5 s => (vecFromBin errorFromBin s >>= fun y => (fun x6 s => (vecFromBin extFromBin s >>= fun y => (fun x7 s => (Except.ok (ε := Err) ((⟨x0, x1, x2, x3, x4, x5, x6, x7, []⟩ : AbiDef), (s : Bytes)))) y.1 y.2)) y.1 y.2)) y.1 y.2)) (online_vec online_tableDef) fun x4 => (online_bind (β := AbiDef) (g := fun x5 s => (vecFromBin errorFromBin s >>= fun y => (fun x6 s => (vecFromBin extFromBin s >>= fun y => (fun x7 s => (Except.ok (ε := Err) ((⟨x0, x1, x2, x3, x4, x5, x6, x7, []⟩ : AbiDef), (s : Bytes)))) y.1 y.2)) y.1 y.2)) (online_vec online_clause) fun x5 => (online_bind (β := AbiDef) (g := fun x6 s => (vecFromBin extFromBin s >>= fun y => (fun x7 s => (Except.ok (ε := Err) ((⟨x0, x1, x2, x3, x4, x5, x6, x7, []⟩ : AbiDef), (s : Bytes)))) y.1 y.2)) (online_vec online_errorMessage) fun x6 => (online_bind (β := AbiDef) (g := fun x7 s => (Except.ok (ε := Err) ((⟨x0, x1, x2, x3, x4, x5, x6, x7, []⟩ : AbiDef), (s : Bytes)))) (online_vec online_ext) fun _ => online_ok _))))))))

theorem abiDefFromBin_eq (s : Bytes) : abiDefFromBin s = headFromBin s >>= fun x => maybeFromBin [] (vecFromBin variantDefFromBin) x.2 >>= fun y =>
    .ok ({ x.1 with variants := y.1 }, y.2) := by
  simp only [abiDefFromBin, headFromBin, bind_assoc, bind_ok]

theorem abiDefBin_cut {pre suf : Bytes} {D : AbiDef} {r : Bytes} (h : abiDefFromBin (pre ++ suf) = .ok (D, r)) :
    abiDefFromBin pre = .error .overrun ∨ (∃ r', abiDefFromBin pre = .ok (D, r') ∧ r = r' ++ suf) ∨ abiDefFromBin pre = .ok ({ D with variants := [] }, []) := by
  rw [abiDefFromBin_eq] at h ⊢
  obtain ⟨⟨d, s1⟩, h1, h⟩ := bind_eq_ok.1 h
  obtain ⟨⟨l, s2⟩, h2, h3⟩ := bind_eq_ok.1 h
  cases h3
  rcases online_head.cut h1 with h1 | ⟨r', g1, rfl⟩
  · rw [h1]; exact .inl rfl
  · rw [g1, bind_ok]
    simp only [maybeFromBin] at h2 ⊢
    by_cases hr : r' = []
    · rw [if_pos hr, hr]
      exact .inr (.inr rfl)
    · rw [if_neg hr]
      rw [if_neg fun h => hr (List.append_eq_nil_iff.1 h).1] at h2
      rcases (online_vec online_variantDef).cut h2 with h2 | ⟨r'', g2, rfl⟩
      · rw [h2]; exact .inl rfl
      · rw [g2]; exact .inr (.inl ⟨_, rfl, rfl⟩)

theorem abiDef_version' {s r : Bytes} {D : AbiDef} (h : abiDefFromBin s = .ok (D, r)) : ∃ r', textFromBin s = .ok (D.version, r') := by
  obtain ⟨⟨x1, s1⟩, h1, h⟩ := bind_eq_ok.1 h
  obtain ⟨⟨x2, s2⟩, h2, h⟩ := bind_eq_ok.1 h
  obtain ⟨⟨x3, s3⟩, h3, h⟩ := bind_eq_ok.1 h
  obtain ⟨⟨x4, s4⟩, h4, h⟩ := bind_eq_ok.1 h
  obtain ⟨⟨x5, s5⟩, h5, h⟩ := bind_eq_ok.1 h
  obtain ⟨⟨x6, s6⟩, h6, h⟩ := bind_eq_ok.1 h
  obtain ⟨⟨x7, s7⟩, h7, h⟩ := bind_eq_ok.1 h
  obtain ⟨⟨x8, s8⟩, h8, h⟩ := bind_eq_ok.1 h
  obtain ⟨⟨x9, s9⟩, h9, h⟩ := bind_eq_ok.1 h
  cases h
  exact ⟨_, h1⟩

/-- **C68.** If the data holds a definition of a supported version, then loading a beginning of it that is not empty fails with
`Stream overrun`, unless that beginning holds the same definition, or the definition without its variants and nothing more. -/
theorem c68_definition {env : Env} {c : Ctx} {k : Nat} {data more : Bytes} {D : AbiDef} (hd : HoldsDef (data ++ more) D)
    (hv : ∃ minor, D.version = str "eosio::abi/1." ++ minor) (hn : data ≠ []) :
    LoadSays env c k data (str "Stream overrun") ∨ HoldsDef data D ∨ abiDefFromBin data = .ok ({ D with variants := [] }, []) := by
  obtain ⟨r, hd⟩ := hd
  rcases abiDefBin_cut hd with ho | ⟨r', ho, -⟩ | ho
  · left
    have key : ∀ o, CallSetAbiBin k (some data) (some c) o → ∃ c' r, o = .done (some c') r ∧ Failure r ∧ c'.lastError = str "Stream overrun" := by
      refine handled_says failure_false fun x hx => ?_
      unfold SetAbiBin at hx
      simp only [Option.getD_some] at hx
      rw [if_neg hn] at hx
      obtain ⟨r1, h1⟩ := abiDef_version' hd
      rcases online_text.cut h1 with h1 | ⟨r', h1, -⟩
      · rw [h1] at hx
        simp only at hx
        subst hx
        exact .inl ⟨_, rfl⟩
      · rw [h1] at hx
        simp only at hx
        rw [if_pos ((versionOk_iff _).2 hv), ho] at hx
        simp only at hx
        subst hx
        exact .inl ⟨_, rfl⟩
    exact ⟨says_of key, fun hex hb => says_of (hexLoad_says hb key)⟩
  · exact .inr (.inl ⟨_, ho⟩)
  · exact .inr (.inr ho)

/-! ## C++ types -/

/-- **C68.** A C++ type without `might_not_exist`: of the bytes of a value, no proper beginning is read, and the error is `Stream overrun`. -/
theorem c68_native {t : BTy} (ht : NoMaybe t) {bin more : Bytes} {v : BVal} (h : fromBin t (bin ++ more) = .ok (v, [])) (hm : more ≠ []) :
    fromBin t bin = .error .overrun := by
  rcases (online_fromBin t ht).cut h with h | ⟨r', -, hr⟩
  · exact h
  · exact absurd (List.append_eq_nil_iff.1 hr.symm).2 hm

/-- **C68.** With `might_not_exist`, the beginning may be the bytes of another value; nothing of it is left over then. -/
theorem c68_native_maybe (t : BTy) {bin more : Bytes} {v : BVal} (h : fromBin t (bin ++ more) = .ok (v, [])) (hm : more ≠ []) :
    fromBin t bin = .error .overrun ∨ ∃ v', fromBin t bin = .ok (v', []) := by
  rcases (cut_fromBin t).cut _ _ _ _ h with h | ⟨r', -, hr⟩ | h
  · exact .inl h
  · exact absurd (List.append_eq_nil_iff.1 hr.symm).2 hm
  · exact .inr h

/-- **C68.** Any other error is the same whatever bytes follow. -/
theorem c68_native_final {t : BTy} (ht : NoMaybe t) {bin : Bytes} {e : Err} (h : fromBin t bin = .error e) (he : e ≠ .overrun) (more : Bytes) :
    fromBin t (bin ++ more) = .error e := (online_fromBin t ht).final _ _ h he more

/-! ## Examples -/

namespace CApiExample
open Abieos.Example Abieos.LoaderExample

theorem decodes_of {bin : Bytes} {r : Res (Bytes × Bytes)} (h : decide (dec T1 env.leaves 387 0 true (str "s") bin = r) = true) : DecodesTo env abiDef (str "s") bin r := by
  have hp : (lookupType (str "s") T1).1 = .ok (str "s") := by decide +kernel
  have h0 : LoadedThen abiDef T1 := ⟨T1, [], abi_loads, rfl⟩
  have hT : (lookupType (str "s") T1).2 = T1 := by decide +kernel
  refine ⟨T1, str "s", abi_loads, hp, (dec_of h0 hp _ _).2 ?_⟩
  rw [hT]
  exact (of_decide_eq_true h).symm

theorem noExtensions : NoExtensions abiDef := by
  intro s hs f hf
  rw [List.mem_singleton.1 hs] at hf
  rintro ⟨b, hb⟩
  have : endsWith f.type (str "$") = true := by rw [hb]; exact endsWith_append b _
  revert this
  rcases List.mem_cons.1 hf with rfl | hf
  · decide
  · rw [List.mem_singleton.1 hf]; decide

/-- Three elements and a text of one character; without the text; with a byte more; with a size that is not valid, whatever follows. -/
example (more : Bytes) : ∃ c, Calls env (some Ctx.init) loads (some c) ∧
    DecodeSays env c 5 (some (str "s")) [3, 1, 2, 3] (str "Stream overrun") ∧
    DecodeSays env c 5 (some (str "s")) [3, 1, 2, 3, 1, 120, 0] (str "Extra data") ∧
    DecodeSays env c 5 (some (str "s")) ([255, 255, 255, 255, 255, 255] ++ more) (str "Invalid varuint encoding") := by
  obtain ⟨c, hc⟩ := loads_calls
  have hd : DecodesAll env abiDef (str "s") [3, 1, 2, 3, 1, 120] (str "{\"a\":[1,2,3],\"b\":\"x\"}") := decodes_of (by decide +kernel)
  have h5 : cstr (some (str "s")) = str "s" := by decide
  refine ⟨c, hc, ?_, ?_, ?_⟩
  · rcases c68_truncated (env := env) (F := noFloats) rfl hc first5 (type := some (str "s")) (bin := [3, 1, 2, 3]) (more := [1, 120]) (by rw [h5]; exact hd) (by simp) with h | h
    · exact h
    · exact absurd noExtensions h.1
  · exact c68_extra (env := env) (F := noFloats) rfl hc first5 noExtensions (type := some (str "s")) (bin := [3, 1, 2, 3, 1, 120]) (by rw [h5]; exact hd) (by simp)
  · refine c68_final (env := env) (F := noFloats) rfl hc first5 noExtensions (c67_binary hc first5 (type := some (str "s")) (.inl ⟨.invalid_varuint_encoding, ?_, ?_⟩)).1 (by decide) more
    · exact what_messageOf .invalid_varuint_encoding (by decide) (by decide)
    · rw [h5]; exact decodes_of (by decide +kernel)

/-- The definition in binary form, without its last section, and without its last two sections. -/
example : ∃ b, abiDefToBin abiDef = .ok (b ++ [0, 0]) ∧ (∀ env c k, LoadSays env c k b (str "Stream overrun")) ∧
    abiDefFromBin (b ++ [0]) = .ok (abiDef, []) := by
  have h : ∃ b, abiDefToBin abiDef = .ok (b ++ [0, 0]) ∧ b ≠ [] ∧ abiDefFromBin b = .error .overrun ∧ abiDefFromBin (b ++ [0, 0]) = .ok (abiDef, []) ∧
      abiDefFromBin (b ++ [0]) = .ok (abiDef, []) := by
    refine ⟨(match abiDefToBin abiDef with | .ok b => b.take (b.length - 2) | .error _ => []), ?_⟩
    decide +kernel
  obtain ⟨b, h1, h2, h3, h4, h5⟩ := h
  refine ⟨b, h1, fun env c k => ?_, h5⟩
  rcases c68_definition (env := env) (c := c) (k := k) ⟨[], h4⟩ ⟨str "1", by decide⟩ h2 with h | ⟨r, h⟩ | h
  · exact h
  · rw [h3] at h; cases h
  · rw [h3] at h; cases h

/-- A definition with an extension: both `[1]` and `[1, 2]` are values. -/
def extDef : AbiDef := { abiDef with structs := [⟨str "s", [], [⟨str "a", str "uint8"⟩, ⟨str "b", str "uint8$"⟩]⟩] }
def T3 : Table := tableOf (load extDef)
theorem ext_loads : LoadTypes extDef (.ok T3) := load_ok (by decide +kernel)

theorem ext_decodes_of {bin : Bytes} {r : Res (Bytes × Bytes)} (h : decide (dec T3 env.leaves 387 0 true (str "s") bin = r) = true) : DecodesTo env extDef (str "s") bin r := by
  have hp : (lookupType (str "s") T3).1 = .ok (str "s") := by decide +kernel
  have h0 : LoadedThen extDef T3 := ⟨T3, [], ext_loads, rfl⟩
  have hT : (lookupType (str "s") T3).2 = T3 := by decide +kernel
  refine ⟨T3, str "s", ext_loads, hp, (dec_of h0 hp _ _).2 ?_⟩
  rw [hT]
  exact (of_decide_eq_true h).symm

example : ¬ NoExtensions extDef ∧ DecodesAll env extDef (str "s") ([1] ++ [2]) (str "{\"a\":1,\"b\":2}") ∧ DecodesAll env extDef (str "s") [1] (str "{\"a\":1}") := by
  refine ⟨fun h => h _ (List.mem_singleton.2 rfl) _ (List.mem_cons_of_mem _ (List.mem_singleton.2 rfl)) ⟨str "uint8", by decide⟩, ?_, ?_⟩
  · exact ext_decodes_of (by decide +kernel)
  · exact ext_decodes_of (by decide +kernel)

end CApiExample

/-- A vector of two-byte words, and a size that does not fit. -/
example : NoMaybe (.vec (.raw 2)) ∧ fromBin (.vec (.raw 2)) ([2, 1, 0] ++ [2, 0]) = .ok (.list [.raw [1, 0], .raw [2, 0]], []) ∧
    fromBin (.vec (.raw 2)) [255, 255, 255, 255, 255, 0] = .error .invalid_varuint_encoding := by
  refine ⟨by simp [NoMaybe], by with_unfolding_all rfl, by with_unfolding_all rfl⟩

end Abieos
