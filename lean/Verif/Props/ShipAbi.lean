import Verif.Proofs.ShipAbi
import Verif.Props.StaticAgree
import Verif.Props.Shown
/-!
**C79.** With the ABI of the state-history protocol in a context, the calls convert messages, traces and rows as the C++ types do.
-/
namespace Abieos
open Spec
namespace Ship

/-! ## the checks, one by one -/

theorem check_all : LoaderExample.isOk (LoaderExample.load Spec.Ship.abi) = true ∧ (types.all fun t => table.get (typeText t) == some (shape prog t)) = true ∧
    table.wfB = true ∧ (pairs.all fun x => sameBuildB pairs (loaded.get x.1) (table.get x.2)) = true ∧
    (types.all fun t => foundB (abiName t) (lookupType (abiName t) loaded).1) = true ∧ (table.all fun e => entryB e.2) = true ∧ (types.all fun t => !numbersB t) = true := by
  exact ⟨check_loads, check_described, check_wf, check_same, check_found, check_entries, check_numbers⟩

/-- **C79.** The definition loads. -/
theorem c79_loads : Usable Spec.Ship.abi := by
  have h := check_all.1
  have hv : Spec.Ship.abi.version = str "eosio::abi/1." ++ [49] := by decide +kernel
  revert h hv
  generalize Spec.Ship.abi = D
  intro h hv
  exact ⟨⟨_, hv⟩, _, LoaderExample.load_ok h⟩

theorem loadedThen_of {D : AbiDef} (h : LoaderExample.isOk (LoaderExample.load D) = true) (names : List Bytes) :
    LoadedThen D (lookups names (LoaderExample.tableOf (LoaderExample.load D))) := ⟨_, names, LoaderExample.load_ok h, rfl⟩

theorem loaded_loads : LoadedThen Spec.Ship.abi loaded := by
  unfold loaded
  exact loadedThen_of check_all.1 _

theorem table_described {t : CTy} (ht : t ∈ tops) : Described prog table t := fun u hu => by
  have := List.all_eq_true.1 check_all.2.1 u (uses_types ht hu)
  exact eq_of_beq this

theorem table_wf : table.WF := Table.wf_of_wfB check_all.2.2.1

theorem table_entry {k : Bytes} {d : TData} (h : table.get k = some d) : entryB d = true :=
  List.all_eq_true.1 check_all.2.2.2.2.2.1 (k, d) (Table.get_mem h)

theorem table_small : Small table := fun _ fs h => by
  have := table_entry h
  simp only [entryB, Bool.and_eq_true, decide_eq_true_eq] at this
  exact this.1

theorem table_distinct : DistinctFields table := fun _ fs h => by
  have := table_entry h
  simp only [entryB, Bool.and_eq_true, decide_eq_true_eq] at this
  exact this.2

theorem table_extTail : ExtTail table := by
  intro k fs h pre f post e hx
  obtain ⟨q, hq⟩ := hx
  exact absurd (table_entry hq) (by simp [entryB])

theorem noNumbers {t : CTy} (ht : t ∈ tops) : NoNumberVectors prog t := fun k hk => by
  have := List.all_eq_true.1 check_all.2.2.2.2.2.2 _ (uses_types ht hk)
  simp only [numbersB, Bool.not_eq_true'] at this
  rw [← fixedB_iff, this]
  simp

theorem namesUtf8 {t : CTy} (ht : t ∈ tops) : NamesUtf8 prog t := by
  have h := ascii_checks
  rw [Bool.and_eq_true] at h
  refine ⟨fun n _ f hf => ?_, fun ts hu u hm => ?_⟩
  · unfold Prog.fields at hf
    cases hl : prog.lookup n with
    | none => rw [hl] at hf; simp at hf
    | some fs =>
      rw [hl] at hf
      exact utf8_of_asciiB (List.all_eq_true.1 (List.all_eq_true.1 h.1 _ (mem_of_lookup hl)) f hf)
  · have := List.all_eq_true.1 h.2 _ (uses_types ht hu)
    exact utf8_of_asciiB (List.all_eq_true.1 this u hm)

theorem membersDiffer (t : CTy) : MembersDiffer prog t := fun n _ => by
  unfold Prog.fields
  cases hl : prog.lookup n with
  | none => exact List.nodup_nil
  | some fs => exact c65_names.2 _ (mem_of_lookup hl)

/-! ## the names -/

theorem name_all : (Spec.Ship.named.all fun x => x.1 == abiName x.2 && tops.any x.2.same) = true ∧ (Spec.Ship.structs.all fun r => (prog.map (·.1)).contains r.name) = true ∧
    (prog.all fun s => (Spec.Ship.structs.map (·.name)).contains s.1) = true ∧ (variants.all fun t => Spec.Ship.named.any fun x => t.same x.2) = true := by
  have h := name_checks
  simp only [Bool.and_eq_true] at h
  obtain ⟨⟨⟨h1, h2⟩, h3⟩, h4⟩ := h
  exact ⟨h1, h2, h3, h4⟩

theorem kind_tops {n : Bytes} {t : CTy} (h : Spec.Ship.Kind n t) : t ∈ tops ∧ n = abiName t := by
  rcases h with ⟨r, hr, rfl, rfl⟩ | h
  · refine ⟨?_, rfl⟩
    have := List.contains_iff_mem.1 (List.all_eq_true.1 name_all.2.1 r hr)
    obtain ⟨s, hs, e⟩ := List.mem_map.1 this
    unfold tops
    refine List.mem_append_left _ (List.mem_append_left _ (List.mem_append_right _ (List.mem_map.2 ⟨s, hs, ?_⟩)))
    rw [e]
  · have := List.all_eq_true.1 name_all.1 _ h
    rw [Bool.and_eq_true] at this
    obtain ⟨h1, h2⟩ := this
    obtain ⟨u, hu, e⟩ := List.any_eq_true.1 h2
    have e : t = u := (same_iff _ _).1 e
    exact ⟨by rw [e]; exact hu, eq_of_beq h1⟩

/-- **C79.** Every C++ struct of the protocol has its name in the ABI, and every variant; the ABI has no other structs. -/
theorem c79_complete : (∀ s ∈ prog, Spec.Ship.Kind s.1 (.struct s.1)) ∧ (∀ t ∈ variants, ∃ n, Spec.Ship.Kind n t) ∧
    ∀ r ∈ Spec.Ship.structs, ∃ s ∈ prog, s.1 = r.name := by
  refine ⟨fun s hs => ?_, fun t ht => ?_, fun r hr => ?_⟩
  · have := List.contains_iff_mem.1 (List.all_eq_true.1 name_all.2.2.1 s hs)
    obtain ⟨r, hr, e⟩ := List.mem_map.1 this
    exact .inl ⟨r, hr, e.symm, by rw [e]⟩
  · obtain ⟨x, hx, e⟩ := List.any_eq_true.1 (List.all_eq_true.1 name_all.2.2.2 t ht)
    exact ⟨x.1, .inr (by rw [(same_iff _ _).1 e]; exact hx)⟩
  · have := List.contains_iff_mem.1 (List.all_eq_true.1 name_all.2.1 r hr)
    obtain ⟨s, hs, e⟩ := List.mem_map.1 this
    exact ⟨s, hs, e⟩

theorem tops_noExt {t : CTy} (ht : t ∈ tops) : NoExt prog t := by
  refine noExt ?_
  unfold tops at ht
  rw [List.mem_append, List.mem_append, List.mem_append] at ht
  rcases ht with ((h | h) | h) | h
  · exact variants_plain t h
  · obtain ⟨s, -, rfl⟩ := List.mem_map.1 h; rfl
  · simp only [List.mem_cons, List.not_mem_nil, or_false] at h
    rcases h with rfl | rfl <;> rfl
  · obtain ⟨s, hs, h⟩ := List.mem_flatMap.1 h
    obtain ⟨f, hf, rfl⟩ := List.mem_map.1 h
    exact prog_plain s hs f hf

/-! ## the ABI's types and the C++ types -/

theorem sameFields_and {R : Bytes → Bytes → Prop} {Q : Bytes → Prop} {fs gs : List Field} (h : SameFields R fs gs) (h1 : ∀ f ∈ fs, Q f.type) :
    SameFields (fun p q => R p q ∧ Q p) fs gs := by
  induction h with
  | nil => exact .nil
  | cons e1 e2 _ ih => exact .cons e1 ⟨e2, h1 _ (by simp)⟩ (ih fun f hf => h1 f (by simp [hf]))

/-- what is known of a table `U` in which the ABI's types are found, and a table of C++ types -/
theorem matches_of_loaded {D : AbiDef} {U V T : Table} (hU : LoadedThen D U) (hT : LoadedThen D T) {l : List (Bytes × Bytes)}
    (hl : (l.all fun x => sameBuildB l (U.get x.1) (V.get x.2)) = true) : Matches T V fun p q => (p, q) ∈ l ∧ T.Valid p := by
  rintro p q ⟨h1, h2⟩
  obtain ⟨d, e, e1, e2, e3⟩ := matches_of_check hl p q h1
  have g1 := get_of_meaning hT h2 ((c26_resolved hU).2 _ _ e1)
  have w := (c26_resolved hT).1
  refine ⟨d, e, g1, e2, ?_⟩
  cases e3 with
  | builtin => exact .builtin
  | optional hr => exact .optional ⟨hr, (w.optional g1).1⟩
  | extension hr => exact .extension ⟨hr, (w.extension g1).1⟩
  | array hr => exact .array ⟨hr, (w.array g1).1⟩
  | struct hf => exact .struct (sameFields_and hf (w.struct g1))
  | variant hf => exact .variant (sameFields_and hf (w.variant g1))

theorem matches_flip {T V : Table} {R : Ptr → Ptr → Prop} (h : Matches T V R) : Matches V T fun q p => R p q := by
  intro q p hr
  obtain ⟨d, e, e1, e2, e3⟩ := h p q hr
  refine ⟨e, d, e2, e1, ?_⟩
  cases e3 with
  | builtin => exact .builtin
  | optional h => exact .optional h
  | extension h => exact .extension h
  | array h => exact .array h
  | struct h => exact .struct (sameFields_symm h)
  | variant h => exact .variant (sameFields_symm h)

/-- the type is found, whatever was looked up before, and corresponds to the C++ type -/
theorem kind_found {T : Table} (hT : LoadedThen Spec.Ship.abi T) {n : Bytes} {t : CTy} (hk : Spec.Ship.Kind n t) :
    (lookupType n T).1 = .ok n ∧ (lookupType n T).2.WF ∧ (lookupType n T).2.Valid n ∧ (n, typeText t) ∈ pairs ∧
      Matches (lookupType n T).2 table fun p q => (p, q) ∈ pairs ∧ (lookupType n T).2.Valid p := by
  obtain ⟨ht, rfl⟩ := kind_tops hk
  have hm := uses_types ht .self
  have h1 := foundB_iff.1 (List.all_eq_true.1 check_all.2.2.2.2.1 t hm)
  have h2 := (c26_lookup hT _ _).2 ((c26_lookup loaded_loads _ _).1 h1)
  exact ⟨h2, (c26_resolved (hT.lookup _)).1, c26_found hT h2, List.mem_map.2 ⟨t, hm, rfl⟩, matches_of_loaded loaded_loads (hT.lookup _) check_all.2.2.2.1⟩

section
variable {L : Leaves} {T : Table} (hT : LoadedThen Spec.Ship.abi T) {n : Bytes} {t : CTy} (hk : Spec.Ship.Kind n t)
include hT hk

theorem ship_binToJson (bin : Bytes) (r : Res (Bytes × Bytes)) : BinToJson (lookupType n T).2 L n bin r ↔ BinToJson table L (typeText t) bin r := by
  obtain ⟨-, w, v, hp, hm⟩ := kind_found hT hk
  have v' := described_valid (table_described (kind_tops hk).1)
  exact ⟨same_binToJson hm w table_wf ⟨hp, v⟩ v v', same_binToJson (matches_flip hm) table_wf w ⟨hp, v⟩ v' v⟩

theorem ship_reorderable (x : JVal) (r : Res Bytes) : JsonToBinReorderable (lookupType n T).2 L n x r ↔ JsonToBinReorderable table L (typeText t) x r := by
  obtain ⟨-, w, v, hp, hm⟩ := kind_found hT hk
  have v' := described_valid (table_described (kind_tops hk).1)
  exact ⟨same_reorderable hm w table_wf ⟨hp, v⟩ v v', same_reorderable (matches_flip hm) table_wf w ⟨hp, v⟩ v' v⟩

theorem ship_jsonToBin (x : JVal) (r : Res Bytes) : JsonToBin (lookupType n T).2 L n x r ↔ JsonToBin table L (typeText t) x r := by
  obtain ⟨-, w, v, hp, hm⟩ := kind_found hT hk
  exact ⟨same_tokensToBin hm ⟨hp, v⟩, same_tokensToBin (matches_flip hm) ⟨hp, v⟩⟩

end

/-! ## calls -/

variable {F : Floats}

theorem decodes_of {D : AbiDef} {V : Table} {n m : Bytes} (hD : ∃ T, LoadTypes D (.ok T)) (hn : ∀ {T : Table}, LoadedThen D T → (lookupType n T).1 = .ok n) {data : Bytes}
    (hb : ∀ {T : Table}, LoadedThen D T → ∀ r, BinToJson (lookupType n T).2 (builtins F) n data r ↔ BinToJson V (builtins F) m data r) (text : Bytes) :
    DecodesAll (libEnv F) D n data text ↔ BinToJson V (builtins F) m data (.ok (text, [])) := by
  obtain ⟨T, h1⟩ := hD
  have h0 : LoadedThen D T := ⟨T, [], h1, rfl⟩
  rw [decodesAll_iff h0]
  constructor
  · rintro ⟨p, h2, h3⟩
    rw [hn h0] at h2
    cases h2
    exact (hb h0 _).1 h3
  · exact fun h3 => ⟨_, hn h0, (hb h0 _).2 h3⟩

theorem converts_of {conv : Table → Leaves → Ptr → JVal → Res Bytes → Prop} {D : AbiDef} {V : Table} {n m : Bytes} (hD : ∃ T, LoadTypes D (.ok T))
    (hn : ∀ {T : Table}, LoadedThen D T → (lookupType n T).1 = .ok n)
    (hb : ∀ {T : Table}, LoadedThen D T → ∀ v r, conv (lookupType n T).2 (builtins F) n v r ↔ conv V (builtins F) m v r)
    {json : Option Bytes} {d : JVal} (hj : IsJson (cstr json) d) (b : Bytes) :
    Converts (libEnv F) conv D n (cstr json) b ↔ conv V (builtins F) m d (.ok b) := by
  have hr : ∀ v, (libEnv F).read (cstr json) = some v ↔ v = d := by
    intro v
    rw [show (libEnv F).read = Reader.read from rfl, c53_read_iff, takeWhile_cstr]
    exact ⟨fun h => c53_unambiguous h hj, fun h => h ▸ hj⟩
  constructor
  · rintro ⟨T, p, v, h1, h2, h3, h4⟩
    have h0 : LoadedThen D T := ⟨T, [], h1, rfl⟩
    rw [hn h0] at h2
    cases h2
    rw [(hr v).1 h3] at h4
    exact (hb h0 _ _).1 h4
  · intro h4
    obtain ⟨T, h1⟩ := hD
    have h0 : LoadedThen D T := ⟨T, [], h1, rfl⟩
    exact ⟨T, _, d, h1, hn h0, (hr d).2 rfl, (hb h0 _ _).2 h4⟩

section
variable {h : List (Call × Ret)} {c : Ctx} (hc : Calls (libEnv F) (some Ctx.init) h (some c)) {k : Nat} {q : Call} (hf : FirstLoad (libEnv F) h k q Spec.Ship.abi)
  {type : Option Bytes} {t : CTy} (hk : Spec.Ship.Kind (cstr type) t)
include hc hf hk

theorem ship_bin_to_json {data : Option Bytes} {c' : Option Ctx} {r : Ret} (hs : Step (libEnv F) (some c) (.binToJson k type data) (.done c' r)) (text : Bytes) :
    r = .str (some text) ↔ BinToJson table (builtins F) (typeText t) (data.getD []) (.ok (text, [])) := by
  have hd := decodes_of (F := F) hf.1.1.2 (fun h0 => (kind_found h0 hk).1) (fun h0 r => ship_binToJson h0 hk (data.getD []) r)
  have hcut : ∀ {x : Bytes}, BinToJson table (builtins F) (typeText t) (data.getD []) (.ok (x, [])) → cut x = x := by
    intro x hx
    obtain ⟨v, hv⟩ := c53_written _ F table_wf table_extTail (described_valid (table_described (kind_tops hk).1)) hx
    exact cut_isJson hv
  rw [c39_bin_to_json hc hf hs (some text)]
  constructor
  · rintro (⟨h1, -⟩ | ⟨t', h1, h2⟩)
    · cases h1
    · have h3 := (hd t').1 h2
      rw [hcut h3] at h1
      cases h1
      exact h3
  · intro h1
    exact .inr ⟨text, by rw [hcut h1], (hd text).2 h1⟩

/-- **C79, reading.** After any history of calls in which the contract got the ABI of the protocol, for all bytes (less than 2^32): `bin_to_json` of a message,
trace, row or any other type of the protocol returns a text if and only if the C++ type's `from_bin` reads a value from all of the bytes and the text is the value's
(in which no vector has 2^31 elements or more and arrays and objects are nested up to 128 deep). -/
theorem c79_reads {data : Option Bytes} (hl : (data.getD []).length < 2 ^ 32) {c' : Option Ctx} {r : Ret} (hs : Step (libEnv F) (some c) (.binToJson k type data) (.done c' r))
    (text : Bytes) : r = .str (some text) ↔
      ∃ v, FromBin prog t (data.getD []) v [] ∧ convertToJson prog t v = .ok text ∧ Short v ∧ ∀ x, Shows prog t v x → x.depth ≤ 128 := by
  have ht := (kind_tops hk).1
  rw [ship_bin_to_json hc hf hk hs]
  exact c58_bin_to_json table_wf table_extTail table_small (table_described ht) (tops_noExt ht) (noNumbers ht) hl text []

/-- **C79, what C++ wrote.** What `convert_to_bin` wrote is shown as the value it wrote. -/
theorem c79_written {v : SVal} {b text : Bytes} (hb : Stored prog t v b) (ht : convertToJson prog t v = .ok text) (hsh : Short v) (hdp : ∀ x, Shows prog t v x → x.depth ≤ 128)
    {c' : Option Ctx} {r : Ret} (hs : Step (libEnv F) (some c) (.binToJson k type (some b)) (.done c' r)) : r = .str (some text) := by
  rw [ship_bin_to_json hc hf hk hs]
  have := c58_written_bin (F := F) table_wf table_extTail table_small (table_described (kind_tops hk).1) hb ht hsh hdp []
  rwa [List.append_nil] at this

/-- **C79, making.** For all JSON documents (no key twice in an object, nested up to 128 deep): `json_to_bin_reorderable` succeeds, and makes the bytes `b`, if and
only if the C++ type's `from_json` reads a value whose `convert_to_bin` is `b`. -/
theorem c79_json_to_bin_reorderable {json : Option Bytes} {d : JVal} (hj : IsJson (cstr json) d) (hu : UniqueKeys d) (hl : levels d ≤ 128) {c' : Option Ctx} {r : Ret}
    (hs : Step (libEnv F) (some c) (.jsonToBinReorderable k type json) (.done c' r)) :
    (r = .bool true ↔ ∃ b v, FromJson prog F t (cstr json) v ∧ convertToBinS prog t v [] = .ok b ∧ Short v) ∧
    (r = .bool true → ∀ b, Step (libEnv F) c' .getBinData (.done c' (.data (some b))) ↔
      ∃ v, FromJson prog F t (cstr json) v ∧ convertToBinS prog t v [] = .ok b ∧ Short v) := by
  have ht := (kind_tops hk).1
  have e : ∀ b, Converts (libEnv F) JsonToBinReorderable Spec.Ship.abi (cstr type) (cstr json) b ↔
      ∃ v, FromJson prog F t (cstr json) v ∧ convertToBinS prog t v [] = .ok b ∧ Short v := fun b => by
    rw [converts_of hf.1.1.2 (fun h0 => (kind_found h0 hk).1) (fun h0 v r => ship_reorderable h0 hk v r) hj]
    exact c58_json_to_bin table_wf table_small (table_described ht) (tops_noExt ht) (membersDiffer t) hj hu hl b
  obtain ⟨h1, h2⟩ := c39_json_to_bin_reorderable hc hf hs
  exact ⟨h1.trans (exists_congr e), fun hr b => (h2 hr b).symm.trans (e b)⟩

/-- **C79, what C++ wrote as JSON.** If the floating point conversions keep their bits: the text that `convert_to_json` gives for a value that JSON can carry is a document,
and `json_to_bin`, of it, makes what `convert_to_bin` makes of the value. -/
theorem c79_json (hF : FloatBits F) {v : SVal} {b text : Bytes} (hcar : Carried prog F t v) (hb : convertToBinS prog t v [] = .ok b) (ht : convertToJson prog t v = .ok text)
    (hsh : Short v) : ∃ d, IsJson text d ∧ (levels d ≤ 128 → ∀ {c' : Option Ctx} {r : Ret}, Step (libEnv F) (some c) (.jsonToBin k type (some text)) (.done c' r) →
      r = .bool true ∧ Step (libEnv F) c' .getBinData (.done c' (.data (some b)))) := by
  have htop := (kind_tops hk).1
  obtain ⟨d, h1, h2⟩ := c58_written_json_ordered table_wf table_extTail table_distinct table_small hF (table_described htop) (tops_noExt htop) (membersDiffer t)
    (namesUtf8 htop) hcar hb ht hsh
  refine ⟨d, h1, fun hl c' r hs => ?_⟩
  have hj : IsJson (cstr (some text)) d := by
    have : cstr (some text) = text := cut_isJson h1
    rw [this]; exact h1
  have e := (converts_of (F := F) hf.1.1.2 (fun h0 => (kind_found h0 hk).1) (fun h0 v r => ship_jsonToBin h0 hk v r) hj b).2 (h2 hl)
  obtain ⟨h3, h4⟩ := c39_json_to_bin hc hf hs
  have hr := h3.2 ⟨b, e⟩
  exact ⟨hr, (h4 hr b).1 e⟩

end

/-! ## an example -/

theorem ship_storable : Storable Spec.Ship.abi := by
  have h : (Spec.Ship.structs.all fun t => decide (t.name.length < 2 ^ 32) && decide (t.base.length < 2 ^ 32) && decide (t.fields.length < 2 ^ 32) &&
      t.fields.all fun f => decide (f.name.length < 2 ^ 32) && decide (f.type.length < 2 ^ 32)) = true := by decide +kernel
  have h' : (Spec.Ship.choices.all fun t => decide (t.name.length < 2 ^ 32) && decide (t.types.length < 2 ^ 32) && t.types.all fun k => decide (k.length < 2 ^ 32)) = true := by
    decide +kernel
  have hv : (str "eosio::abi/1.1").length < 2 ^ 32 := by decide +kernel
  have hs : Spec.Ship.structs.length < 2 ^ 32 := by decide +kernel
  have hc : Spec.Ship.choices.length < 2 ^ 32 := by decide +kernel
  have h := List.all_eq_true.1 h
  have h' := List.all_eq_true.1 h'
  simp only [Bool.and_eq_true, decide_eq_true_eq, List.all_eq_true] at h h'
  unfold Spec.Ship.abi
  exact
    { version := hv
      types := ⟨(by decide : 0 < 2 ^ 32), by simp⟩
      structs := ⟨hs, fun t ht => ⟨(h t ht).1.1.1, (h t ht).1.1.2, (h t ht).1.2, (h t ht).2⟩⟩
      actions := ⟨(by decide : 0 < 2 ^ 32), by simp⟩
      tables := ⟨(by decide : 0 < 2 ^ 32), by simp⟩
      clauses := ⟨(by decide : 0 < 2 ^ 32), by simp⟩
      errors := ⟨(by decide : 0 < 2 ^ 32), by simp⟩
      extensions := ⟨(by decide : 0 < 2 ^ 32), by simp⟩
      variants := ⟨hc, fun t ht => ⟨(h' t ht).1.1, (h' t ht).1.2, (h' t ht).2⟩⟩ }

/-- A definition that can be used and stored can be loaded. -/
theorem loads_bin {env : Env} {D : AbiDef} (hu : Usable D) (hs : Storable D) (k : Nat) :
    ∃ (b : Bytes) (c : Ctx), Calls env (some Ctx.init) [(.setAbiBin k (some b), .bool true)] (some c) ∧
      FirstLoad env [(.setAbiBin k (some b), .bool true)] k (.setAbiBin k (some b)) D := by
  obtain ⟨b, -, hb⟩ := c41_every_storable hs
  have hl : Loads env (.setAbiBin k (some b)) k D := ⟨hu, rfl, b, rfl, [], hb⟩
  obtain ⟨o, ho⟩ := c38_returns (env := env) (c := Ctx.init) .nil (.setAbiBin k (some b))
  have e : ∃ c, o = .done (some c) (.bool true) := by
    cases o with
    | undefined => exact absurd ho (c38_defined rfl _)
    | done c r =>
      obtain rfl := (c39_load_iff rfl ho).2 ⟨k, D, hl⟩
      cases c with
      | none =>
        exfalso
        generalize hx : Outcome.done none (.bool true) = x at ho
        cases load_end rfl ho with
        | refused => cases hx
        | loaded => cases hx
      | some c => exact ⟨c, rfl⟩
  obtain ⟨c, rfl⟩ := e
  exact ⟨b, c, .cons ho .nil, hl, [], [], rfl, by simp⟩

def ackText : Bytes := str "[\"get_blocks_ack_request_v0\",{\"num_messages\":5}]"

theorem ack_json : convertToJson prog requestTy (.alt 2 (.struct [.leaf [5, 0, 0, 0]])) = .ok ackText := by decide +kernel

theorem ack_depth : (match treeOf prog requestTy (.alt 2 (.struct [.leaf [5, 0, 0, 0]])) with | .ok z => decide (z.depth ≤ 128) | .error _ => false) = true := by decide +kernel

/-- The hypotheses are met: a context in which the ABI was loaded for contract 5, and a request in it. -/
example : ∃ (b : Bytes) (c : Ctx), Calls (libEnv F) (some Ctx.init) [(.setAbiBin 5 (some b), .bool true)] (some c) ∧ ∀ (c' : Option Ctx) (r : Ret),
    Step (libEnv F) (some c) (.binToJson 5 (some (str "request")) (some [2, 5, 0, 0, 0])) (.done c' r) → r = .str (some ackText) := by
  obtain ⟨b, c, hc, hf⟩ := loads_bin (env := libEnv F) c79_loads ship_storable 5
  refine ⟨b, c, hc, fun c' r hs => ?_⟩
  have e : cstr (some (str "request")) = str "request" := by decide +kernel
  have hk : Spec.Ship.Kind (cstr (some (str "request"))) requestTy := by
    rw [e]; exact .inr (by unfold Spec.Ship.named; exact List.mem_cons_self)
  refine c79_written hc hf hk ((c65_request _ _).2 (.ack rfl)) ack_json (by simp [Short, ShortAll]) (fun x hx => ?_) hs
  have := ack_depth
  rw [shows_treeOf hx] at this
  simpa using this

end Ship
end Abieos
