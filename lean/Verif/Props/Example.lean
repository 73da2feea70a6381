import Verif.Props.RoundTrip
import Verif.Props.Extension
import Verif.Props.Limits
import Verif.Proofs.Check
/-
A concrete type table, documents and bytes that meet the hypotheses of the theorems on conversions (C27 to C37), and
counterexamples that show why the hypotheses are needed.
-/
namespace Abieos.Example
open Spec

/-- The table loaded from
```
struct item { id: uint8; kids: item[] }           (recursive)
variant choice = uint8 | string
struct main { text: string; opt: uint8?; items: item[]; pick: choice; sum: asset; more: uint8$ }
``` -/
def table : Table :=
  [(str "uint8", .builtin .uint8), (str "string", .builtin .string), (str "asset", .builtin .asset),
   (str "uint8?", .optional (str "uint8")), (str "uint8$", .extension (str "uint8")), (str "item[]", .array (str "item")),
   (str "item", .struct [⟨str "id", str "uint8"⟩, ⟨str "kids", str "item[]"⟩]),
   (str "choice", .variant [⟨str "uint8", str "uint8"⟩, ⟨str "string", str "string"⟩]),
   (str "main", .struct [⟨str "text", str "string"⟩, ⟨str "opt", str "uint8?"⟩, ⟨str "items", str "item[]"⟩, ⟨str "pick", str "choice"⟩,
     ⟨str "sum", str "asset"⟩, ⟨str "more", str "uint8$"⟩])]

theorem table_wf : table.WF := Table.wf_of_wfB (by decide)
theorem table_regular : Regular table := Table.regular_of_regularB (by decide)
theorem main_valid : table.Valid (str "main") := ⟨_, rfl, rfl⟩

/-- `{"text":"héy","opt":null,"items":[{"id":"1","kids":[{"id":"2","kids":[]}]}],"pick":["string","x"],"sum":"-1.50 SYS"}`: the
extension `more` is left out. -/
def doc : JVal := .obj [(str "text", .str [104, 195, 169, 121]), (str "opt", .null),
  (str "items", .arr [.obj [(str "id", .str (str "1")), (str "kids", .arr [.obj [(str "id", .str (str "2")), (str "kids", .arr [])]])]]),
  (str "pick", .arr [.str (str "string"), .str (str "x")]), (str "sum", .str (str "-1.50 SYS"))]

/-- Its encoding. -/
def bytes : Bytes := [4, 104, 195, 169, 121, 0, 1, 1, 1, 2, 0, 1, 1, 120, 106, 255, 255, 255, 255, 255, 255, 255, 2, 83, 89, 83, 0, 0, 0, 0]

/-- What `bin_to_json` prints. -/
def text : Bytes := str "{\"text\":\"h" ++ [195, 169] ++
  str "y\",\"opt\":null,\"items\":[{\"id\":1,\"kids\":[{\"id\":2,\"kids\":[]}]}],\"pick\":[\"string\",\"x\"],\"sum\":\"-1.50 SYS\"}"

theorem doc_height : doc.height = 6 := by decide

theorem doc_encodes : JsonToBin table (builtins noFloats) (str "main") doc (.ok bytes) := by
  rw [jsonToBin_iff table_wf main_valid doc 21 (by rw [doc_height]; decide)]
  decide +kernel

theorem noFloats_bits : FloatBits noFloats := ⟨fun s v h => by simp [noFloats] at h, fun s v h => by simp [noFloats] at h⟩

theorem bytes_decode : BinToJson table (builtins noFloats) (str "main") bytes (.ok (text, [])) := by
  rw [binToJson_iff table_wf main_valid bytes 387 (by decide)]
  decide +kernel

/-! ### Checking the scalars of a document -/

/-- Check a predicate on all scalars of a document, read as a value of type `ty`. -/
def checkScalars (T : Table) (P : Builtin → Scalar → Bool) : Nat → Ptr → JVal → Bool
  | 0, _, _ => false
  | n + 1, ty, v =>
    match T.get ty with
    | some (.builtin k) => match v with
      | .str s => P k (.str s)
      | .bool c => P k (.bool c)
      | _ => true
    | some (.optional p) => v.isNull || checkScalars T P n p v
    | some (.extension p) => checkScalars T P n p v
    | some (.struct fs) => match v with
      | .obj ms => fs.all fun f => match lastValue f.name ms with
        | some x => checkScalars T P n f.type x
        | none => true
      | _ => true
    | some (.array p) => match v with
      | .arr l => l.all (checkScalars T P n p)
      | _ => true
    | some (.variant alts) => match v with
      | .arr [.str name, x] => match findAlt name alts 0 with
        | some (_, f) => checkScalars T P n f.type x
        | none => true
      | _ => true
    | _ => true

theorem checkScalars_sound {T : Table} {P : Builtin → Scalar → Bool} {a : Bool} {ty : Ptr} {v : JVal} {a' : Bool} {ty' : Ptr} {w : JVal}
    (ho : Occurs T a ty v a' ty' w) : ∀ {n : Nat}, checkScalars T P n ty v = true → ∀ k s, w = ofScalar s → T.get ty' = some (.builtin k) → P k s = true := by
  induction ho with
  | here a ty v =>
    rintro n h k s rfl hk
    cases n with
    | zero => cases h
    | succ n => rw [checkScalars, hk] at h; cases s <;> exact h
  | optional hk hv _ ih =>
    intro n h
    cases n with
    | zero => cases h
    | succ n =>
      rw [checkScalars, hk] at h
      simp only [Bool.or_eq_true] at h
      refine ih (h.resolve_left fun h => hv ?_)
      revert h
      rename_i v _ _
      cases v <;> simp [JVal.isNull]
  | extension hk _ ih =>
    intro n h
    cases n with
    | zero => cases h
    | succ n => rw [checkScalars, hk] at h; exact ih h
  | field hk hx _ ih =>
    intro n h
    cases n with
    | zero => cases h
    | succ n =>
      rw [checkScalars, hk] at h
      simp only [List.all_eq_true] at h
      have h := h _ (List.mem_append_right _ (List.mem_cons_self ..))
      rw [hx] at h
      exact ih h
  | elem hk hx _ ih =>
    intro n h
    cases n with
    | zero => cases h
    | succ n =>
      rw [checkScalars, hk] at h
      simp only [List.all_eq_true] at h
      exact ih (h _ hx)
  | alt hk hf _ ih =>
    intro n h
    cases n with
    | zero => cases h
    | succ n =>
      rw [checkScalars, hk] at h
      simp only [hf] at h
      exact ih h

theorem doc_lossless : LosslessDoc table noFloats (str "main") doc := by
  intro a ty k s b ho hk hb
  have h := checkScalars_sound (P := fun k s => k != .time_point && k != .float32 && k != .float64 &&
    (k != .asset || (match (builtins noFloats).toBin .asset s with | .ok b => leVal (b.take 8) != 2 ^ 63 | .error _ => true))) (n := 30) ho (by decide +kernel) k s rfl hk
  rcases eq_or_ne k .asset with rfl | hna
  · simp only [bne_self_eq_false, Bool.false_or, Bool.and_eq_true, hb] at h
    have h := h.2
    show leVal (b.take 8) ≠ 2 ^ 63
    simpa using h
  · cases k <;> first | exact absurd rfl hna | trivial | (exfalso; revert h; simp)

theorem doc_utf8 : DocUtf8 doc := by
  refine ⟨?_, trivial, ⟨⟨?_, ⟨⟨?_, ⟨trivial, trivial⟩⟩, trivial⟩, trivial⟩, trivial⟩, ⟨?_, ?_, trivial⟩, ?_, trivial⟩
  · exact .cons _ 1 (by decide) (.cons _ 2 (by decide) (.cons _ 1 (by decide) .nil))
  all_goals exact utf8_ascii (by decide)

/-- C27 applied. -/
example : ∃ t v', BinToJson table (builtins noFloats) (str "main") bytes (.ok (t, [])) ∧ Reads t v' ∧
    JsonToBin table (builtins noFloats) (str "main") v' (.ok bytes) := by
  obtain ⟨t, v', h1, h2, h3, -⟩ := c27_json_bin_json table_wf table_regular noFloats_bits main_valid
    (.inl ⟨doc_encodes, by rw [doc_height]; decide⟩) doc_utf8 doc_lossless
  exact ⟨t, v', h1, h2, h3⟩

/-- C28 applied: `bytes2` is not what `json_to_bin` writes (the array length has a superfluous byte). -/
def bytes2 : Bytes := [4, 104, 195, 169, 121, 0, 129, 0, 1, 1, 2, 0, 1, 1, 120, 106, 255, 255, 255, 255, 255, 255, 255, 2, 83, 89, 83, 0, 0, 0, 0]

theorem bytes2_decode : BinToJson table (builtins noFloats) (str "main") bytes2 (.ok (text, [])) := by
  rw [binToJson_iff table_wf main_valid bytes2 387 (by decide)]
  decide +kernel

/-- equality of documents -/
def same : JVal → JVal → Bool
  | .null, .null => true
  | .bool a, .bool b => a == b
  | .str a, .str b => a == b
  | .arr a, .arr b => go a b
  | .obj a, .obj b => goM a b
  | _, _ => false
where
  go : List JVal → List JVal → Bool
    | [], [] => true
    | a :: l, b :: m => same a b && go l m
    | _, _ => false
  goM : List (Bytes × JVal) → List (Bytes × JVal) → Bool
    | [], [] => true
    | (k, a) :: l, (k', b) :: m => k == k' && same a b && goM l m
    | _, _ => false

theorem same_eq (v : JVal) : ∀ w, same v w = true → v = w := by
  induction v using JVal.ind with
  | hnull => intro w h; cases w <;> simp_all [same]
  | hbool c => intro w h; cases w <;> simp_all [same]
  | hstr s => intro w h; cases w <;> simp_all [same]
  | harr l ih =>
    intro w h
    cases w <;> simp only [same, Bool.false_eq_true] at h
    rename_i m
    congr 1
    induction l generalizing m with
    | nil => cases m <;> simp_all [same.go]
    | cons a l ihl =>
      cases m with
      | nil => simp [same.go] at h
      | cons b m =>
        simp only [same.go, Bool.and_eq_true] at h
        rw [ih a (by simp) b h.1, ihl (fun v hv => ih v (by simp [hv])) m h.2]
  | hobj l ih =>
    intro w h
    cases w <;> simp only [same, Bool.false_eq_true] at h
    rename_i m
    congr 1
    induction l generalizing m with
    | nil => cases m <;> simp_all [same.goM]
    | cons a l ihl =>
      obtain ⟨k, a⟩ := a
      cases m with
      | nil => simp [same.goM] at h
      | cons b m =>
        obtain ⟨k', b⟩ := b
        simp only [same.goM, Bool.and_eq_true, beq_iff_eq] at h
        rw [h.1.1, ih k a (by simp) b h.1.2, ihl (fun k v hv => ih k v (by simp [hv])) m h.2]

/-- The document that `text` says: like `doc`. -/
theorem text_reads : Reads text doc := by
  obtain ⟨t, v', h1, h2, h3, -⟩ := c27_json_bin_json table_wf table_regular noFloats_bits main_valid
    (.inl ⟨doc_encodes, by rw [doc_height]; decide⟩) doc_utf8 doc_lossless
  have := binToJson_unique table_wf main_valid h1 bytes_decode
  cases this
  have := read_of_reads h2
  have e : (match Reader.read text with | some v => same v doc | none => false) = true := by decide +kernel
  rw [this] at e
  exact same_eq _ _ e ▸ h2

theorem doc_takesBack : TakesBackDoc table noFloats (str "main") doc := by
  intro a ty k s ho hk
  have h := checkScalars_sound (P := fun k s => k == .uint8 || k == .string || (k == .asset && s == .str (str "-1.50 SYS"))) (n := 30) ho
    (by decide +kernel) k s rfl hk
  cases k <;> first | trivial | (exfalso; revert h; simp; done) | skip
  have hs : s = .str (str "-1.50 SYS") := by simpa using h
  subst hs
  exact ⟨-150, 2, str "SYS", str "-1.50 SYS", by decide, by decide, by decide, ⟨by decide, by decide, by decide⟩, by decide +kernel, rfl⟩

example : ∃ b, JsonToBin table (builtins noFloats) (str "main") doc (.ok b) ∧ BinToJson table (builtins noFloats) (str "main") b (.ok (text, [])) := by
  obtain ⟨v, h1, h2⟩ := c28_bin_json_bin table_wf table_regular noFloats_bits main_valid bytes2_decode
  obtain rfl := h1.unique text_reads
  obtain ⟨b, h3, h4, -⟩ := h2 doc_takesBack
  exact ⟨b, h3, h4⟩

/-- C31: without the condition that extensions come last, `bin_to_json` can print what is no JSON. In the table of
`struct bad { a: uint8$; b: none }`, `struct none { }`, the empty input is decoded to `{,"b":{}}`. -/
def badTable : Table :=
  [(str "uint8", .builtin .uint8), (str "uint8$", .extension (str "uint8")), (str "none", .struct []),
   (str "bad", .struct [⟨str "a", str "uint8$"⟩, ⟨str "b", str "none"⟩])]

example : badTable.WF ∧ BinToJson badTable (builtins noFloats) (str "bad") [] (.ok (str "{,\"b\":{}}", [])) ∧
    Reader.read (str "{,\"b\":{}}") = none := by
  have wf : badTable.WF := Table.wf_of_wfB (by decide)
  refine ⟨wf, ?_, rfl⟩
  rw [binToJson_iff wf ⟨_, rfl, rfl⟩ [] 387 (by decide)]
  decide +kernel

/-- C34 applied: more bytes after the value are left alone, if there were some already. -/
example : BinToJson table (builtins noFloats) (str "item") [1, 0, 7] (.ok (str "{\"id\":1,\"kids\":[]}", [7])) ∧
    BinToJson table (builtins noFloats) (str "item") [1, 0, 9, 9] (.ok (str "{\"id\":1,\"kids\":[]}", [9, 9])) := by
  have hv : table.Valid (str "item") := ⟨_, rfl, rfl⟩
  have h : BinToJson table (builtins noFloats) (str "item") [1, 0, 7] (.ok (str "{\"id\":1,\"kids\":[]}", [7])) := by
    rw [binToJson_iff table_wf hv _ 387 (by decide)]
    decide +kernel
  refine ⟨h, ?_⟩
  obtain ⟨p, hp, hr⟩ := c34_reads_prefix table_wf hv h
  have e : p = [1, 0] := List.append_cancel_right (as := p) (bs := [7]) (cs := [1, 0]) hp.symm
  rw [e] at hr
  exact hr [9, 9] (.inr (by simp))

/-! ### C29, C30, C35, C36, C37 -/

/-- C36 and C29 applied: the two conversions agree on `doc`. -/
theorem doc_reorderable : JsonToBinReorderable table (builtins noFloats) (str "main") doc (.ok bytes) :=
  c29_ordered_to_reorderable table_wf table_regular.extTail table_regular.distinct table_regular.small main_valid doc bytes (by decide +kernel) doc_encodes

/-- C30 and C37 applied: `item` with its members exchanged, an unknown member, and an earlier value for `id`. -/
example : JsonToBinReorderable table (builtins noFloats) (str "item")
    (.obj [(str "x", .null), (str "kids", .arr []), (str "id", .str (str "3")), (str "id", .str (str "7"))]) (.ok [7, 0]) := by
  have hv : table.Valid (str "item") := ⟨_, rfl, rfl⟩
  have hk : table.get (str "item") = some (.struct [⟨str "id", str "uint8"⟩, ⟨str "kids", str "item[]"⟩]) := rfl
  have h0 : JsonToBin table (builtins noFloats) (str "item") (.obj [(str "id", .str (str "7")), (str "kids", .arr [])]) (.ok [7, 0]) := by
    rw [jsonToBin_iff table_wf hv _ 30 (by decide)]
    decide +kernel
  have h1 := c29_ordered_to_reorderable table_wf table_regular.extTail table_regular.distinct table_regular.small hv _ _ (by decide) h0
  have s1 := c30_permuted_members_same hk (List.Perm.swap (str "kids", .arr []) (str "id", .str (str "7")) []) (by decide)
  have h2 := (c30_same_documents_same_result table_wf hv _ _ s1 (by decide) (by decide) _).1 h1
  have s2 := c37_last_value_wins hk [(str "kids", .arr [])] [] [] (str "id") (.str (str "3")) (.str (str "7"))
  have h3 := (c30_same_documents_same_result table_wf hv _ _ s2 (by decide) (by decide) _).1 h2
  have s3 := c30_unknown_member_same hk [] [(str "kids", .arr []), (str "id", .str (str "3")), (str "id", .str (str "7"))] (str "x") .null (by decide)
  exact (c30_same_documents_same_result table_wf hv _ _ s3 (by decide) (by decide) _).1 h3

/-- C37 applied: the ordered conversion refuses `{"id":"3","id":"7","kids":[]}`. -/
example (b : Bytes) : ¬ JsonToBin table (builtins noFloats) (str "item")
    (.obj [(str "id", .str (str "3")), (str "id", .str (str "7")), (str "kids", .arr [])]) (.ok b) := by
  intro h
  have := c37_ordered_refuses_repeated_keys table_wf table_regular.extTail table_regular.distinct table_regular.small ⟨_, rfl, rfl⟩ _ b h
  exact absurd this.1 (by decide)

/-- C35: `doc` leaves out the last field, an extension; leaving out `sum` too is refused. -/
example : OmitsOnlyTail table (builtins noFloats) (str "main") doc bytes :=
  c35_ordered_omits_only_tail table_wf table_regular.extTail table_regular.distinct table_regular.small main_valid doc bytes doc_encodes

example : ∃ e, JsonToBin table (builtins noFloats) (str "main") (.obj [(str "text", .str (str "a"))]) (.error e) := by
  refine ⟨.expected_field, ?_⟩
  rw [jsonToBin_iff table_wf main_valid _ 30 (by decide)]
  decide +kernel

/-- C35: the ordered conversion looks only at the next field it misses. Without the condition that extensions come last, it
accepts `{}` for `bad`; the reorderable one refuses it. -/
example : JsonToBin badTable (builtins noFloats) (str "bad") (.obj []) (.ok []) := by
  rw [jsonToBin_iff (Table.wf_of_wfB (by decide)) ⟨_, rfl, rfl⟩ _ 30 (by decide)]
  decide +kernel

end Abieos.Example
