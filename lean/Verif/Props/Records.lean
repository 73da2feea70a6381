import Verif.Props.RoundTrip
import Verif.Props.Example
import Verif.Spec.Records
/-!
# C83: encodings are unambiguous

Different encodings of a type are shown differently, no encoding is the beginning of another, and records written one after another are read back one by one.
-/
namespace Abieos
open Spec

variable {T : Table} {F : Floats}

/-- An encoding is read completely. -/
theorem Spec.Encoded.read (wf : T.WF) (reg : Regular T) (hF : FloatBits F) {ty : Ptr} (hty : T.Valid ty) {b : Bytes} (h : Encoded T F ty b) :
    ∃ t v, BinToJson T (builtins F) ty b (.ok (t, [])) ∧ Reads t v ∧ JsonToBin T (builtins F) ty v (.ok b) := by
  obtain ⟨v, h1, h2, h3⟩ := h
  obtain ⟨t, v', g1, g2, g3, -⟩ := c27_json_bin_json wf reg hF hty h1 h2 h3
  exact ⟨t, v', g1, g2, g3⟩

/-- The result of `json_to_bin` is a function of its input. -/
theorem jsonToBin_unique {L : Leaves} (wf : T.WF) {ty : Ptr} (hty : T.Valid ty) {v : JVal} {r r' : Res Bytes}
    (h : JsonToBin T L ty v r) (h' : JsonToBin T L ty v r') : r = r' := by
  have hn : 3 * v.height + 2 < 3 * v.height + 3 := Nat.lt_succ_self _
  rw [(jsonToBin_iff wf hty v _ hn _).1 h, (jsonToBin_iff wf hty v _ hn _).1 h']

/-- **C83, shown differently.** Two encodings of a type are shown as the same text only if they are the same bytes. -/
theorem c83_shown (wf : T.WF) (reg : Regular T) (hF : FloatBits F) {ty : Ptr} (hty : T.Valid ty) {b b' t r r' : Bytes}
    (h : Encoded T F ty b) (h' : Encoded T F ty b') (hb : BinToJson T (builtins F) ty b (.ok (t, r))) (hb' : BinToJson T (builtins F) ty b' (.ok (t, r'))) : b = b' := by
  obtain ⟨t1, v1, g1, g2, g3⟩ := h.read wf reg hF hty
  obtain ⟨t2, v2, k1, k2, k3⟩ := h'.read wf reg hF hty
  cases binToJson_unique wf hty hb g1
  cases binToJson_unique wf hty hb' k1
  obtain rfl := g2.unique k2
  cases jsonToBin_unique wf hty g3 k3
  rfl

/-- Without binary extensions, an encoding is read out of whatever follows it. -/
theorem Spec.Encoded.read_front (wf : T.WF) (reg : Regular T) (hF : FloatBits F) (hx : ∀ q, ¬ IsExt T q) {ty : Ptr} (hty : T.Valid ty) {b : Bytes} (h : Encoded T F ty b) :
    ∃ t, BinToJson T (builtins F) ty b (.ok (t, [])) ∧ ∀ r, BinToJson T (builtins F) ty (b ++ r) (.ok (t, r)) := by
  obtain ⟨t, v, g1, -, -⟩ := h.read wf reg hF hty
  obtain ⟨p, hp, hr⟩ := c34_reads_prefix wf hty g1
  rw [List.append_nil] at hp
  subst hp
  exact ⟨t, g1, fun r => hr r (.inl hx)⟩

/-- **C83, one way to cut.** If the ABI has no binary extensions, there is only one way to split bytes into an encoding and a rest; so no encoding is a proper beginning
of another one. -/
theorem c83_cut (wf : T.WF) (reg : Regular T) (hF : FloatBits F) (hx : ∀ q, ¬ IsExt T q) {ty : Ptr} (hty : T.Valid ty) {b b' r r' : Bytes}
    (h : Encoded T F ty b) (h' : Encoded T F ty b') (he : b ++ r = b' ++ r') : b = b' ∧ r = r' := by
  obtain ⟨t, -, g⟩ := h.read_front wf reg hF hx hty
  obtain ⟨t', -, g'⟩ := h'.read_front wf reg hF hx hty
  have := binToJson_unique wf hty (he ▸ g r) (g' r')
  simp only [Except.ok.injEq, Prod.mk.injEq] at this
  obtain ⟨-, rfl⟩ := this
  exact ⟨List.append_cancel_right he, rfl⟩

/-- **C83, read one by one.** Encodings of any types, written one after another and followed by any bytes, are read back by calling `bin_to_json` once for each; every call
gives the text that it gives for the encoding alone, and the following bytes are left. -/
theorem c83_records (wf : T.WF) (reg : Regular T) (hF : FloatBits F) (hx : ∀ q, ¬ IsExt T q) (r : Bytes) : ∀ (l : List (Ptr × Bytes)),
    (∀ e ∈ l, T.Valid e.1 ∧ Encoded T F e.1 e.2) →
    ∃ ts, ReadAll T F (l.map (·.1)) ((l.map (·.2)).flatten ++ r) ts r ∧
      List.Forall₂ (fun (e : Ptr × Bytes) t => BinToJson T (builtins F) e.1 e.2 (.ok (t, []))) l ts
  | [], _ => ⟨[], .done _, .nil⟩
  | e :: l, h => by
    obtain ⟨h1, h2⟩ := h e (by simp)
    obtain ⟨ts, g1, g2⟩ := c83_records wf reg hF hx r l fun x hx => h x (by simp [hx])
    obtain ⟨t, k1, k2⟩ := h2.read_front wf reg hF hx h1
    refine ⟨t :: ts, ?_, .cons k1 g2⟩
    simp only [List.map_cons, List.flatten_cons, List.append_assoc]
    exact .next (k2 _) g1

/-- **C83, only these.** Nothing else is read: the texts and the bytes left are determined by the bytes. -/
theorem c83_only (wf : T.WF) : ∀ {tys : List Ptr} {s r r' : Bytes} {ts ts' : List Bytes}, (∀ ty ∈ tys, T.Valid ty) →
    ReadAll T F tys s ts r → ReadAll T F tys s ts' r' → ts = ts' ∧ r = r'
  | _, _, _, _, _, _, _, .done _, .done _ => ⟨rfl, rfl⟩
  | _, _, _, _, _, _, hv, .next h g, .next h' g' => by
    cases binToJson_unique wf (hv _ (by simp)) h h'
    obtain ⟨rfl, rfl⟩ := c83_only wf (fun ty k => hv ty (by simp [k])) g g'
    exact ⟨rfl, rfl⟩

/-- **C83, no two sequences.** Two sequences of encodings of the same types, written one after another, are the same bytes only if they are the same sequences. -/
theorem c83_sequences (wf : T.WF) (reg : Regular T) (hF : FloatBits F) (hx : ∀ q, ¬ IsExt T q) : ∀ (tys : List Ptr) (bs bs' : List Bytes) (r r' : Bytes),
    (∀ ty ∈ tys, T.Valid ty) → List.Forall₂ (Encoded T F) tys bs → List.Forall₂ (Encoded T F) tys bs' → bs.flatten ++ r = bs'.flatten ++ r' → bs = bs' ∧ r = r'
  | [], _, _, r, r', _, .nil, .nil, h => ⟨rfl, by simpa using h⟩
  | ty :: tys, _, _, r, r', hv, .cons h g, .cons h' g', he => by
    simp only [List.flatten_cons, List.append_assoc] at he
    obtain ⟨rfl, he2⟩ := c83_cut wf reg hF hx (hv ty (by simp)) h h' he
    obtain ⟨rfl, rfl⟩ := c83_sequences wf reg hF hx tys _ _ _ _ (fun ty k => hv ty (by simp [k])) g g' he2
    exact ⟨rfl, rfl⟩

/-! ## an example -/
namespace RecordsExample
open Example

/-- The table of Example.lean without the struct that has an extension: `struct item { id: uint8; kids: item[] }`, `variant choice = uint8 | string`. -/
def items : Table :=
  [(str "uint8", .builtin .uint8), (str "string", .builtin .string), (str "item[]", .array (str "item")),
   (str "item", .struct [⟨str "id", str "uint8"⟩, ⟨str "kids", str "item[]"⟩]),
   (str "choice", .variant [⟨str "uint8", str "uint8"⟩, ⟨str "string", str "string"⟩])]

theorem items_wf : items.WF := Table.wf_of_wfB (by decide)
theorem items_regular : Regular items := Table.regular_of_regularB (by decide)

theorem items_noExt (q : Ptr) : ¬ IsExt items q := by
  rintro ⟨p, h⟩
  have h := Table.get_mem h
  simp [items] at h

/-- `{"id":"7","kids":[{"id":"2","kids":[]}]}` -/
def node : JVal := .obj [(str "id", .str (str "7")), (str "kids", .arr [.obj [(str "id", .str (str "2")), (str "kids", .arr [])]])]

theorem lossless_of_check {ty : Ptr} {v : JVal} (h : checkScalars items (fun k _ => k == .uint8 || k == .string) 30 ty v = true) : LosslessDoc items noFloats ty v := by
  intro a ty' k s b ho hk hb
  have := checkScalars_sound ho h k s rfl hk
  cases k <;> first | trivial | cases this

theorem node_encoded : Encoded items noFloats (str "item") [7, 1, 2, 0] := by
  refine ⟨node, .inl ⟨?_, by decide⟩, ⟨?_, ⟨⟨?_, trivial, trivial⟩, trivial⟩, trivial⟩, lossless_of_check (by decide +kernel)⟩
  · rw [jsonToBin_iff items_wf ⟨_, rfl, rfl⟩ node 21 (by decide)]
    decide +kernel
  all_goals exact utf8_ascii (by decide)

theorem choice_encoded : Encoded items noFloats (str "choice") [1, 1, 120] := by
  refine ⟨.arr [.str (str "string"), .str (str "x")], .inl ⟨?_, by decide⟩, ⟨?_, ?_, trivial⟩, lossless_of_check (by decide +kernel)⟩
  · rw [jsonToBin_iff items_wf ⟨_, rfl, rfl⟩ _ 21 (by decide)]
    decide +kernel
  all_goals exact utf8_ascii (by decide)

/-- Three records, followed by two bytes. -/
example : ∃ ts, ReadAll items noFloats [str "item", str "choice", str "item"] [7, 1, 2, 0, 1, 1, 120, 7, 1, 2, 0, 255, 255] ts [255, 255] := by
  obtain ⟨ts, h, -⟩ := c83_records items_wf items_regular noFloats_bits items_noExt [255, 255]
    [(str "item", [7, 1, 2, 0]), (str "choice", [1, 1, 120]), (str "item", [7, 1, 2, 0])] (by
      intro e he
      simp only [List.mem_cons, List.not_mem_nil, or_false] at he
      rcases he with rfl | rfl | rfl
      · exact ⟨⟨_, rfl, rfl⟩, node_encoded⟩
      · exact ⟨⟨_, rfl, rfl⟩, choice_encoded⟩
      · exact ⟨⟨_, rfl, rfl⟩, node_encoded⟩)
  exact ⟨ts, h⟩

/-- With a binary extension the cut is not unique: `struct rec { id: uint8; more: uint8$ }` has the encodings `07` and `0707`. -/
def ext : Table :=
  [(str "uint8", .builtin .uint8), (str "uint8$", .extension (str "uint8")), (str "rec", .struct [⟨str "id", str "uint8"⟩, ⟨str "more", str "uint8$"⟩])]

example : JsonToBin ext (builtins noFloats) (str "rec") (.obj [(str "id", .str (str "7"))]) (.ok [7]) ∧
    JsonToBin ext (builtins noFloats) (str "rec") (.obj [(str "id", .str (str "7")), (str "more", .str (str "7"))]) (.ok [7, 7]) := by
  have wf : ext.WF := Table.wf_of_wfB (by decide)
  constructor
  · rw [jsonToBin_iff wf ⟨_, rfl, rfl⟩ _ 21 (by decide)]
    decide +kernel
  · rw [jsonToBin_iff wf ⟨_, rfl, rfl⟩ _ 21 (by decide)]
    decide +kernel

end RecordsExample
end Abieos
