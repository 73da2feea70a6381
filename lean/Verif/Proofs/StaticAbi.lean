import Verif.Props.SameType
import Verif.Props.StaticAgree
import Verif.Props.Shown
import Verif.Spec.StaticAbi
/-
Tables in which there are types made like C++ types.
-/
namespace Abieos
open Spec

variable {F : Floats}

theorem matches_flip {T V : Table} {R : Ptr → Ptr → Prop} (h : Matches T V R) : Matches V T fun q p => R p q := by
  intro q p hr
  obtain ⟨d, e, e1, e2, e3⟩ := h p q hr
  refine ⟨e, d, e2, e1, ?_⟩
  cases e3 with
  | builtin => exact .builtin
  | optional h => exact .optional h
  | extension h => exact .extension h
  | array h => exact .array h
  | struct h => exact .struct (sameFields_symm h)
  | variant h => exact .variant (sameFields_symm h)

theorem decodes_of {D : AbiDef} {V : Table} {n m : Bytes} (hD : ∃ T, LoadTypes D (.ok T)) {data : Bytes}
    (hb : ∀ {T : Table}, LoadedThen D T → ∃ p, (lookupType n T).1 = .ok p ∧ ∀ r, BinToJson (lookupType n T).2 (builtins F) p data r ↔ BinToJson V (builtins F) m data r)
    (text : Bytes) : DecodesAll (libEnv F) D n data text ↔ BinToJson V (builtins F) m data (.ok (text, [])) := by
  obtain ⟨T, h1⟩ := hD
  have h0 : LoadedThen D T := ⟨T, [], h1, rfl⟩
  obtain ⟨p, hn, hb⟩ := hb h0
  rw [decodesAll_iff h0]
  constructor
  · rintro ⟨p', h2, h3⟩
    rw [hn] at h2
    cases h2
    exact (hb _).1 h3
  · exact fun h3 => ⟨_, hn, (hb _).2 h3⟩

theorem converts_of {conv : Table → Leaves → Ptr → JVal → Res Bytes → Prop} {D : AbiDef} {V : Table} {n m : Bytes} (hD : ∃ T, LoadTypes D (.ok T))
    (hb : ∀ {T : Table}, LoadedThen D T → ∃ p, (lookupType n T).1 = .ok p ∧ ∀ v r, conv (lookupType n T).2 (builtins F) p v r ↔ conv V (builtins F) m v r)
    {json : Option Bytes} {d : JVal} (hj : IsJson (cstr json) d) (b : Bytes) :
    Converts (libEnv F) conv D n (cstr json) b ↔ conv V (builtins F) m d (.ok b) := by
  have hr : ∀ v, (libEnv F).read (cstr json) = some v ↔ v = d := by
    intro v
    rw [show (libEnv F).read = Reader.read from rfl, c53_read_iff, takeWhile_cstr]
    exact ⟨fun h => c53_unambiguous h hj, fun h => h ▸ hj⟩
  constructor
  · rintro ⟨T, p, v, h1, h2, h3, h4⟩
    have h0 : LoadedThen D T := ⟨T, [], h1, rfl⟩
    obtain ⟨p', hn, hb⟩ := hb h0
    rw [hn] at h2
    cases h2
    rw [(hr v).1 h3] at h4
    exact (hb _ _).1 h4
  · intro h4
    obtain ⟨T, h1⟩ := hD
    have h0 : LoadedThen D T := ⟨T, [], h1, rfl⟩
    obtain ⟨p', hn, hb⟩ := hb h0
    exact ⟨T, _, d, h1, hn, (hr d).2 rfl, (hb _ _).2 h4⟩

/-- A table of C++ types, and the type in it that a definition has too. -/
structure Twin (P : Prog) (D : AbiDef) (V : Table) (n : Bytes) (t : CTy) : Prop where
  wf : V.WF
  extTail : ExtTail V
  small : Small V
  distinct : DistinctFields V
  described : Described P V t
  found : ∀ {T : Table}, LoadedThen D T → ∃ (p : Ptr) (R : Ptr → Ptr → Prop), (lookupType n T).1 = .ok p ∧ (lookupType n T).2.WF ∧ (lookupType n T).2.Valid p ∧ R p (typeText t) ∧
    Matches (lookupType n T).2 V R

section
variable {P : Prog} {D : AbiDef} {V : Table} {n : Bytes} {t : CTy} (tw : Twin P D V n t)
include tw

theorem twin_binToJson {L : Leaves} {T : Table} (hT : LoadedThen D T) : ∃ p, (lookupType n T).1 = .ok p ∧
    ∀ bin r, BinToJson (lookupType n T).2 L p bin r ↔ BinToJson V L (typeText t) bin r := by
  obtain ⟨p, R, h1, w, v, hp, hm⟩ := tw.found hT
  have v' := described_valid tw.described
  exact ⟨p, h1, fun bin r => ⟨same_binToJson hm w tw.wf hp v v', same_binToJson (matches_flip hm) tw.wf w hp v' v⟩⟩

theorem twin_reorderable {L : Leaves} {T : Table} (hT : LoadedThen D T) : ∃ p, (lookupType n T).1 = .ok p ∧
    ∀ x r, JsonToBinReorderable (lookupType n T).2 L p x r ↔ JsonToBinReorderable V L (typeText t) x r := by
  obtain ⟨p, R, h1, w, v, hp, hm⟩ := tw.found hT
  have v' := described_valid tw.described
  exact ⟨p, h1, fun x r => ⟨same_reorderable hm w tw.wf hp v v', same_reorderable (matches_flip hm) tw.wf w hp v' v⟩⟩

theorem twin_jsonToBin {L : Leaves} {T : Table} (hT : LoadedThen D T) : ∃ p, (lookupType n T).1 = .ok p ∧
    ∀ x r, JsonToBin (lookupType n T).2 L p x r ↔ JsonToBin V L (typeText t) x r := by
  obtain ⟨p, R, h1, -, -, hp, hm⟩ := tw.found hT
  exact ⟨p, h1, fun x r => ⟨same_tokensToBin hm hp, same_tokensToBin (matches_flip hm) hp⟩⟩
end

section
variable {P : Prog} {D : AbiDef} {V : Table} {t : CTy} {h : List (Call × Ret)} {c : Ctx} (hc : Calls (libEnv F) (some Ctx.init) h (some c)) {k : Nat} {q : Call}
  (hf : FirstLoad (libEnv F) h k q D) {type : Option Bytes} (tw : Twin P D V (cstr type) t)
include hc hf tw

theorem twin_bin_to_json {data : Option Bytes} {c' : Option Ctx} {r : Ret} (hs : Step (libEnv F) (some c) (.binToJson k type data) (.done c' r)) (text : Bytes) :
    r = .str (some text) ↔ BinToJson V (builtins F) (typeText t) (data.getD []) (.ok (text, [])) := by
  have hd := decodes_of (F := F) hf.1.1.2 (data := data.getD []) (fun h0 => by
    obtain ⟨p, h1, h2⟩ := twin_binToJson tw (L := builtins F) h0
    exact ⟨p, h1, h2 (data.getD [])⟩)
  have hcut : ∀ {x : Bytes}, BinToJson V (builtins F) (typeText t) (data.getD []) (.ok (x, [])) → cut x = x := by
    intro x hx
    obtain ⟨v, hv⟩ := c53_written _ F tw.wf tw.extTail (described_valid tw.described) hx
    exact cut_isJson hv
  rw [c39_bin_to_json hc hf hs (some text)]
  constructor
  · rintro (⟨h1, -⟩ | ⟨t', h1, h2⟩)
    · cases h1
    · have h3 := (hd t').1 h2
      rw [hcut h3] at h1
      cases h1
      exact h3
  · intro h1
    exact .inr ⟨text, by rw [hcut h1], (hd text).2 h1⟩

theorem twin_reads (hx : NoExt P t) (hn : NoNumberVectors P t) {data : Option Bytes} (hl : (data.getD []).length < 2 ^ 32) {c' : Option Ctx} {r : Ret}
    (hs : Step (libEnv F) (some c) (.binToJson k type data) (.done c' r)) (text : Bytes) : r = .str (some text) ↔
      ∃ v, FromBin P t (data.getD []) v [] ∧ convertToJson P t v = .ok text ∧ Short v ∧ ∀ x, Shows P t v x → x.depth ≤ 128 := by
  rw [twin_bin_to_json hc hf tw hs]
  exact c58_bin_to_json tw.wf tw.extTail tw.small tw.described hx hn hl text []

theorem twin_written {v : SVal} {b text : Bytes} (hb : Stored P t v b) (ht : convertToJson P t v = .ok text) (hsh : Short v) (hdp : ∀ x, Shows P t v x → x.depth ≤ 128)
    {c' : Option Ctx} {r : Ret} (hs : Step (libEnv F) (some c) (.binToJson k type (some b)) (.done c' r)) : r = .str (some text) := by
  rw [twin_bin_to_json hc hf tw hs]
  have := c58_written_bin (F := F) tw.wf tw.extTail tw.small tw.described hb ht hsh hdp []
  rwa [List.append_nil] at this

theorem twin_json_to_bin_reorderable (hx : NoExt P t) (hm : MembersDiffer P t) {json : Option Bytes} {d : JVal} (hj : IsJson (cstr json) d) (hu : UniqueKeys d)
    (hl : levels d ≤ 128) {c' : Option Ctx} {r : Ret} (hs : Step (libEnv F) (some c) (.jsonToBinReorderable k type json) (.done c' r)) :
    (r = .bool true ↔ ∃ b v, FromJson P F t (cstr json) v ∧ convertToBinS P t v [] = .ok b ∧ Short v) ∧
    (r = .bool true → ∀ b, Step (libEnv F) c' .getBinData (.done c' (.data (some b))) ↔
      ∃ v, FromJson P F t (cstr json) v ∧ convertToBinS P t v [] = .ok b ∧ Short v) := by
  have e : ∀ b, Converts (libEnv F) JsonToBinReorderable D (cstr type) (cstr json) b ↔
      ∃ v, FromJson P F t (cstr json) v ∧ convertToBinS P t v [] = .ok b ∧ Short v := fun b => by
    rw [converts_of hf.1.1.2 (fun h0 => twin_reorderable tw h0) hj]
    exact c58_json_to_bin tw.wf tw.small tw.described hx hm hj hu hl b
  obtain ⟨h1, h2⟩ := c39_json_to_bin_reorderable hc hf hs
  exact ⟨h1.trans (exists_congr e), fun hr b => (h2 hr b).symm.trans (e b)⟩

theorem twin_json (hx : NoExt P t) (hm : MembersDiffer P t) (hu : NamesUtf8 P t) (hF : FloatBits F) {v : SVal} {b text : Bytes} (hcar : Carried P F t v)
    (hb : convertToBinS P t v [] = .ok b) (ht : convertToJson P t v = .ok text) (hsh : Short v) :
    ∃ d, IsJson text d ∧ (levels d ≤ 128 → ∀ {c' : Option Ctx} {r : Ret}, Step (libEnv F) (some c) (.jsonToBin k type (some text)) (.done c' r) →
      r = .bool true ∧ Step (libEnv F) c' .getBinData (.done c' (.data (some b)))) := by
  obtain ⟨d, h1, h2⟩ := c58_written_json_ordered tw.wf tw.extTail tw.distinct tw.small hF tw.described hx hm hu hcar hb ht hsh
  refine ⟨d, h1, fun hl c' r hs => ?_⟩
  have hj : IsJson (cstr (some text)) d := by
    have : cstr (some text) = text := cut_isJson h1
    rw [this]; exact h1
  have e := (converts_of (F := F) hf.1.1.2 (fun h0 => twin_jsonToBin tw h0) hj b).2 (h2 hl)
  obtain ⟨h3, h4⟩ := c39_json_to_bin hc hf hs
  have hr := h3.2 ⟨b, e⟩
  exact ⟨hr, (h4 hr b).1 e⟩

end

/-! ## a twin for every type that is made like a C++ type -/

/-- the builtin types -/
def leafTable : Table := Builtin.all.foldl (fun (T : Table) b => Table.emplace T b.typeName (.builtin b)) []

def leafEntry (e : Bytes × TData) : Bool := match e.2 with
  | .builtin k => k.typeName == e.1
  | _ => false

theorem leafTable_wf : leafTable.WF := Table.wf_of_wfB (by decide +kernel)

theorem leafTable_get {n : Bytes} {d : TData} (h : leafTable.get n = some d) : ∃ k, n = Builtin.typeName k ∧ d = .builtin k := by
  have : (leafTable.all leafEntry) = true := by decide +kernel
  have := List.all_eq_true.1 this _ (Table.get_mem h)
  unfold leafEntry at this
  simp only at this
  cases d with
  | builtin k => exact ⟨k, (eq_of_beq this).symm, rfl⟩
  | _ => exact nomatch this

theorem leafTable_has (k : Builtin) : leafTable.get k.typeName = some (.builtin k) := by cases k <;> decide +kernel

section
variable {P : Prog} {T V : Table} {R : Bytes → CTy → Prop}

/-- types of the table that are made like C++ types -/
def CppMatches (P : Prog) (T : Table) (R : Bytes → CTy → Prop) : Prop := ∀ p u, R p u → ∃ d, T.get p = some d ∧ MadeLike P R d u

theorem sameMembers_mem {fs : List Field} {ms : List (Bytes × CTy)} (h : SameMembers R fs ms) : ∀ m ∈ ms, ∃ f ∈ fs, R f.type m.2 := by
  induction h with
  | nil => simp
  | @cons f m fs ms h1 h2 _ ih =>
    intro x hx
    rcases List.mem_cons.1 hx with rfl | hx
    · exact ⟨f, by simp, h2⟩
    · obtain ⟨g, hg, h⟩ := ih x hx; exact ⟨g, by simp [hg], h⟩

/-- to every used type, there is one like it -/
theorem cpp_uses (hm : CppMatches P T R) {t u : CTy} (h : Uses P t u) : ∀ {p : Bytes}, R p t → ∃ q, R q u := by
  induction h with
  | self => exact fun h => ⟨_, h⟩
  | vec _ ih => intro p h; obtain ⟨d, -, h⟩ := hm p _ h; cases h with | array h => exact ih h
  | opt _ ih => intro p h; obtain ⟨d, -, h⟩ := hm p _ h; cases h with | optional h => exact ih h
  | ext _ ih => intro p h; obtain ⟨d, -, h⟩ := hm p _ h; cases h with | extension h => exact ih h
  | alt ha _ ih =>
    intro p h
    obtain ⟨d, -, h⟩ := hm p _ h
    cases h with
    | variant h =>
      obtain ⟨f, -, h⟩ := sameMembers_mem h (_, _) (List.mem_map.2 ⟨_, ha, rfl⟩)
      exact ih h
  | field hf _ ih =>
    intro p h
    obtain ⟨d, -, h⟩ := hm p _ h
    cases h with
    | struct h =>
      obtain ⟨f, -, h⟩ := sameMembers_mem h _ hf
      exact ih h

theorem cpp_nests (wf : T.WF) (hm : CppMatches P T R) {p : Bytes} {t : CTy} (h : R p t) : Nests t := by
  obtain ⟨d, h1, h2⟩ := hm p t h
  cases h2 with
  | builtin => simp [Nests]
  | struct => simp [Nests]
  | variant => simp [Nests]
  | @optional p' t' h' =>
    obtain ⟨e, g1, -, g3⟩ := wf _ _ h1
    obtain ⟨e', k1, k2⟩ := hm _ _ h'
    rw [g1] at k1; cases k1
    cases k2 <;> simp [Nests, TData.isWrapper] at g3 ⊢
  | @array p' t' h' =>
    obtain ⟨e, g1, -, g3⟩ := wf _ _ h1
    obtain ⟨e', k1, k2⟩ := hm _ _ h'
    rw [g1] at k1; cases k1
    cases k2 <;> simp [Nests, TData.isWrapper] at g3 ⊢
  | @extension p' t' h' =>
    obtain ⟨e, g1, -, g3⟩ := wf _ _ h1
    obtain ⟨e', k1, k2⟩ := hm _ _ h'
    rw [g1] at k1; cases k1
    cases k2 <;> simp [Nests, TData.isExt] at g3 ⊢

theorem sameMembers_fields {t : CTy} {fs : List Field} {ms : List (Bytes × CTy)} (h : SameMembers R fs ms) (hu : ∀ m ∈ ms, Uses P t m.2) :
    SameFields (fun p q => ∃ u, Uses P t u ∧ R p u ∧ q = typeText u) fs (ms.map fun m => ⟨m.1, typeText m.2⟩) := by
  induction h with
  | nil => exact .nil
  | @cons f m fs ms h1 h2 _ ih => exact .cons h1 ⟨m.2, hu m (by simp), h2, rfl⟩ (ih fun m' hm => hu m' (by simp [hm]))

theorem matches_cpp (hm : CppMatches P T R) {t : CTy} (hd : Described P V t) : Matches T V fun p q => ∃ u, Uses P t u ∧ R p u ∧ q = typeText u := by
  rintro p q ⟨u, hu, hr, rfl⟩
  obtain ⟨d, h1, h2⟩ := hm p u hr
  refine ⟨d, _, h1, hd u hu, ?_⟩
  cases h2 with
  | builtin => exact .builtin
  | optional h => exact .optional ⟨_, uses_trans hu (.opt .self), h, rfl⟩
  | extension h => exact .extension ⟨_, uses_trans hu (.ext .self), h, rfl⟩
  | array h => exact .array ⟨_, uses_trans hu (.vec .self), h, rfl⟩
  | struct h => exact .struct (sameMembers_fields h fun m hmm => uses_trans hu (.field (m := m.1) hmm .self))
  | variant h =>
    have := sameMembers_fields h (P := P) (t := t) (fun m hmm => by
      obtain ⟨x, hx, rfl⟩ := List.mem_map.1 hmm
      exact uses_trans hu (.alt hx .self))
    rw [List.map_map] at this
    exact .variant this

theorem sameMembers_valid {fs : List Field} {ms : List (Bytes × CTy)} (h : SameMembers R fs ms) (h1 : ∀ f ∈ fs, T.Valid f.type) :
    SameMembers (fun p u => R p u ∧ T.Valid p) fs ms := by
  induction h with
  | nil => exact .nil
  | cons e1 e2 _ ih => exact .cons e1 ⟨e2, h1 _ (by simp)⟩ (ih fun f hf => h1 f (by simp [hf]))

theorem cpp_valid {D : AbiDef} (h : LoadedThen D T) (hR : ∀ p u, R p u → ∃ d, Meaning D p d ∧ MadeLike P R d u) : CppMatches P T fun p u => R p u ∧ T.Valid p := by
  rintro p u ⟨h1, h2⟩
  obtain ⟨d, e1, e2⟩ := hR p u h1
  have g1 := get_of_meaning h h2 e1
  have w := (c26_resolved h).1
  refine ⟨d, g1, ?_⟩
  cases e2 with
  | builtin => exact .builtin
  | optional hr => exact .optional ⟨hr, (w.optional g1).1⟩
  | extension hr => exact .extension ⟨hr, (w.extension g1).1⟩
  | array hr => exact .array ⟨hr, (w.array g1).1⟩
  | struct hf => exact .struct (sameMembers_valid hf (w.struct g1))
  | variant hf => exact .variant (sameMembers_valid hf (w.variant g1))

end

/-- **the twin** -/
theorem twin_exists {P : Prog} {D : AbiDef} {n : Bytes} {t : CTy} (hD : ∃ T, LoadTypes D (.ok T)) (hl : LikeCpp D P n t) (hp : PlainType P t) : ∃ V, Twin P D V n t := by
  obtain ⟨R, ⟨p, h1, h2⟩, hR⟩ := hl
  have look : ∀ {T : Table}, LoadedThen D T → (lookupType n T).1 = .ok p ∧ (lookupType n T).2.WF ∧ (lookupType n T).2.Valid p ∧
      CppMatches P (lookupType n T).2 fun p u => R p u ∧ (lookupType n T).2.Valid p := by
    intro T hT
    have e := (c26_lookup hT n p).2 h1
    exact ⟨e, (c26_resolved (hT.lookup n)).1, c26_found hT e, cpp_valid (hT.lookup n) hR⟩
  have hag : Agrees P leafTable t := by
    intro u hu hs
    cases hg : leafTable.get (typeText u) with
    | none => exact absurd hg hs
    | some d =>
      obtain ⟨k, e, -⟩ := leafTable_get hg
      obtain rfl := hp.reserved u k hu e
      intro w hw
      cases hw
      exact leafTable_has k
  have hnest : ∀ u, Uses P t u → Nests u := by
    obtain ⟨T, hT⟩ := hD
    obtain ⟨-, w, v, hm⟩ := look (⟨T, [], hT, rfl⟩ : LoadedThen D T)
    intro u hu
    obtain ⟨q, hq⟩ := cpp_uses hm hu ⟨h2, v⟩
    exact cpp_nests w hm hq
  obtain ⟨V, a1, a2⟩ := c56_adds leafTable_wf hp.names hag (fun k _ => leafTable_has k) hnest
  have honly := (c56_only leafTable_wf hp.names hag a1).2.2.2
  have key : ∀ k fs, V.get k = some (.struct fs) → ∃ m, Uses P t (.struct m) ∧ fs = (P.fields m).map fun f => ⟨f.1, typeText f.2⟩ := by
    intro k fs hk
    rcases honly k _ hk with h | ⟨u, hu, -, h⟩
    · obtain ⟨b, -, e⟩ := leafTable_get h; cases e
    · cases u <;> cases h
      exact ⟨_, hu, rfl⟩
  refine ⟨V, ?_, ?_, ?_, ?_, a2, ?_⟩
  · exact c56_resolved leafTable_wf hp.names hag a1
  · intro k fs hk pre f post e hx
    exfalso
    obtain ⟨q, hq⟩ := hx
    rcases honly _ _ hq with h | ⟨u, hu, -, h⟩
    · obtain ⟨b, -, e⟩ := leafTable_get h; cases e
    · cases u <;> cases h
      exact hp.noExt _ hu
  · intro k fs hk
    obtain ⟨m, hm, rfl⟩ := key k fs hk
    rw [List.length_map]
    exact hp.size m hm
  · intro k fs hk
    obtain ⟨m, hm, rfl⟩ := key k fs hk
    rw [List.map_map]
    exact hp.members m hm
  · intro T hT
    obtain ⟨e, w, v, hm⟩ := look hT
    exact ⟨p, _, e, w, v, ⟨t, .self, ⟨h2, v⟩, rfl⟩, matches_cpp hm a2⟩

end Abieos
