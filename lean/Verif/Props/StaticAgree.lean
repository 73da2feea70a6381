import Verif.Proofs.StaticAgreeBin
/-!
# C58: C++ types and their descriptions in an ABI convert alike

A C++ program can convert values with the templates for its types (`from_json`, `convert_to_bin`, `from_bin`, `convert_to_json`), or, given an ABI
that describes the types, with `json_to_bin` and `bin_to_json`.
-/
namespace Abieos
open Spec

section
variable {P : Prog} {T : Table} {F : Floats}

/-- a type that is described is in the table -/
theorem described_valid {t : CTy} (h : Described P T t) : T.Valid (typeText t) := by
  refine ⟨_, h t .self, ?_⟩
  cases t <;> rfl

theorem convertToBinS_nil {t : CTy} {v : SVal} {b : Bytes} : convertToBinS P t v [] = .ok b ↔ binOf P t v = .ok b := by
  rw [convertToBinS_eq]
  cases binOf P t v <;> simp [Except.map]

theorem given_encodes {t : CTy} (hd : Described P T t) (hx : NoExt P t) (hm : MembersDiffer P t) {d : JVal} (hu : UniqueKeys d) (b : Bytes) :
    Encodes T (builtins F) (typeText t) d b ↔ ∃ v, Given P F t d v ∧ binOf P t v = .ok b ∧ Short v := by
  constructor
  · rintro ⟨n, h⟩; exact enc_given n true t d b hd hx hm hu h
  · rintro ⟨v, h1, h2, h3⟩
    obtain ⟨n, hn⟩ := given_enc hd hu h1 h2 h3
    exact ⟨n, hn true⟩

/-- **C58.** `json_to_bin_reorderable` of a text gives some bytes exactly if `from_json` reads a value from the text whose `convert_to_bin` gives
those bytes (and no vector in it has 2^31 elements or more). -/
theorem c58_json_to_bin (wf : T.WF) (hsm : Small T) {t : CTy} (hd : Described P T t) (hx : NoExt P t) (hm : MembersDiffer P t) {text : Bytes} {d : JVal}
    (hj : IsJson text d) (hu : UniqueKeys d) (hl : levels d ≤ 128) (b : Bytes) :
    JsonToBinReorderable T (builtins F) (typeText t) d (.ok b) ↔ ∃ v, FromJson P F t text v ∧ convertToBinS P t v [] = .ok b ∧ Short v := by
  rw [c36_reorderable_is_encoding wf hsm (described_valid hd), given_encodes hd hx hm hu]
  constructor
  · rintro ⟨-, v, h1, h2, h3⟩
    exact ⟨v, (c55_reads_document P F t hu hj v).2 h1, convertToBinS_nil.2 h2, h3⟩
  · rintro ⟨v, h1, h2, h3⟩
    exact ⟨hl, v, (c55_reads_document P F t hu hj v).1 h1, convertToBinS_nil.1 h2, h3⟩

/-- **C58.** The same for `json_to_bin`, if the members of objects are in the order of the fields, and none are unknown. -/
theorem c58_json_to_bin_ordered (wf : T.WF) (hxt : ExtTail T) (hdf : DistinctFields T) (hsm : Small T) {t : CTy} (hd : Described P T t) (hx : NoExt P t)
    (hm : MembersDiffer P t) {text : Bytes} {d : JVal} (hj : IsJson text d) (hu : UniqueKeys d) (hl : levels d ≤ 128) (ho : InOrder T (typeText t) d) (b : Bytes) :
    JsonToBin T (builtins F) (typeText t) d (.ok b) ↔ ∃ v, FromJson P F t text v ∧ convertToBinS P t v [] = .ok b ∧ Short v := by
  rw [← c58_json_to_bin wf hsm hd hx hm hj hu hl, c36_ordered_is_encoding wf hxt hdf hsm (described_valid hd), c36_reorderable_is_encoding wf hsm (described_valid hd)]
  have := openDepth_le_levels d
  exact ⟨fun h => ⟨hl, h.2.2⟩, fun h => ⟨Nat.le_trans this hl, ho, h.2⟩⟩

/-- **C58.** `bin_to_json` of an input gives some text exactly if `from_bin` reads a value from the input, `convert_to_json` gives that text for the
value, and the value is within the limits of `bin_to_json`. They leave the same rest of the input. -/
theorem c58_bin_to_json (wf : T.WF) (hxt : ExtTail T) (hsm : Small T) {t : CTy} (hd : Described P T t) (hx : NoExt P t) (hn : NoNumberVectors P t) {bin : Bytes}
    (hl : bin.length < 2 ^ 32) (text rest : Bytes) :
    BinToJson T (builtins F) (typeText t) bin (.ok (text, rest)) ↔
      ∃ v, FromBin P t bin v rest ∧ convertToJson P t v = .ok text ∧ Short v ∧ ∀ x, Shows P t v x → x.depth ≤ 128 := by
  rw [c33_bin_to_json_exact wf hxt hsm (described_valid hd)]
  constructor
  · rintro ⟨k, hk, n, h⟩
    obtain ⟨v, x, h1, h2, rfl, rfl, h5⟩ := dec_show n t true bin text rest k hd hx hn hl h
    refine ⟨v, ⟨n, h1⟩, c54_compact h2, h5, fun y hy => ?_⟩
    have e := shows_treeOf h2
    rw [shows_treeOf hy] at e
    injection e with e
    subst e; exact hk
  · rintro ⟨v, ⟨n, h1⟩, h2, h3, h4⟩
    obtain ⟨x, hx', rfl⟩ := c54_only.1 h2
    exact ⟨x.depth, h4 x hx', n, show_dec n t true bin v rest x hd hx hn hl h1 hx' h3⟩

/-- **C58.** What `convert_to_bin` writes, `bin_to_json` gives as `convert_to_json` does, whatever follows; also for vectors of numbers. -/
theorem c58_written_bin (wf : T.WF) (hxt : ExtTail T) (hsm : Small T) {t : CTy} (hd : Described P T t) {v : SVal} {b text : Bytes} (hb : Stored P t v b)
    (ht : convertToJson P t v = .ok text) (hs : Short v) (hdp : ∀ x, Shows P t v x → x.depth ≤ 128) (rest : Bytes) :
    BinToJson T (builtins F) (typeText t) (b ++ rest) (.ok (text, rest)) := by
  obtain ⟨x, hx, rfl⟩ := c54_only.1 ht
  obtain ⟨n, hn⟩ := stored_dec (F := F) hb hd hx hs
  exact (c33_bin_to_json_exact wf hxt hsm (described_valid hd) _ _ _).2 ⟨x.depth, hdp x hx, n, hn n (Nat.le_refl n) true rest⟩

/-- **C58.** What `convert_to_json` writes, `json_to_bin_reorderable` gives as `convert_to_bin` does, for values that JSON can carry. -/
theorem c58_written_json (wf : T.WF) (hsm : Small T) (hF : FloatBits F) {t : CTy} (hd : Described P T t) (hx : NoExt P t) (hm : MembersDiffer P t) {v : SVal} {b text : Bytes}
    (hc : Carried P F t v) (hb : convertToBinS P t v [] = .ok b) (ht : convertToJson P t v = .ok text) (hs : Short v) :
    ∃ d, IsJson text d ∧ (levels d ≤ 128 → JsonToBinReorderable T (builtins F) (typeText t) d (.ok b)) := by
  obtain ⟨x, d, h1, h2, h3, h4, -⟩ := carried_doc hF hc
  rw [c54_compact h1] at ht
  injection ht with ht
  have hj : IsJson text d := by
    rw [← ht, ← emit_compact x 0]; exact emit_isDoc plain_ws x d 0 h2
  exact ⟨d, hj, fun hl => (c58_json_to_bin wf hsm hd hx hm hj h3 hl b).2 ⟨v, (c55_reads_document P F t h3 hj v).2 h4, hb, hs⟩⟩

/-! ## and it needs no reordering -/

theorem stringText_unique {k a b : Bytes} (h : StringText k a) (h' : StringText k b) : a = b := by
  have := c53_unambiguous (isJson_of_text (.string h)) (isJson_of_text (.string h'))
  injection this

theorem isDocs_mem {Q : JVal → Prop} {t : CTy} : ∀ {l : List SVal} {x : List Tree} {ds : List JVal}, ShowsAll P t l x → IsDocs x ds →
    (∀ v y d, Shows P t v y → IsDoc y d → Q d) → ∀ d ∈ ds, Q d
  | [], _, _, .nil, hd, _, d, hm => by cases hd; simp at hm
  | v :: l, _, _, .cons h1 h2, hd, hq, d, hm => by
    cases hd with
    | cons d1 d2 =>
    rcases List.mem_cons.1 hm with rfl | hm
    · exact hq _ _ _ h1 d1
    · exact isDocs_mem h2 d2 hq d hm

theorem isMembers_mem {Q : CTy → JVal → Prop} : ∀ {fs : List (Bytes × CTy)} {l : List SVal} {x : List (Bytes × Tree)} {ms : List (Bytes × JVal)}, ShowsFields P fs l x → IsMembers x ms →
    (∀ f ∈ fs, IsUtf8Text f.1) → (∀ f ∈ fs, ∀ v y d, Shows P f.2 v y → IsDoc y d → Q f.2 d) →
    ms.map Prod.fst = fs.map Prod.fst ∧ ∀ (i : Nat) (f : Bytes × CTy) (m : Bytes × JVal), fs[i]? = some f → ms[i]? = some m → Q f.2 m.2
  | [], _, _, _, .nil, hd, _, _ => by cases hd; simp
  | (n, t) :: fs, v :: l, _, _, .cons h1 h2, hd, hu, hq => by
    cases hd with
    | @cons _ k _ d _ ms d0 d1 d2 =>
    obtain ⟨e1, e2⟩ := isMembers_mem h2 d2 (fun f hf => hu f (by simp [hf])) (fun f hf => hq f (by simp [hf]))
    have e : k = n := stringText_unique d0 (c53_string n (hu (n, t) (by simp)))
    subst e
    refine ⟨by simp [e1], ?_⟩
    intro i f m f1 f2
    cases i with
    | zero =>
      simp only [List.getElem?_cons_zero, Option.some.injEq] at f1 f2
      subst f1 f2
      exact hq (k, t) (by simp) _ _ _ h1 d1
    | succ i => exact e2 i f m (by simpa using f1) (by simpa using f2)

/-- The names of the fields that a type uses, and the names of the alternatives, are UTF-8. -/
def NamesUtf8 (P : Prog) (t : CTy) : Prop := (∀ n, Uses P t (.struct n) → ∀ f ∈ P.fields n, IsUtf8Text f.1) ∧ (∀ ts, Uses P t (.variant ts) → ∀ u ∈ ts, IsUtf8Text (typeText u))

theorem shows_inOrderTo : ∀ (n : Nat) (t : CTy) (v : SVal) (x : Tree) (d : JVal), Described P T t → MembersDiffer P t → NamesUtf8 P t → Shows P t v x → IsDoc x d →
    InOrderTo T n (typeText t) d
  | 0, _, _, _, _, _, _, _, _, _ => trivial
  | n + 1, t, v, x, d, hd, hm, hu, hs, hx => by
    unfold InOrderTo
    rw [hd t .self]
    cases hs with
    | leaf h => trivial
    | absent =>
      rename_i t
      cases hx with
      | atom hx =>
      have e := c53_unambiguous hx (isJson_of_text .null)
      subst e
      show InOrderTo T n (typeText t) .null
      cases n with
      | zero => trivial
      | succ n =>
        have : ∀ (n : Nat) (p : Ptr), InOrderTo T n p .null := by
          intro n
          induction n with
          | zero => intro p; trivial
          | succ n ih =>
            intro p
            unfold InOrderTo
            split <;> first | trivial | exact ih _ | (rename_i h; cases h)
        exact this (n + 1) _
    | present h => exact shows_inOrderTo n _ _ x d (described_sub hd fun _ => .opt) (fun k hk => hm k (.opt hk)) ⟨fun k hk => hu.1 k (.opt hk), fun k hk => hu.2 k (.opt hk)⟩ h hx
    | @vec t l y h =>
      cases hx with
      | arr hx =>
      exact isDocs_mem h hx fun v y d h1 h2 => shows_inOrderTo n t v y d (described_sub hd fun _ => .vec) (fun k hk => hm k (.vec hk)) ⟨fun k hk => hu.1 k (.vec hk), fun k hk => hu.2 k (.vec hk)⟩ h1 h2
    | @alt ts i t v y hi h =>
      cases hx with
      | arr hx =>
      cases hx with
      | @cons _ e _ _ x1 x2 =>
      cases x2 with
      | @cons _ d _ _ x2 x3 =>
      cases x3
      cases x1 with
      | atom x1 =>
      have hmem := List.mem_of_getElem? hi
      rw [name_eq] at x1
      have e' := c53_unambiguous x1 (isJson_of_text (.string (c53_string _ (hu.2 ts .self t hmem))))
      subst e'
      show ∀ j f, findAlt (typeText t) (ts.map fun t => ⟨typeText t, typeText t⟩) 0 = some (j, f) → InOrderTo T n f.type d
      intro j f hf
      obtain ⟨-, h1, h2⟩ := findAlt_spec hf
      rw [List.getElem?_map, Option.map_eq_some_iff] at h1
      obtain ⟨w, h3, rfl⟩ := h1
      simp only at h2 ⊢
      rw [h2]
      exact shows_inOrderTo n t v y d (described_sub hd fun _ => .alt hmem) (fun k hk => hm k (.alt hmem hk)) ⟨fun k hk => hu.1 k (.alt hmem hk), fun k hk => hu.2 k (.alt hmem hk)⟩ h x2
    | @struct m l y h =>
      cases hx with
      | @obj _ ms hx =>
      obtain ⟨h1, h2⟩ := isMembers_mem (Q := fun t d => InOrderTo T n (typeText t) d) h hx (hu.1 m .self) (fun f hf v y d h1 h2 =>
        shows_inOrderTo n f.2 v y d (described_sub hd fun _ hw => .field (m := f.1) hf hw) (fun k hk => hm k (.field (m := f.1) hf hk))
          ⟨fun k hk => hu.1 k (.field (m := f.1) hf hk), fun k hk => hu.2 k (.field (m := f.1) hf hk)⟩ h1 h2)
      have hnd := hm m .self
      refine ⟨?_, ?_⟩
      · show (ms.map Prod.fst).Sublist (((P.fields m).map fun f => (⟨f.1, typeText f.2⟩ : Field)).map (·.name))
        rw [h1, List.map_map]
        exact List.Sublist.refl _
      · intro g hg z hz
        obtain ⟨f, hf, rfl⟩ := List.mem_map.1 hg
        simp only at hz ⊢
        obtain ⟨i, hi⟩ := List.getElem?_of_mem hf
        obtain ⟨j, hj⟩ := List.getElem?_of_mem hz
        have hlt : i < ((P.fields m).map Prod.fst).length := by
          rcases Nat.lt_or_ge i (P.fields m).length with h' | h'
          · simpa using h'
          · rw [List.getElem?_eq_none h'] at hi; cases hi
        have e1 : (ms.map Prod.fst)[j]? = some f.1 := by rw [List.getElem?_map, hj]; rfl
        have e2 : ((P.fields m).map Prod.fst)[i]? = some f.1 := by rw [List.getElem?_map, hi]; rfl
        rw [h1, ← e2] at e1
        have : i = j := (List.getElem?_inj hlt hnd).1 e1.symm
        subst this
        exact h2 i f (f.1, z) hi hj

/-- **C58.** And so does `json_to_bin`, as the members are written in the order of the fields. -/
theorem c58_written_json_ordered (wf : T.WF) (hxt : ExtTail T) (hdf : DistinctFields T) (hsm : Small T) (hF : FloatBits F) {t : CTy} (hd : Described P T t) (hx : NoExt P t)
    (hm : MembersDiffer P t) (hu : NamesUtf8 P t) {v : SVal} {b text : Bytes} (hc : Carried P F t v) (hb : convertToBinS P t v [] = .ok b) (ht : convertToJson P t v = .ok text)
    (hs : Short v) : ∃ d, IsJson text d ∧ (levels d ≤ 128 → JsonToBin T (builtins F) (typeText t) d (.ok b)) := by
  obtain ⟨d, h1, h2⟩ := c58_written_json wf hsm hF hd hx hm hc hb ht hs
  refine ⟨d, h1, fun hl => c29_reorderable_to_ordered wf hxt hdf hsm (described_valid hd) d b ?_ (h2 hl)⟩
  intro n
  obtain ⟨s, y, e, -, h3, h4, h5, -⟩ := c54_same_document ht
  rw [c53_unambiguous h1 h5]
  exact shows_inOrderTo n t v y e hd hm hu h3 h4

end

/-! ## examples -/

namespace StaticAgreeExample
open StaticJsonExample

theorem get_mem : ∀ {T : Table} {k : Bytes} {d : TData}, T.get k = some d → (k, d) ∈ T
  | [], k, d, h => by simp [Table.get] at h
  | (k', d') :: T, k, d, h => by
    rw [Table.get_cons] at h
    split at h
    · rename_i e; cases h; simp [e]
    · exact List.mem_cons_of_mem _ (get_mem h)

/-- the fields of `extended_asset` -/
def extendedAsset : List Field := [⟨str "quantity", str "asset"⟩, ⟨str "contract", str "name"⟩]

def knownStruct : TData → Bool
  | .struct fs => fs == extendedAsset
  | _ => true

theorem builtin_struct {k : Bytes} {fs : List Field} (h : builtinTable.get k = some (.struct fs)) : fs = extendedAsset := by
  have : ∀ e ∈ builtinTable, knownStruct e.2 = true := by decide +kernel
  have := this (k, .struct fs) (get_mem h)
  simpa [knownStruct] using this

/-- a table with the struct of the examples, and all that the theorems ask of it -/
theorem node_table : ∃ T, T.WF ∧ ExtTail T ∧ DistinctFields T ∧ Small T ∧ Described prog T (.struct (str "node")) := by
  open AddTypeExample in
  obtain ⟨T, h1, h2⟩ := c56_adds builtin_wf names agrees (fun k hk => by
      have := uses_types hk
      simp only [types, List.mem_cons, CTy.leaf.injEq, reduceCtorEq, List.not_mem_nil, or_false, false_or] at this
      rcases this with rfl | rfl | rfl <;> decide +kernel) (fun u hu => by
      have := uses_types hu
      simp only [types, List.mem_cons, List.not_mem_nil, or_false] at this
      rcases this with rfl | rfl | rfl | rfl | rfl | rfl | rfl <;> simp [Nests])
  have key : ∀ k fs, T.get k = some (.struct fs) → fs = extendedAsset ∨ fs = (prog.fields (str "node")).map fun f => ⟨f.1, typeText f.2⟩ := by
    intro k fs h
    rcases (c56_only builtin_wf names agrees h1).2.2.2 k _ h with h | ⟨u, hu, -, h⟩
    · exact .inl (builtin_struct h)
    · have := uses_types hu
      simp only [types, List.mem_cons, List.not_mem_nil, or_false] at this
      rcases this with rfl | rfl | rfl | rfl | rfl | rfl | rfl <;> cases h
      exact .inr rfl
  have hnx : ∀ k fs, T.get k = some (.struct fs) → ∀ f ∈ fs, ¬ IsExt T f.type := by
    intro k fs h f hf hx
    rcases key k fs h with rfl | rfl
    · obtain ⟨q, hq⟩ := hx
      simp only [extendedAsset, List.mem_cons, List.not_mem_nil, or_false] at hf
      have hk := c56_keeps h1
      rcases hf with rfl | rfl
      · rw [hk (str "asset") (.builtin .asset) (by decide +kernel)] at hq; cases hq
      · rw [hk (str "name") (.builtin .name) (by decide +kernel)] at hq; cases hq
    · obtain ⟨g, hg, rfl⟩ := List.mem_map.1 hf
      obtain ⟨u, hu⟩ := isExt_shape (described_sub h2 fun _ hw => .field (m := g.1) hg hw) hx
      exact StaticValueExample.noExt u (.field (m := g.1) hg (hu ▸ .self))
  refine ⟨T, c56_resolved builtin_wf names agrees h1, ?_, ?_, ?_, h2⟩
  · intro k fs h pre f post e hx
    exact (hnx k fs h f (by rw [e]; simp) hx).elim
  · intro k fs h
    rcases key k fs h with rfl | rfl <;> decide +kernel
  · intro k fs h
    rcases key k fs h with rfl | rfl <;> decide +kernel

theorem node_differ : MembersDiffer prog (.struct (str "node")) := by
  intro n hn
  have := AddTypeExample.uses_types hn
  simp only [AddTypeExample.types, List.mem_cons, CTy.struct.injEq, reduceCtorEq, List.not_mem_nil, or_false] at this
  subst this
  decide +kernel

theorem node_utf8 : NamesUtf8 prog (.struct (str "node")) := by
  refine ⟨fun n hn => ?_, fun ts ht => ?_⟩
  · have := AddTypeExample.uses_types hn
    simp only [AddTypeExample.types, List.mem_cons, CTy.struct.injEq, reduceCtorEq, List.not_mem_nil, or_false] at this
    subst this
    exact utf8_tag
  · have := AddTypeExample.uses_types ht
    simp only [AddTypeExample.types, List.mem_cons, CTy.variant.injEq, reduceCtorEq, List.not_mem_nil, or_false, false_or] at this
    subst this
    intro u hu
    simp only [List.mem_cons, List.not_mem_nil, or_false] at hu
    rcases hu with rfl | rfl <;> exact (utf8_iff _).1 (utf8_ascii (by decide +kernel))

theorem node_noNumberVectors : NoNumberVectors prog (.struct (str "node")) := by
  intro k hk
  have := AddTypeExample.uses_types hk
  simp [AddTypeExample.types] at this

theorem outer_short : Short outer := by
  simp [outer, inner, Short, ShortAll]

/-- the hypotheses of all the theorems are met by a recursive struct and a value with an optional, a vector and a variant -/
example {F : Floats} (hF : FloatBits F) : ∃ T text b, Described prog T (.struct (str "node")) ∧ convertToJson prog (.struct (str "node")) outer = .ok text ∧
    convertToBinS prog (.struct (str "node")) outer [] = .ok b ∧ BinToJson T (builtins F) (str "node") b (.ok (text, [])) ∧
    ∃ d, IsJson text d ∧ JsonToBin T (builtins F) (str "node") d (.ok b) := by
  obtain ⟨T, wf, h1, h2, h3, hd⟩ := node_table
  obtain ⟨x, d, k1, -⟩ := carried_doc hF (carried_outer F)
  have hb := c57_written StaticValueExample.stored_outer []
  rw [List.nil_append] at hb
  have hc := c54_compact k1
  have hdp : ∀ y, Shows prog (.struct (str "node")) outer y → y.depth ≤ 128 := by
    intro y hy
    have e := shows_treeOf hy
    have : (match treeOf prog (.struct (str "node")) outer with | .ok z => decide (z.depth ≤ 128) | .error _ => false) = true := by decide +kernel
    rw [e] at this
    simpa using this
  have hw := c58_written_bin (F := F) wf h1 h3 hd StaticValueExample.stored_outer hc outer_short hdp []
  rw [List.append_nil] at hw
  obtain ⟨e, e1, e2⟩ := c58_written_json_ordered wf h1 h2 h3 hF hd StaticValueExample.noExt node_differ node_utf8 (carried_outer F) hb hc outer_short
  refine ⟨T, _, _, hd, hc, hb, hw, e, e1, e2 ?_⟩
  have hl : (match treeOf prog (.struct (str "node")) outer with
    | .ok z => (match Reader.read (compact z) with | some v => decide (levels v ≤ 128) | none => false)
    | .error _ => false) = true := by decide +kernel
  rw [shows_treeOf k1] at hl
  simp only [c53_reads e1] at hl
  simpa using hl

/-- The restriction on vectors of numbers is needed: their number of elements is read with up to ten bytes in C++, but with up to five, of which only 32
bits count, by `bin_to_json`. Five bytes that mean 2^32 in C++ are taken for 0. -/
example (v : SVal) (r : Bytes) : ¬ FromBin [] (.vec (.leaf .uint8)) [0x80, 0x80, 0x80, 0x80, 0x10] v r := by
  rintro ⟨n, h⟩
  match n with
  | 0 => simp [fromBinS] at h
  | n + 1 =>
    rw [fromBinS] at h
    simp only [CTy.bitwise] at h
    rw [show varuint64FromBin [0x80, 0x80, 0x80, 0x80, 0x10] = .ok (4294967296, []) by decide +kernel, bind_ok] at h
    simp [check, bind, Except.bind] at h

example : varuint32FromBin [0x80, 0x80, 0x80, 0x80, 0x10] = .ok (0, []) := by decide +kernel

/-- and six bytes are refused by `bin_to_json` -/
example : FromBin [] (.vec (.leaf .uint8)) [0x81, 0x80, 0x80, 0x80, 0x80, 0x00, 7] (.vec [.leaf [7]]) [] := by
  refine ⟨1, ?_⟩
  rw [fromBinS]
  simp only [CTy.bitwise]
  rw [show varuint64FromBin [0x81, 0x80, 0x80, 0x80, 0x80, 0x00, 7] = .ok (1, [7]) by decide +kernel, bind_ok]
  rfl

example (r : Nat × Bytes) : varuint32FromBin [0x81, 0x80, 0x80, 0x80, 0x80, 0x00, 7] ≠ .ok r := by
  have : (match varuint32FromBin [0x81, 0x80, 0x80, 0x80, 0x80, 0x00, 7] with | .ok _ => false | .error _ => true) = true := by decide +kernel
  intro h; rw [h] at this; cases this

end StaticAgreeExample

end Abieos
