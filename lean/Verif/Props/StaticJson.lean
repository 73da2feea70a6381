import Verif.Proofs.StaticJson
import Verif.Props.JsonGrammar
/-!
# C54: the JSON of C++ values
-/
namespace Abieos
open Spec

/-! ## layouts -/

theorem joinWith_cons (sep t : Bytes) (r : List Bytes) (h : r ≠ []) : joinWith sep (t :: r) = t ++ (sep ++ joinWith sep r) := by
  cases r with
  | nil => exact absurd rfl h
  | cons => simp [joinWith]

mutual
theorem emit_compact : ∀ (x : Tree) (d : Nat), emit plainStyle d x = compact x
  | .atom t, d => by simp only [emit, compact]
  | .arr l, d => by
    have h := emitElems_compact l d
    simp only [emit, compact, plainStyle] at h ⊢
    cases l with
    | nil => simp [emitElems, compact.go, joinWith]
    | cons x l => rw [h true (by simp)]; simp
  | .obj l, d => by
    have h := emitMembers_compact l d
    simp only [emit, compact, plainStyle] at h ⊢
    cases l with
    | nil => simp [emitMembers, compact.goM, joinWith]
    | cons x l => rw [h true (by simp)]; simp

theorem emitElems_compact : ∀ (l : List Tree) (d : Nat) (first : Bool), l ≠ [] →
    emitElems plainStyle d first l = (if first then [] else str ",") ++ joinWith (str ",") (compact.go l)
  | [], _, _, h => absurd rfl h
  | x :: l, d, first, _ => by
    simp only [emitElems, compact.go]
    rw [emit_compact x (d + 1)]
    cases l with
    | nil => simp [emitElems, compact.go, joinWith, plainStyle]
    | cons y l =>
      rw [emitElems_compact (y :: l) d false (by simp), joinWith_cons _ _ _ (by simp [compact.go])]
      simp [plainStyle]

theorem emitMembers_compact : ∀ (l : List (Bytes × Tree)) (d : Nat) (first : Bool), l ≠ [] →
    emitMembers plainStyle d first l = (if first then [] else str ",") ++ joinWith (str ",") (compact.goM l)
  | [], _, _, h => absurd rfl h
  | (k, x) :: l, d, first, _ => by
    simp only [emitMembers, compact.goM]
    rw [emit_compact x (d + 1)]
    cases l with
    | nil => simp [emitMembers, compact.goM, joinWith, plainStyle]
    | cons y l =>
      rw [emitMembers_compact (y :: l) d false (by simp), joinWith_cons _ _ _ (by simp [compact.goM])]
      simp [plainStyle]
end

mutual
theorem emit_indented : ∀ (x : Tree) (d : Nat), emit prettyStyle d x = indented d x
  | .atom t, d => by simp only [emit, indented]
  | .arr l, d => by
    have h := emitElems_indented l d
    cases l with
    | nil => simp [emit, emitElems, indented, str]
    | cons x l => simp only [emit, indented]; rw [h true (by simp)]; simp [prettyStyle]
  | .obj l, d => by
    have h := emitMembers_indented l d
    cases l with
    | nil => simp [emit, emitMembers, indented, str]
    | cons x l => simp only [emit, indented]; rw [h true (by simp)]; simp [prettyStyle]

theorem emitElems_indented : ∀ (l : List Tree) (d : Nat) (first : Bool), l ≠ [] →
    emitElems prettyStyle d first l = (if first then [] else str ",") ++ (line (d + 1) ++ joinWith (str "," ++ line (d + 1)) (indented.go (d + 1) l))
  | [], _, _, h => absurd rfl h
  | x :: l, d, first, _ => by
    simp only [emitElems, indented.go]
    rw [emit_indented x (d + 1)]
    cases l with
    | nil => simp [emitElems, indented.go, joinWith, prettyStyle]
    | cons y l =>
      rw [emitElems_indented (y :: l) d false (by simp), joinWith_cons _ _ _ (by simp [indented.go])]
      simp [prettyStyle]

theorem emitMembers_indented : ∀ (l : List (Bytes × Tree)) (d : Nat) (first : Bool), l ≠ [] →
    emitMembers prettyStyle d first l = (if first then [] else str ",") ++ (line (d + 1) ++ joinWith (str "," ++ line (d + 1)) (indented.goM (d + 1) l))
  | [], _, _, h => absurd rfl h
  | (k, x) :: l, d, first, _ => by
    simp only [emitMembers, indented.goM]
    rw [emit_indented x (d + 1)]
    cases l with
    | nil => simp [emitMembers, indented.goM, joinWith, prettyStyle]
    | cons y l =>
      rw [emitMembers_indented (y :: l) d false (by simp), joinWith_cons _ _ _ (by simp [indented.goM])]
      simp [prettyStyle]
end

/-! ## both passes -/

theorem twoPass {P : Prog} {t : CTy} {v : SVal} {y : Style} {σ τ : Type} {S : JStream σ} {S' : JStream τ} {s0 : σ} {s0' : Nat → τ} {size : σ → Nat} {buf : τ → FixedBuf}
    {Has : Nat → Bytes → σ → Prop} {Has' : Nat → Nat → Bytes → τ → Prop} (law : Law S y (fun _ => True) Has)
    (law' : ∀ N, Law S' y (fun b => b.length ≤ N) (Has' N)) (h0 : Has 0 [] s0) (h0' : ∀ N, Has' N 0 [] (s0' N))
    (hs : ∀ b s, Has 0 b s → size s = b.length) (hs' : ∀ N b s, Has' N 0 b s → HasBuf N b (buf s)) :
    (do
      let n ← toJsonG P S t v s0
      let b ← toJsonG P S' t v (s0' (size n))
      check ((buf b).room = 0) .underrun
      .ok (buf b).written) = (treeOf P t v).map (emit y 0) := by
  cases h : treeOf P t v with
  | error e => rw [emit_err law (fun _ => trivial) v t e 0 [] s0 h h0]; rfl
  | ok x =>
    obtain ⟨s1, e1, k1⟩ := emit_ok law v t x 0 [] s0 h h0 trivial
    have hn := hs _ _ k1
    rw [List.nil_append] at hn
    obtain ⟨s2, e2, k2⟩ := emit_ok (law' (size s1)) v t x 0 [] (s0' (size s1)) h (h0' _) (by rw [List.nil_append, hn])
    obtain ⟨w, r⟩ := hs' _ _ _ k2
    rw [List.nil_append] at w r
    rw [e1, bind_ok, e2, bind_ok, show decide ((buf s2).room = 0) = true by simp; omega, check_true, bind_ok, w]
    rfl

theorem convertToJson_eq (P : Prog) (t : CTy) (v : SVal) : convertToJson P t v = (treeOf P t v).map compact := by
  have h := twoPass (P := P) (t := t) (v := v) (S := plainStream sizeWrite) (S' := plainStream fixedWrite) (size := id) (buf := id) (s0 := 0)
    (s0' := fun n => ⟨[], n⟩) (law_plain (Fits := fun _ => True) (Has := HasSize) (fun _ => trivial) (fun h _ => size_has h))
    (fun N => law_plain (Fits := fun b => b.length ≤ N) (Has := HasBuf N) (fun h => by rw [List.length_append] at h; omega) buf_has)
    rfl (fun N => ⟨rfl, rfl⟩) (fun _ _ h => h) (fun _ _ _ h => h)
  unfold convertToJson
  simp only [id] at h
  rw [h]
  cases treeOf P t v with
  | error => rfl
  | ok x => simp only [Except.map, emit_compact]

theorem formatJson_eq (P : Prog) (t : CTy) (v : SVal) : formatJson P t v = (treeOf P t v).map (indented 0) := by
  have h := twoPass (P := P) (t := t) (v := v) (S := prettyStream sizeWrite) (S' := prettyStream fixedWrite) (size := Prod.fst) (buf := Prod.fst) (s0 := (0, []))
    (s0' := fun n => (⟨[], n⟩, [])) (law_pretty (Fits := fun _ => True) (Has := HasSize) (fun _ => trivial) (fun h _ => size_has h))
    (fun N => law_pretty (Fits := fun b => b.length ≤ N) (Has := HasBuf N) (fun h => by rw [List.length_append] at h; omega) buf_has)
    ⟨rfl, rfl⟩ (fun N => ⟨⟨rfl, rfl⟩, rfl⟩) (fun _ _ h => h.1) (fun _ _ _ h => h.1)
  unfold formatJson
  rw [h]
  cases treeOf P t v with
  | error => rfl
  | ok x => simp only [Except.map, emit_indented]

/-! ## both layouts are JSON texts of the document -/

theorem isWs_append {a b : Bytes} (ha : IsWs a) (hb : IsWs b) : IsWs (a ++ b) := by
  intro c hc
  rcases List.mem_append.1 hc with h | h
  · exact ha c h
  · exact hb c h

theorem isWs_nil : IsWs [] := by simp [IsWs]

theorem isJson_of_text {u : Bytes} {v : JVal} (h : JsonText u v) : IsJson u v := ⟨[], u, [], by simp, isWs_nil, h, isWs_nil⟩

/-- new lines are white space, and so is what follows the colon -/
def Style.Ws (y : Style) : Prop := (∀ d, IsWs (y.nl d)) ∧ ∃ w, IsWs w ∧ y.col = 58 :: w

mutual
theorem emit_isDoc {y : Style} (hy : y.Ws) : ∀ (x : Tree) (v : JVal) (d : Nat), IsDoc x v → IsJson (emit y d x) v
  | .atom t, v, d, h => by cases h with | atom h => simpa only [emit] using h
  | .arr l, v, d, h => by
    cases h with
    | @arr _ m h =>
    simp only [emit]
    apply isJson_of_text
    cases h with
    | nil => exact .emptyArray (w := []) isWs_nil
    | cons h1 h2 =>
      obtain ⟨e, e1, e2⟩ := emitElems_isDoc hy _ _ d true (y.nl d) (hy.1 d) (.cons h1 h2) (by simp)
      simp only [List.isEmpty_cons, Bool.false_eq_true, ↓reduceIte]
      rw [← List.append_assoc (emitElems y d true _), e1]
      exact .array e2
  | .obj l, v, d, h => by
    cases h with
    | @obj _ m h =>
    simp only [emit]
    apply isJson_of_text
    cases h with
    | nil => exact .emptyObject (w := []) isWs_nil
    | cons h0 h1 h2 =>
      obtain ⟨e, e1, e2⟩ := emitMembers_isDoc hy _ _ d true (y.nl d) (hy.1 d) (.cons h0 h1 h2) (by simp)
      simp only [List.isEmpty_cons, Bool.false_eq_true, ↓reduceIte]
      rw [← List.append_assoc (emitMembers y d true _), e1]
      exact .object e2

theorem emitElems_isDoc {y : Style} (hy : y.Ws) : ∀ (x : List Tree) (v : List JVal) (d : Nat) (first : Bool) (w' : Bytes), IsWs w' → IsDocs x v → x ≠ [] →
    ∃ e, emitElems y d first x ++ w' = (if first then [] else str ",") ++ e ∧ ElementsText e v
  | [], _, _, _, _, _, _, h => absurd rfl h
  | x :: l, v, d, first, w', hw', h, _ => by
    cases h with
    | @cons _ dv _ m h1 h2 =>
    obtain ⟨w, u, w1, e1, hw, hu, hw1⟩ := emit_isDoc hy x dv (d + 1) h1
    simp only [emitElems, e1]
    cases l with
    | nil =>
      cases h2
      refine ⟨(y.nl (d + 1) ++ w) ++ (u ++ (w1 ++ w')), by simp [emitElems], .last (isWs_append (hy.1 _) hw) hu (isWs_append hw1 hw')⟩
    | cons z l =>
      obtain ⟨e, e2, e3⟩ := emitElems_isDoc hy (z :: l) m d false w' hw' h2 (by simp)
      refine ⟨(y.nl (d + 1) ++ w) ++ (u ++ (w1 ++ 44 :: e)), ?_, .more (isWs_append (hy.1 _) hw) hu hw1 e3⟩
      simp only [List.append_assoc]
      rw [e2]
      simp [str]

theorem emitMembers_isDoc {y : Style} (hy : y.Ws) : ∀ (x : List (Bytes × Tree)) (v : List (Bytes × JVal)) (d : Nat) (first : Bool) (w' : Bytes), IsWs w' →
    IsMembers x v → x ≠ [] → ∃ e, emitMembers y d first x ++ w' = (if first then [] else str ",") ++ e ∧ MembersTextG e v
  | [], _, _, _, _, _, _, h => absurd rfl h
  | (k, x) :: l, v, d, first, w', hw', h, _ => by
    cases h with
    | @cons _ n _ dv _ m h0 h1 h2 =>
    obtain ⟨w, u, w1, e1, hw, hu, hw1⟩ := emit_isDoc hy x dv (d + 1) h1
    obtain ⟨c, hc, e0⟩ := hy.2
    simp only [emitMembers, e1, e0]
    cases l with
    | nil =>
      cases h2
      refine ⟨y.nl (d + 1) ++ (k ++ ([] ++ 58 :: ((c ++ w) ++ (u ++ (w1 ++ w'))))), by simp [emitMembers],
        .last (hy.1 _) h0 isWs_nil (isWs_append hc hw) hu (isWs_append hw1 hw')⟩
    | cons z l =>
      obtain ⟨e, e2, e3⟩ := emitMembers_isDoc hy (z :: l) m d false w' hw' h2 (by simp)
      refine ⟨y.nl (d + 1) ++ (k ++ ([] ++ 58 :: ((c ++ w) ++ (u ++ (w1 ++ 44 :: e))))), ?_, .more (hy.1 _) h0 isWs_nil (isWs_append hc hw) hu hw1 e3⟩
      simp only [List.append_assoc]
      simp only [List.cons_append]
      rw [e2]
      simp [str]
end

theorem plain_ws : plainStyle.Ws := ⟨fun _ => isWs_nil, [], isWs_nil, rfl⟩

theorem pretty_ws : prettyStyle.Ws := by
  refine ⟨fun d c hc => ?_, [32], by simp [IsWs], rfl⟩
  simp only [prettyStyle, line] at hc
  rcases List.mem_append.1 hc with h | h
  · simp [str] at h; subst h; simp
  · exact .inl (List.eq_of_mem_replicate h)

/-! ## the document of a value -/

theorem isJson_of_reads' {t : Bytes} {v : JVal} (h : Reads t v) : IsJson t v := by
  obtain ⟨w, u, e, hw, hu⟩ := isJson_of_reads h
  exact ⟨w, u, [], by simpa using e, hw, hu, isWs_nil⟩

mutual
theorem shows_doc {P : Prog} : ∀ {t : CTy} {v : SVal} {x : Tree}, Shows P t v x → ∃ d, IsDoc x d
  | _, _, _, .leaf h => by
    obtain ⟨d, hd⟩ := leafText_builtins (F := ⟨fun _ => none, fun _ => none⟩) _ _ _ _ h
    exact ⟨d, .atom (isJson_of_reads' hd)⟩
  | _, _, _, .vec h => by
    obtain ⟨d, hd⟩ := showsAll_doc h
    exact ⟨_, .arr hd⟩
  | _, _, _, .absent => ⟨.null, .atom (isJson_of_text .null)⟩
  | _, _, _, .present h => shows_doc h
  | _, _, _, .alt h h' => by
    obtain ⟨d, hd⟩ := shows_doc h'
    exact ⟨_, .arr (.cons (.atom (isJson_of_text (.string (stringText_jsonString _)))) (.cons hd .nil))⟩
  | _, _, _, .struct h => by
    obtain ⟨d, hd⟩ := showsFields_doc h
    exact ⟨_, .obj hd⟩

theorem showsAll_doc {P : Prog} : ∀ {t : CTy} {v : List SVal} {x : List Tree}, ShowsAll P t v x → ∃ d, IsDocs x d
  | _, _, _, .nil => ⟨_, .nil⟩
  | _, _, _, .cons h h' => by
    obtain ⟨d, hd⟩ := shows_doc h
    obtain ⟨l, hl⟩ := showsAll_doc h'
    exact ⟨_, .cons hd hl⟩

theorem showsFields_doc {P : Prog} : ∀ {t : List (Bytes × CTy)} {v : List SVal} {x : List (Bytes × Tree)}, ShowsFields P t v x → ∃ d, IsMembers x d
  | _, _, _, .nil => ⟨_, .nil⟩
  | _, _, _, .cons h h' => by
    obtain ⟨d, hd⟩ := shows_doc h
    obtain ⟨l, hl⟩ := showsFields_doc h'
    exact ⟨_, .cons (stringText_jsonString _) hd hl⟩
end

/-! ## C54 -/

/-- **C54.** `convert_to_json` gives the compact text of the value. The size computed in the first pass is that of the text written in the second. -/
theorem c54_compact {P : Prog} {t : CTy} {v : SVal} {x : Tree} (h : Shows P t v x) : convertToJson P t v = .ok (compact x) := by
  rw [convertToJson_eq, shows_treeOf h]; rfl

/-- **C54.** `format_json` gives the text of the value with one element or member per line, indented by four blanks a level. -/
theorem c54_indented {P : Prog} {t : CTy} {v : SVal} {x : Tree} (h : Shows P t v x) : formatJson P t v = .ok (indented 0 x) := by
  rw [formatJson_eq, shows_treeOf h]; rfl

/-- **C54.** They give nothing else. -/
theorem c54_only {P : Prog} {t : CTy} {v : SVal} {s : Bytes} :
    (convertToJson P t v = .ok s → ∃ x, Shows P t v x ∧ s = compact x) ∧ (formatJson P t v = .ok s → ∃ x, Shows P t v x ∧ s = indented 0 x) := by
  rw [convertToJson_eq, formatJson_eq]
  cases h : treeOf P t v with
  | error e => exact ⟨nofun, nofun⟩
  | ok x => exact ⟨fun e => ⟨x, treeOf_shows _ _ _ _ h, by cases e; rfl⟩, fun e => ⟨x, treeOf_shows _ _ _ _ h, by cases e; rfl⟩⟩

/-- **C54.** They fail together, with the same error. -/
theorem c54_alike (P : Prog) (t : CTy) (v : SVal) (e : Err) : convertToJson P t v = .error e ↔ formatJson P t v = .error e := by
  rw [convertToJson_eq, formatJson_eq]
  cases treeOf P t v <;> simp [Except.map]

/-- **C54.** Both texts are JSON (RFC 8259), and texts of one and the same document. -/
theorem c54_same_document {P : Prog} {t : CTy} {v : SVal} {s : Bytes} (h : convertToJson P t v = .ok s) :
    ∃ s' x d, formatJson P t v = .ok s' ∧ Shows P t v x ∧ IsDoc x d ∧ IsJson s d ∧ IsJson s' d := by
  obtain ⟨x, hx, rfl⟩ := c54_only.1 h
  obtain ⟨d, hd⟩ := shows_doc hx
  refine ⟨_, x, d, c54_indented hx, hx, hd, ?_, ?_⟩
  · rw [← emit_compact x 0]; exact emit_isDoc plain_ws x d 0 hd
  · rw [← emit_indented x 0]; exact emit_isDoc pretty_ws x d 0 hd

/-! ## an example -/

namespace StaticJsonExample

/-- `struct node { uint8_t tag; std::optional<int16_t> note; std::vector<node> sub; std::variant<bool, node> pick; }` -/
def prog : Prog := [(str "node", [(str "tag", .leaf .uint8), (str "note", .opt (.leaf .int16)), (str "sub", .vec (.struct (str "node"))),
  (str "pick", .variant [.leaf .bool, .struct (str "node")])])]

def inner : SVal := .struct [.leaf [7], .absent, .vec [], .alt 0 (.leaf [1])]
def outer : SVal := .struct [.leaf [200], .present (.leaf [254, 255]), .vec [inner], .alt 1 inner]

/-- is the result this text? -/
def isText (r : Res Bytes) (s : String) : Bool := match r with
  | .ok t => t == str s
  | .error _ => false

example : isText (convertToJson prog (.struct (str "node")) outer)
    "{\"tag\":200,\"note\":-2,\"sub\":[{\"tag\":7,\"note\":null,\"sub\":[],\"pick\":[\"bool\",true]}],\"pick\":[\"node\",{\"tag\":7,\"note\":null,\"sub\":[],\"pick\":[\"bool\",true]}]}" = true := by
  decide +kernel

example : isText (formatJson prog (.struct (str "node")) (.struct [.leaf [0], .absent, .vec [inner], .alt 0 (.leaf [0])]))
    "{\n    \"tag\": 0,\n    \"note\": null,\n    \"sub\": [\n        {\n            \"tag\": 7,\n            \"note\": null,\n            \"sub\": [],\n            \"pick\": [\n                \"bool\",\n                true\n            ]\n        }\n    ],\n    \"pick\": [\n        \"bool\",\n        false\n    ]\n}" = true := by
  decide +kernel

/-- the hypothesis of the theorems is met -/
example : ∃ x, Shows prog (.struct (str "node")) outer x := by
  have h : isText (convertToJson prog (.struct (str "node")) outer)
    "{\"tag\":200,\"note\":-2,\"sub\":[{\"tag\":7,\"note\":null,\"sub\":[],\"pick\":[\"bool\",true]}],\"pick\":[\"node\",{\"tag\":7,\"note\":null,\"sub\":[],\"pick\":[\"bool\",true]}]}" = true := by
    decide +kernel
  generalize hr : convertToJson prog (.struct (str "node")) outer = r at h
  cases r with
  | error e => cases h
  | ok s =>
    obtain ⟨x, hx, -⟩ := c54_only.1 hr
    exact ⟨x, hx⟩

end StaticJsonExample

end Abieos
