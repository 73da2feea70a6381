import Verif.Proofs.StaticRead
import Verif.Props.StaticJson
import Verif.Proofs.LeafAll
/-!
# C55: C++ values read from JSON
-/
namespace Abieos
open Spec

/-- **C55.** From a JSON text of a document in which no object has a name twice, `from_json` gets exactly the value that the document gives. -/
theorem c55_reads_document (P : Prog) (F : Floats) (t : CTy) {text : Bytes} {d : JVal} (hd : UniqueKeys d) (h : IsJson text d) (v : SVal) :
    FromJson P F t text v ↔ Given P F t d v := by
  constructor
  · rintro ⟨d', h1, n, h2⟩
    rw [c53_reads h] at h1
    cases h1
    exact given_of_rd hd h2
  · intro h1
    obtain ⟨n, hn⟩ := rd_of_given hd h1
    exact ⟨d, c53_reads h, n, hn⟩

/-- reading is a function -/
theorem fromJson_unique {P : Prog} {F : Floats} {t : CTy} {text : Bytes} {v w : SVal} (h : FromJson P F t text v) (h' : FromJson P F t text w) : v = w := by
  obtain ⟨d, h1, n, h2⟩ := h
  obtain ⟨d', h3, m, h4⟩ := h'
  rw [h1] at h3; cases h3
  have h2 : Rd P F (max n m) t .unset d v := rd_mono_le (Nat.le_max_left _ _) h2
  have h4 : Rd P F (max n m) t .unset d w := rd_mono_le (Nat.le_max_right _ _) h4
  unfold Rd at h2 h4
  rw [h2] at h4; cases h4; rfl

theorem leaf_carried {P : Prog} {F : Floats} (hF : FloatBits F) {k : Builtin} {s : Scalar} {b : Bytes} (hu : ScalarUtf8 s) (h : builtinToBin F k s = .ok b) (hl : Lossless F k b) :
    ∃ x d, Shows P (.leaf k) (.leaf b) x ∧ IsDoc x d ∧ UniqueKeys d ∧ Given P F (.leaf k) d (.leaf b) ∧ d ≠ .null := by
  obtain ⟨t, s', h1, h2, h3, -⟩ := builtin_encode hF hu h hl
  have h2' : builtinFromBin k b = .ok (t, []) := by have := h2 []; rwa [List.append_nil] at this
  refine ⟨.atom t, ofScalar s', .leaf h2', .atom (isJson_of_reads' h3), ?_⟩
  have h1' : builtinToBin F k s' = .ok b := h1
  cases s' with
  | bool c => exact ⟨by simp [ofScalar, UniqueKeys], .bool h1', by simp [ofScalar]⟩
  | str c => exact ⟨by simp [ofScalar, UniqueKeys], .str h1', by simp [ofScalar]⟩

theorem carried_elems {P : Prog} {F : Floats} {t : CTy} : ∀ (l : List SVal), (∀ v ∈ l, ∃ x d, Shows P t v x ∧ IsDoc x d ∧ UniqueKeys d ∧ Given P F t d v) →
    ∃ x ds, ShowsAll P t l x ∧ IsDocs x ds ∧ UniqueKeys.go ds ∧ GivenAll P F t ds l
  | [], _ => ⟨[], [], .nil, .nil, by simp [UniqueKeys.go], .nil⟩
  | v :: l, h => by
    obtain ⟨x, d, h1, h2, h3, h4⟩ := h v (by simp)
    obtain ⟨r, ds, k1, k2, k3, k4⟩ := carried_elems l (fun w hw => h w (by simp [hw]))
    exact ⟨x :: r, d :: ds, .cons h1 k1, .cons h2 k2, ⟨h3, k3⟩, .cons h4 k4⟩

theorem carried_fields {P : Prog} {F : Floats} : ∀ (fs : List (Bytes × CTy)) (l : List SVal), l.length = fs.length → (∀ f ∈ fs, IsUtf8Text f.1) →
    (∀ (i : Nat) (m : Bytes) (t : CTy) (v : SVal), fs[i]? = some (m, t) → l[i]? = some v → ∃ x d, Shows P t v x ∧ IsDoc x d ∧ UniqueKeys d ∧ Given P F t d v) →
    ∃ x ds, ShowsFields P fs l x ∧ IsMembers x ds ∧ UniqueKeys.goM ds ∧ ds.map Prod.fst = fs.map Prod.fst ∧
      ∀ (i : Nat) (m : Bytes) (t : CTy) (v : SVal), fs[i]? = some (m, t) → l[i]? = some v → ∃ d, (m, d) ∈ ds ∧ Given P F t d v
  | [], [], _, _, _ => ⟨[], [], .nil, .nil, by simp [UniqueKeys.goM], rfl, by simp⟩
  | (m, t) :: fs, v :: l, hl, hu, h => by
    obtain ⟨x, d, h1, h2, h3, h4⟩ := h 0 m t v rfl rfl
    obtain ⟨r, ds, k1, k2, k3, k4, k5⟩ := carried_fields fs l (by simpa using hl) (fun f hf => hu f (by simp [hf])) (fun i m' t' v' e1 e2 => h (i + 1) m' t' v' (by simpa using e1) (by simpa using e2))
    refine ⟨(jsonString m, x) :: r, (m, d) :: ds, .cons h1 k1, .cons (c53_string m (hu (m, t) (by simp))) h2 k2, ⟨h3, k3⟩, by simp [k4], ?_⟩
    intro i m' t' v' e1 e2
    cases i with
    | zero =>
      simp only [List.getElem?_cons_zero, Option.some.injEq, Prod.mk.injEq] at e1 e2
      obtain ⟨rfl, rfl⟩ := e1
      subst e2
      exact ⟨d, by simp, h4⟩
    | succ i =>
      obtain ⟨d', e3, e4⟩ := k5 i m' t' v' (by simpa using e1) (by simpa using e2)
      exact ⟨d', by simp [e3], e4⟩
  | [], _ :: _, hl, _, _ => by simp at hl
  | _ :: _, [], hl, _, _ => by simp at hl

/-- the document of a value that JSON carries gives that value -/
theorem carried_doc {P : Prog} {F : Floats} (hF : FloatBits F) {t : CTy} {v : SVal} (h : Carried P F t v) :
    ∃ x d, Shows P t v x ∧ IsDoc x d ∧ UniqueKeys d ∧ Given P F t d v ∧ (d = .null → v = .absent ∨ ∃ w, v = .present w) := by
  induction h with
  | @bool k x b h =>
    have hk : k = .bool := by cases k <;> first | rfl | cases h
    subst hk
    obtain ⟨x, d, h1, h2, h3, h4, h5⟩ := leaf_carried (P := P) hF (s := .bool x) trivial h trivial
    exact ⟨x, d, h1, h2, h3, h4, fun e => absurd e h5⟩
  | @str k s b hu h hl =>
    obtain ⟨x, d, h1, h2, h3, h4, h5⟩ := leaf_carried (P := P) hF (s := .str s) ((utf8_iff s).2 hu) h hl
    exact ⟨x, d, h1, h2, h3, h4, fun e => absurd e h5⟩
  | @vec t l _ ih =>
    obtain ⟨x, ds, h1, h2, h3, h4⟩ := carried_elems (P := P) (F := F) (t := t) l (fun v hv => by
      obtain ⟨x, d, h1, h2, h3, h4, -⟩ := ih v hv
      exact ⟨x, d, h1, h2, h3, h4⟩)
    exact ⟨.arr x, .arr ds, .vec h1, .arr h2, by simpa only [UniqueKeys] using h3, .vec h4, nofun⟩
  | absent => exact ⟨.atom (str "null"), .null, .absent, .atom (isJson_of_text .null), by simp [UniqueKeys], .absent, fun _ => .inl rfl⟩
  | @present t v ha hp _ ih =>
    obtain ⟨x, d, h1, h2, h3, h4, h5⟩ := ih
    refine ⟨x, d, .present h1, h2, h3, .present ?_ h4, fun _ => .inr ⟨v, rfl⟩⟩
    intro e
    rcases h5 e with h | ⟨w, h⟩
    · exact ha h
    · exact hp w h
  | @alt ts i t v hi hf hu _ ih =>
    obtain ⟨x, d, h1, h2, h3, h4, -⟩ := ih
    refine ⟨_, .arr [.str t.name, d], .alt hi h1, .arr (.cons (.atom (isJson_of_text (.string (c53_string _ hu)))) (.cons h2 .nil)), ?_, .alt hi hf h4, nofun⟩
    simp only [UniqueKeys, UniqueKeys.go, and_true, true_and]
    exact h3
  | @struct n l hl hnd hu _ ih =>
    obtain ⟨x, ds, h1, h2, h3, h4, h5⟩ := carried_fields (P := P) (F := F) (P.fields n) l hl hu (fun i m t v e1 e2 => by
      obtain ⟨x, d, h1, h2, h3, h4, -⟩ := ih i m t v e1 e2
      exact ⟨x, d, h1, h2, h3, h4⟩)
    have hk : (ds.map Prod.fst).Nodup := by rw [h4]; exact hnd
    refine ⟨.obj x, .obj ds, .struct h1, .obj h2, by simp only [UniqueKeys]; exact ⟨hk, h3⟩, .struct hl ?_ ?_, nofun⟩
    · intro i m t v d e1 e2 _ e3
      obtain ⟨d', e4, e5⟩ := h5 i m t v e1 e2
      rwa [nodup_member hk e3 e4]
    · intro i m t v e1 e2 e3
      exfalso
      rcases e3 with h | h
      · apply h
        intro j u hj hu
        have hi : i < ((P.fields n).map Prod.fst).length := by
          rcases Nat.lt_or_ge i (P.fields n).length with h | h
          · simpa using h
          · rw [List.getElem?_eq_none h] at e1; cases e1
        have := (List.getElem?_inj (by omega : j < ((P.fields n).map Prod.fst).length) hnd (j := i)).1 (by simp [hu, e1])
        omega
      · rw [h4] at h
        exact h (List.mem_map.2 ⟨(m, t), List.mem_of_getElem? e1, rfl⟩)

/-- **C55.** A value that JSON can carry is written by both functions, and read back from both texts. -/
theorem c55_reads_back {P : Prog} {F : Floats} (hF : FloatBits F) {t : CTy} {v : SVal} (h : Carried P F t v) :
    ∃ s s', convertToJson P t v = .ok s ∧ formatJson P t v = .ok s' ∧ FromJson P F t s v ∧ FromJson P F t s' v := by
  obtain ⟨x, d, h1, h2, h3, h4, -⟩ := carried_doc hF h
  refine ⟨_, _, c54_compact h1, c54_indented h1, (c55_reads_document P F t h3 ?_ v).2 h4, (c55_reads_document P F t h3 ?_ v).2 h4⟩
  · rw [← emit_compact x 0]; exact emit_isDoc plain_ws x d 0 h2
  · rw [← emit_indented x 0]; exact emit_isDoc pretty_ws x d 0 h2

/-- **C55.** Different values of a type have different texts, if JSON can carry them. -/
theorem c55_injective {P : Prog} {F : Floats} (hF : FloatBits F) {t : CTy} {v w : SVal} (hv : Carried P F t v) (hw : Carried P F t w) :
    (convertToJson P t v = convertToJson P t w → v = w) ∧ (formatJson P t v = formatJson P t w → v = w) := by
  obtain ⟨s, s', h1, h2, h3, h4⟩ := c55_reads_back hF hv
  obtain ⟨u, u', k1, k2, k3, k4⟩ := c55_reads_back hF hw
  constructor
  · intro e; rw [h1, k1] at e; cases e; exact fromJson_unique h3 k3
  · intro e; rw [h2, k2] at e; cases e; exact fromJson_unique h4 k4

/-- **C55.** The order of the members of an object does not matter, and members that no field is named after do not either. -/
theorem c55_members {P : Prog} {F : Floats} {n : Bytes} {l l' : List (Bytes × JVal)} {v : SVal} {text text' : Bytes} (hd : UniqueKeys (.obj l)) (hd' : UniqueKeys (.obj l'))
    (h : IsJson text (.obj l)) (h' : IsJson text' (.obj l')) (hm : ∀ f ∈ P.fields n, ∀ d, (f.1, d) ∈ l ↔ (f.1, d) ∈ l') :
    FromJson P F (.struct n) text v ↔ FromJson P F (.struct n) text' v := by
  rw [c55_reads_document P F _ hd h, c55_reads_document P F _ hd' h']
  have key : ∀ {l l' : List (Bytes × JVal)}, (∀ f ∈ P.fields n, ∀ d, (f.1, d) ∈ l ↔ (f.1, d) ∈ l') → Given P F (.struct n) (.obj l) v → Given P F (.struct n) (.obj l') v := by
    intro l l' hm h
    cases h with
    | struct h1 h2 h3 =>
    refine .struct h1 (fun i m t v d e1 e2 e3 e4 => h2 i m t v d e1 e2 e3 ((hm _ (List.mem_of_getElem? e1) d).2 e4)) ?_
    intro i m t v e1 e2 e3
    refine h3 i m t v e1 e2 (e3.imp_right fun e hc => e ?_)
    obtain ⟨⟨m', d⟩, e4, e5⟩ := List.mem_map.1 hc
    simp only at e5; subst e5
    exact List.mem_map.2 ⟨(m', d), (hm _ (List.mem_of_getElem? e1) d).1 e4, rfl⟩
  exact ⟨key hm, key fun f hf d => (hm f hf d).symm⟩

/-! ## examples -/

namespace StaticJsonExample

theorem utf8_tag : ∀ f ∈ Prog.fields prog (str "node"), IsUtf8Text f.1 := by
  intro f hf
  apply (utf8_iff f.1).1
  apply utf8_ascii
  revert f
  decide +kernel

theorem carried_u8 (F : Floats) : Carried prog F (.leaf .uint8) (.leaf [7]) ∧ Carried prog F (.leaf .uint8) (.leaf [200]) :=
  ⟨.str (s := str "7") ((utf8_iff _).1 (utf8_ascii (by decide +kernel))) (by show encInt ⟨false, 8⟩ _ = _; decide +kernel) trivial, .str (s := str "200") ((utf8_iff _).1 (utf8_ascii (by decide +kernel))) (by show encInt ⟨false, 8⟩ _ = _; decide +kernel) trivial⟩

theorem carried_inner (F : Floats) : Carried prog F (.struct (str "node")) inner := by
  refine .struct rfl (by decide +kernel) utf8_tag ?_
  intro i m t v h1 h2
  match i with
  | 0 => cases h1; cases h2; exact (carried_u8 F).1
  | 1 => cases h1; cases h2; exact .absent
  | 2 => cases h1; cases h2; exact .vec (by simp)
  | 3 =>
    cases h1; cases h2
    exact .alt rfl (by intro j u hj; omega) ((utf8_iff _).1 (utf8_ascii (by decide +kernel))) (.bool (x := true) rfl)
  | i + 4 => simp at h2

/-- the value of the example in C54 is one that JSON carries -/
theorem carried_outer (F : Floats) : Carried prog F (.struct (str "node")) outer := by
  refine .struct rfl (by decide +kernel) utf8_tag ?_
  intro i m t v h1 h2
  match i with
  | 0 => cases h1; cases h2; exact (carried_u8 F).2
  | 1 => cases h1; cases h2; exact .present nofun nofun (.str (s := str "-2") ((utf8_iff _).1 (utf8_ascii (by decide +kernel))) (by show encInt ⟨true, 16⟩ _ = _; decide +kernel) trivial)
  | 2 =>
    cases h1; cases h2
    refine .vec ?_
    intro v hv
    simp only [List.mem_singleton] at hv; subst hv
    exact carried_inner F
  | 3 =>
    cases h1; cases h2
    refine .alt (t := .struct (str "node")) rfl ?_ ((utf8_iff _).1 (utf8_ascii (by decide +kernel))) (carried_inner F)
    intro j u hj hu
    match j with
    | 0 => cases hu; decide +kernel
    | j + 1 => omega
  | i + 4 => simp at h2

example (F : Floats) (hF : FloatBits F) : ∃ s s', convertToJson prog (.struct (str "node")) outer = .ok s ∧ formatJson prog (.struct (str "node")) outer = .ok s' ∧
    FromJson prog F (.struct (str "node")) s outer ∧ FromJson prog F (.struct (str "node")) s' outer := c55_reads_back hF (carried_outer F)

/-- a present optional without a value inside is read back as absent -/
example (F : Floats) : convertToJson prog (.opt (.opt (.leaf .bool))) (.present .absent) = .ok (str "null") ∧
    FromJson prog F (.opt (.opt (.leaf .bool))) (str "null") .absent :=
  ⟨c54_compact (.present .absent), (c55_reads_document prog F _ (d := .null) (by simp [UniqueKeys]) (isJson_of_text .null) _).2 .absent⟩

/-- fields without a member are left unset, and other members are skipped -/
example (F : Floats) : FromJson [(str "p", [(str "x", .leaf .bool), (str "y", .leaf .bool)])] F (.struct (str "p")) (str "{\"z\":[1,{}],\"y\":true}") (.struct [.unset, .leaf [1]]) := by
  refine (c55_reads_document _ F _ (d := .obj [(str "z", .arr [.str (str "1"), .obj []]), (str "y", .bool true)]) ?_ (isJson_of_same (by decide +kernel) (by decide +kernel)) _).2 ?_
  · simp only [UniqueKeys, UniqueKeys.goM, UniqueKeys.go]; exact ⟨by decide +kernel, by simp⟩
  · refine .struct rfl ?_ ?_
    · intro i m t v d h1 h2 h3 h4
      match i with
      | 0 => cases h1; simp (decide := true) at h4
      | 1 =>
        cases h1; cases h2
        simp (decide := true) at h4
        subst h4
        exact .bool rfl
      | i + 2 => simp at h2
    · intro i m t v h1 h2 h3
      match i with
      | 0 => cases h1; cases h2; rfl
      | 1 =>
        cases h1; cases h2
        exfalso
        rcases h3 with h | h
        · apply h
          intro j u hj hu
          match j with
          | 0 => simp (decide := true) [Prog.fields] at hu
          | j + 1 => omega
        · simp (decide := true) at h
      | i + 2 => simp at h2

end StaticJsonExample

end Abieos
