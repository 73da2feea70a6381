import Verif.Proofs.AddTypeInv
import Verif.Proofs.Check
import Verif.Props.StaticJson
/-!
# C56: C++ types added to an ABI
-/
namespace Abieos
open Spec

/-- **C54, C56.** The name of a type, as it is written into variants and looked up in the table. -/
theorem c56_name (t : CTy) : t.name = typeText t := name_eq t

/-- **C56.** `add_type` ends, with one outcome. -/
theorem c56_ends (P : Prog) (t : CTy) (T : Table) : ∃ r T', AddType P t T r T' ∧ r ≠ .error .ub ∧ ∀ r' T'', AddType P t T r' T'' → r' = r ∧ T'' = T' := by
  obtain ⟨n, h1, h2⟩ := addType_ends P t T
  refine ⟨_, _, h2, h1, ?_⟩
  rintro r' T'' ⟨m, hm⟩
  obtain ⟨k, hk⟩ := h2
  have e1 := hm (max m k) (by omega)
  rw [hk (max m k) (by omega)] at e1
  obtain ⟨e2, e3⟩ := Prod.mk.inj e1
  exact ⟨e2.symm, e3.symm⟩

/-- **C56.** Whatever happens, the types that were there stay as they are. -/
theorem c56_keeps {P : Prog} {t : CTy} {T T' : Table} {r : Res Ptr} (h : AddType P t T r T') : Keeps T T' := by
  obtain ⟨n, h⟩ := h
  have := addType_keeps P n t T
  rwa [h n (Nat.le_refl _)] at this

theorem closed_uses {P : Prog} {t : CTy} (h : NamesDiffer P t) : Closed P (Uses P t) := ⟨fun _ _ h1 h2 => uses_comp h1 h2, h⟩

/-- in a resolved table, types are nested as they have to be -/
theorem nests_of_described {P : Prog} {T : Table} (wf : T.WF) {t : CTy} (h : Described P T t) : Nests t := by
  have ht := h t .self
  cases t with
  | leaf | struct | variant => simp [Nests]
  | vec t =>
    obtain ⟨d, h1, -, h3⟩ := wf _ _ ht
    rw [h t (.vec .self)] at h1
    cases h1
    cases t <;> simp [Nests, shape, TData.isWrapper] at h3 ⊢
  | opt t =>
    obtain ⟨d, h1, -, h3⟩ := wf _ _ ht
    rw [h t (.opt .self)] at h1
    cases h1
    cases t <;> simp [Nests, shape, TData.isWrapper] at h3 ⊢
  | ext t =>
    obtain ⟨d, h1, -, h3⟩ := wf _ _ ht
    rw [h t (.ext .self)] at h1
    cases h1
    cases t <;> simp [Nests, shape, TData.isExt] at h3 ⊢

theorem comp_uses {P : Prog} {u w : CTy} (h : Comp P u w) : Uses P u w := uses_comp .self h

theorem good_start {P : Prog} {T : Table} (wf : T.WF) {t : CTy} (h : Agrees P T t) : AddGood P (Uses P t) T [] := by
  intro u hu hs
  have hd := h u hu (by intro e; rw [e] at hs; cases hs)
  exact .inl ⟨hd u .self, fun w hw => by rw [hd w (comp_uses hw)]; rfl, nests_of_described wf hd⟩

theorem good_described {P : Prog} {R : CTy → Prop} (hR : Closed P R) {T : Table} (hg : AddGood P R T []) {t u : CTy} (h : Uses P t u) :
    R t → (T.get (typeText t)).isSome → T.get (typeText u) = some (shape P u) ∧ Nests u := by
  induction h with
  | self =>
    intro ht hs
    rcases hg _ ht hs with ⟨h1, -, h3⟩ | ⟨_, _, _, _, h, _⟩
    · exact ⟨h1, h3⟩
    · simp at h
  | @vec t u _ ih =>
    intro ht hs
    rcases hg _ ht hs with ⟨-, h2, -⟩ | ⟨_, _, _, _, h, _⟩
    · exact ih (hR.comp _ _ ht .vec) (h2 _ .vec)
    · simp at h
  | @opt t u _ ih =>
    intro ht hs
    rcases hg _ ht hs with ⟨-, h2, -⟩ | ⟨_, _, _, _, h, _⟩
    · exact ih (hR.comp _ _ ht .opt) (h2 _ .opt)
    · simp at h
  | @ext t u _ ih =>
    intro ht hs
    rcases hg _ ht hs with ⟨-, h2, -⟩ | ⟨_, _, _, _, h, _⟩
    · exact ih (hR.comp _ _ ht .ext) (h2 _ .ext)
    · simp at h
  | @alt ts t u hm _ ih =>
    intro ht hs
    rcases hg _ ht hs with ⟨-, h2, -⟩ | ⟨_, _, _, _, h, _⟩
    · exact ih (hR.comp _ _ ht (.alt hm)) (h2 _ (.alt hm))
    · simp at h
  | @field n m t u hm _ ih =>
    intro ht hs
    rcases hg _ ht hs with ⟨-, h2, -⟩ | ⟨_, _, _, _, h, _⟩
    · exact ih (hR.comp _ _ ht (.field hm)) (h2 _ (.field hm))
    · simp at h

/-- **C56.** If `add_type` returns, it returns the node with the name of the type; the table then describes the type and all it uses, all of them are nested as ABIs
permit, and nothing else was added. -/
theorem c56_only {P : Prog} {t : CTy} {T T' : Table} {p : Ptr} (wf : T.WF) (hn : NamesDiffer P t) (ha : Agrees P T t) (h : AddType P t T (.ok p) T') :
    p = typeText t ∧ Described P T' t ∧ (∀ u, Uses P t u → Nests u) ∧
      ∀ k d, T'.get k = some d → T.get k = some d ∨ ∃ u, Uses P t u ∧ k = typeText u ∧ d = shape P u := by
  have hk := c56_keeps h
  obtain ⟨n, h⟩ := h
  have h1 := addType_effect (closed_uses hn) n t T [] .self (good_start wf ha)
  rw [h n (Nat.le_refl _)] at h1
  obtain ⟨h1, h2, rfl, h3⟩ := h1
  have hd := fun u (hu : Uses P t u) => good_described (closed_uses hn) h2 hu .self h3
  refine ⟨rfl, fun u hu => (hd u hu).1, fun u hu => (hd u hu).2, ?_⟩
  intro k d hkd
  rcases h1 k (by simp [hkd]) with h4 | ⟨u, hu, rfl⟩
  · left
    obtain ⟨d', h4⟩ := Option.isSome_iff_exists.1 h4
    rw [hk k d' h4] at hkd
    rw [h4, hkd]
  · right
    refine ⟨u, hu, rfl, ?_⟩
    rw [(hd u hu).1] at hkd
    exact (Option.some.inj hkd).symm

/-- **C56.** `add_type` returns, if the builtin types are in the table and all types are nested as ABIs permit. -/
theorem c56_adds {P : Prog} {t : CTy} {T : Table} (wf : T.WF) (hn : NamesDiffer P t) (ha : Agrees P T t) (hb : ∀ k, Uses P t (.leaf k) → T.get k.typeName = some (.builtin k))
    (hw : ∀ u, Uses P t u → Nests u) : ∃ T', AddType P t T (.ok (typeText t)) T' ∧ Described P T' t := by
  obtain ⟨r, T', h1, h2, -⟩ := c56_ends P t T
  cases r with
  | error e =>
    exfalso
    apply h2
    obtain ⟨n, h⟩ := h1
    have := addType_noError (closed_uses hn) hw n t T [] .self (good_start wf ha) (fun k hk => by rw [hb k hk]; rfl) e (by rw [h n (Nat.le_refl _)])
    rw [this]
  | ok p =>
    obtain ⟨rfl, h3, -⟩ := c56_only wf hn ha h1
    exact ⟨T', h1, h3⟩

/-- entries of described types are complete -/
theorem entryOk_shape {P : Prog} {T : Table} {u : CTy} (h : ∀ w, Comp P u w → T.get (typeText w) = some (shape P w) ∨ ∃ fs, T.get (typeText w) = some (.struct fs) ∧ ∃ m, w = .struct m) (hn : Nests u) : T.EntryOk (shape P u) := by
  have tgt : ∀ w : CTy, (shape P w).isTarget = true := by intro w; cases w <;> rfl
  have val : ∀ w, Comp P u w → T.Valid (typeText w) := by
    intro w hw
    rcases h w hw with h | ⟨fs, h, -⟩
    · exact ⟨_, h, tgt w⟩
    · exact ⟨_, h, rfl⟩
  cases u with
  | leaf => trivial
  | struct n =>
    intro f hf
    obtain ⟨g, hg, rfl⟩ := List.mem_map.1 hf
    exact val _ (.field (m := g.1) hg)
  | variant ts =>
    intro f hf
    obtain ⟨g, hg, rfl⟩ := List.mem_map.1 hf
    exact val _ (.alt hg)
  | vec t =>
    rcases h t .vec with h | ⟨fs, h, m, rfl⟩
    · exact ⟨_, h, tgt t, by cases t <;> simp [Nests, shape, TData.isWrapper] at hn ⊢⟩
    · exact ⟨_, h, rfl, rfl⟩
  | opt t =>
    rcases h t .opt with h | ⟨fs, h, m, rfl⟩
    · exact ⟨_, h, tgt t, by cases t <;> simp [Nests, shape, TData.isWrapper] at hn ⊢⟩
    · exact ⟨_, h, rfl, rfl⟩
  | ext t =>
    rcases h t .ext with h | ⟨fs, h, m, rfl⟩
    · exact ⟨_, h, tgt t, by cases t <;> simp [Nests, shape, TData.isExt] at hn ⊢⟩
    · exact ⟨_, h, rfl, rfl⟩

theorem entryOk_keeps {T T' : Table} (h : Keeps T T') {d : TData} (hd : T.EntryOk d) : T'.EntryOk d := by
  cases d with
  | builtin => trivial
  | aliasDef => exact hd.elim
  | structDef => exact hd.elim
  | variantDef => exact hd.elim
  | «alias» p => obtain ⟨x, h1, h2⟩ := hd; exact ⟨x, h _ _ h1, h2⟩
  | optional p => obtain ⟨x, h1, h2⟩ := hd; exact ⟨x, h _ _ h1, h2⟩
  | extension p => obtain ⟨x, h1, h2⟩ := hd; exact ⟨x, h _ _ h1, h2⟩
  | array p => obtain ⟨x, h1, h2⟩ := hd; exact ⟨x, h _ _ h1, h2⟩
  | struct fs => intro f hf; obtain ⟨x, h1, h2⟩ := hd f hf; exact ⟨x, h _ _ h1, h2⟩
  | variant fs => intro f hf; obtain ⟨x, h1, h2⟩ := hd f hf; exact ⟨x, h _ _ h1, h2⟩

theorem wf_good {P : Prog} {R : CTy → Prop} (hR : Closed P R) {T T' : Table} {S : List Bytes} (wf : T.WF) (hk : Keeps T T') (ho : Only R T T') (hg : AddGood P R T' S) : T'.WF := by
  have fits : ∀ w, R w → (T'.get (typeText w)).isSome → T'.get (typeText w) = some (shape P w) ∨ ∃ fs, T'.get (typeText w) = some (.struct fs) ∧ ∃ m, w = .struct m := by
    intro w hw hs
    rcases hg w hw hs with ⟨h, -⟩ | ⟨m, pre, suf, rfl, -, h, -⟩
    · exact .inl h
    · exact .inr ⟨_, by simpa only [typeText] using h, m, rfl⟩
  intro k d hkd
  rcases ho k (by simp [hkd]) with h | ⟨u, hu, rfl⟩
  · obtain ⟨d', h⟩ := Option.isSome_iff_exists.1 h
    rw [hk _ _ h] at hkd
    cases hkd
    exact entryOk_keeps hk (wf _ _ h)
  · rcases hg u hu (by simp [hkd]) with ⟨h1, h2, h3⟩ | ⟨m, pre, suf, rfl, -, h1, h2, h3⟩
    · rw [h1] at hkd; cases hkd
      exact entryOk_shape (fun w hw => fits w (hR.comp _ _ hu hw) (h2 w hw)) h3
    · simp only [typeText] at hkd
      rw [h1] at hkd; cases hkd
      intro f hf
      obtain ⟨g, hg', rfl⟩ := List.mem_map.1 hf
      have hc : Comp P (.struct m) g.2 := .field (m := g.1) (by rw [h2]; simp [hg'])
      rcases fits _ (hR.comp _ _ hu hc) (h3 g hg') with h | ⟨fs, h, -⟩
      · exact ⟨_, h, by cases g.2 <;> rfl⟩
      · exact ⟨_, h, rfl⟩

/-- **C56.** The table stays a resolved one, also if `add_type` throws ("basic exception safety"): nothing in it dangles, and conversions with it stay defined. -/
theorem c56_resolved {P : Prog} {t : CTy} {T T' : Table} {r : Res Ptr} (wf : T.WF) (hn : NamesDiffer P t) (ha : Agrees P T t) (h : AddType P t T r T') : T'.WF := by
  have hk := c56_keeps h
  obtain ⟨n, h⟩ := h
  have h1 := addType_effect (closed_uses hn) n t T [] .self (good_start wf ha)
  rw [h n (Nat.le_refl _)] at h1
  obtain ⟨h1, h2⟩ := h1
  cases r with
  | ok p => exact wf_good (closed_uses hn) wf hk h1 h2.1
  | error e =>
    obtain ⟨S, h2⟩ := h2
    exact wf_good (closed_uses hn) wf hk h1 h2

theorem emplace_same {T : Table} {k : Bytes} {d d' : TData} (h : T.get k = some d) : T.emplace k d' = T := by
  unfold Table.emplace; rw [h]

mutual
theorem addType_again {P : Prog} {T : Table} (wf : T.WF) : ∀ (t : CTy), Described P T t → ∀ n, t.size ≤ n → addType P n t T = (.ok (typeText t), T)
  | t, _, 0, hn => by
    exfalso
    have : 1 ≤ t.size := by cases t <;> simp only [CTy.size] <;> omega
    omega
  | .leaf k, h, n + 1, _ => by
    have := h _ .self
    simp only [typeText] at this
    rw [addType, this]; simp only [typeText]
  | .struct m, h, n + 1, _ => by
    have := h _ .self
    simp only [typeText] at this
    rw [addType, this]; simp only [typeText]
  | .vec t, h, n + 1, hn => by
    have h' : Described P T t := fun u hu => h u (.vec hu)
    rw [addType, addType_again wf t h' n (by simp only [CTy.size] at hn; omega)]
    have hw := nests_of_described wf h
    have hf : EntryFits P T [] t := .inl ⟨h' t .self, fun w hw => by rw [h' w (comp_uses hw)]; rfl, nests_of_described wf h'⟩
    simp only [(wrapper_of hf).1.2 hw, name_eq, Bool.false_eq_true, if_false, emplace_same (h _ .self)]
  | .opt t, h, n + 1, hn => by
    have h' : Described P T t := fun u hu => h u (.opt hu)
    rw [addType, addType_again wf t h' n (by simp only [CTy.size] at hn; omega)]
    have hw := nests_of_described wf h
    have hf : EntryFits P T [] t := .inl ⟨h' t .self, fun w hw => by rw [h' w (comp_uses hw)]; rfl, nests_of_described wf h'⟩
    simp only [(wrapper_of hf).2.1.2 hw, name_eq, Bool.false_eq_true, if_false, emplace_same (h _ .self)]
  | .ext t, h, n + 1, hn => by
    have h' : Described P T t := fun u hu => h u (.ext hu)
    rw [addType, addType_again wf t h' n (by simp only [CTy.size] at hn; omega)]
    have hw := nests_of_described wf h
    have hf : EntryFits P T [] t := .inl ⟨h' t .self, fun w hw => by rw [h' w (comp_uses hw)]; rfl, nests_of_described wf h'⟩
    have hs := h _ .self
    have hnm : typeText (.ext t) = typeText t ++ str "$" := by simp only [typeText]
    rw [hnm] at hs ⊢
    simp only [(wrapper_of hf).2.2.2 hw, Bool.false_eq_true, if_false, emplace_same hs]
  | .variant ts, h, n + 1, hn => by
    rw [addType, addAlts_again wf ts (fun t ht u hu => h u (.alt ht hu)) n (by simp only [CTy.size] at hn; omega)]
    simp only [name_eq, emplace_same (h _ .self)]
theorem addAlts_again {P : Prog} {T : Table} (wf : T.WF) : ∀ (ts : List CTy), (∀ t ∈ ts, Described P T t) → ∀ n, CTy.size.go ts ≤ n →
    addAlts (addType P n) ts T = (.ok (ts.map fun t => ⟨typeText t, typeText t⟩), T)
  | [], _, n, _ => rfl
  | t :: ts, h, n, hn => by
    rw [CTy.size.go] at hn
    rw [addAlts, addType_again wf t (h t (by simp)) n (by omega)]
    simp only
    rw [addAlts_again wf ts (fun u hu => h u (by simp [hu])) n (by omega)]
    rfl
end

/-- **C56.** `add_type` "has no effect if the type is already present". -/
theorem c56_again {P : Prog} {t : CTy} {T : Table} (wf : T.WF) (h : Described P T t) : AddType P t T (.ok (typeText t)) T :=
  ⟨t.size, fun m hm => addType_again wf t h m hm⟩

/-! ## examples -/

theorem uses_in {P : Prog} {L : CTy → Prop} (hc : ∀ u w, L u → Comp P u w → L w) {t u : CTy} (h : Uses P t u) : L t → L u := by
  induction h with
  | self => exact id
  | vec _ ih => exact fun h => ih (hc _ _ h .vec)
  | opt _ ih => exact fun h => ih (hc _ _ h .opt)
  | ext _ ih => exact fun h => ih (hc _ _ h .ext)
  | alt hm _ ih => exact fun h => ih (hc _ _ h (.alt hm))
  | field hm _ ih => exact fun h => ih (hc _ _ h (.field hm))

namespace AddTypeExample
open StaticJsonExample

/-- the types that `node` uses -/
def types : List CTy := [.struct (str "node"), .leaf .uint8, .opt (.leaf .int16), .leaf .int16, .vec (.struct (str "node")),
  .variant [.leaf .bool, .struct (str "node")], .leaf .bool]

theorem uses_types {u : CTy} (h : Uses prog (.struct (str "node")) u) : u ∈ types := by
  refine uses_in (L := fun u => u ∈ types) ?_ h (by simp [types])
  intro u w hu hw
  simp only [types, List.mem_cons, List.not_mem_nil, or_false] at hu ⊢
  rcases hu with rfl | rfl | rfl | rfl | rfl | rfl | rfl
  · cases hw with
    | field hw =>
      have hf : prog.fields (str "node") = [(str "tag", .leaf .uint8), (str "note", .opt (.leaf .int16)), (str "sub", .vec (.struct (str "node"))),
        (str "pick", .variant [.leaf .bool, .struct (str "node")])] := rfl
      rw [hf] at hw
      simp only [List.mem_cons, Prod.mk.injEq, List.not_mem_nil, or_false] at hw
      rcases hw with ⟨-, rfl⟩ | ⟨-, rfl⟩ | ⟨-, rfl⟩ | ⟨-, rfl⟩ <;> simp
  · cases hw
  · cases hw; simp
  · cases hw
  · cases hw; simp
  · cases hw with
    | alt hw =>
      simp only [List.mem_cons, List.not_mem_nil, or_false] at hw
      rcases hw with rfl | rfl <;> simp
  · cases hw

theorem types_nodup : (types.map typeText).Nodup := by decide +kernel

theorem inj_of_nodup {l : List CTy} (h : (l.map typeText).Nodup) {u w : CTy} (hu : u ∈ l) (hw : w ∈ l) (e : typeText u = typeText w) : u = w := by
  induction l with
  | nil => simp at hu
  | cons x l ih =>
    simp only [List.map_cons, List.nodup_cons] at h
    rcases List.mem_cons.1 hu with rfl | hu' <;> rcases List.mem_cons.1 hw with rfl | hw'
    · rfl
    · exact absurd (List.mem_map.2 ⟨w, hw', e.symm⟩) h.1
    · exact absurd (List.mem_map.2 ⟨u, hu', e⟩) h.1
    · exact ih h.2 hu' hw'

theorem names : NamesDiffer prog (.struct (str "node")) := fun _ _ hu hw e => inj_of_nodup types_nodup (uses_types hu) (uses_types hw) e

theorem builtin_wf : Table.WF builtinTable := Table.wf_of_wfB (by decide +kernel)

theorem fresh : ∀ u ∈ types, builtinTable.get (typeText u) = none ∨ (match u with | .leaf k => builtinTable.get (typeText u) = some (.builtin k) | _ => False) := by
  intro u hu
  simp only [types, List.mem_cons, List.not_mem_nil, or_false] at hu
  rcases hu with rfl | rfl | rfl | rfl | rfl | rfl | rfl <;> first | (left; decide +kernel) | (right; show builtinTable.get _ = some _; decide +kernel)

theorem agrees : Agrees prog builtinTable (.struct (str "node")) := by
  intro u hu hs
  rcases fresh u (uses_types hu) with h | h
  · exact absurd h hs
  · cases u with
    | leaf k =>
      intro w hw
      cases hw
      exact h
    | _ => exact h.elim

/-- the hypotheses of the theorems are met by a struct that contains vectors of itself, an optional and a variant -/
example : ∃ T, AddType prog (.struct (str "node")) builtinTable (.ok (str "node")) T ∧ Described prog T (.struct (str "node")) ∧ T.WF := by
  obtain ⟨T, h1, h2⟩ := c56_adds builtin_wf names agrees (fun k hk => by
      have := uses_types hk
      simp only [types, List.mem_cons, CTy.leaf.injEq, reduceCtorEq, List.not_mem_nil, or_false, false_or] at this
      rcases this with rfl | rfl | rfl <;> decide +kernel) (fun u hu => by
      have := uses_types hu
      simp only [types, List.mem_cons, List.not_mem_nil, or_false] at this
      rcases this with rfl | rfl | rfl | rfl | rfl | rfl | rfl <;> simp [Nests])
  exact ⟨T, h1, h2, c56_resolved builtin_wf names agrees h1⟩

/-- a vector of vectors is refused; the struct that has it stays in the table, without that field and those after it -/
example : (addType [(str "p", [(str "x", .leaf .uint8), (str "y", .vec (.vec (.leaf .uint8))), (str "z", .leaf .bool)])] 9 (.struct (str "p")) builtinTable).1 = .error .invalid_nesting ∧
    (addType [(str "p", [(str "x", .leaf .uint8), (str "y", .vec (.vec (.leaf .uint8))), (str "z", .leaf .bool)])] 9 (.struct (str "p")) builtinTable).2.get (str "p") =
      some (.struct [⟨str "x", str "uint8"⟩]) := by decide +kernel

/-- different variants can have the same name; the second is then taken for the first -/
example : typeText (.variant [.struct (str "x_y"), .struct (str "z")]) = typeText (.variant [.struct (str "x"), .struct (str "y_z")]) := by decide +kernel

end AddTypeExample

end Abieos
