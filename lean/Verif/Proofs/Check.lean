import Verif.Spec.Regular
import Verif.Proofs.Table
import Verif.Proofs.Utf8
import Mathlib.Data.List.Nodup
/-
Boolean checks of the conditions on type tables, for examples.
-/
namespace Abieos

open Spec

/-- an option that holds something satisfying `f` -/
def optTest {α : Type} (f : α → Bool) : Option α → Bool
  | none => false
  | some a => f a

theorem optTest_iff {α : Type} {f : α → Bool} {o : Option α} : optTest f o = true ↔ ∃ a, o = some a ∧ f a = true := by
  cases o <;> simp [optTest]

/-- check of `EntryOk` -/
def Table.entryB (T : Table) : TData → Bool
  | .builtin _ => true
  | .alias p => optTest (fun d => d.isTarget && !d.isExt) (T.get p)
  | .optional p | .array p => optTest (fun d => d.isTarget && !d.isWrapper) (T.get p)
  | .extension p => optTest (fun d => d.isTarget && !d.isExt) (T.get p)
  | .struct fs | .variant fs => fs.all fun f => optTest TData.isTarget (T.get f.type)
  | _ => false

/-- check of `WF` -/
def Table.wfB (T : Table) : Bool := T.all fun e => T.entryB e.2

theorem Table.get_mem {T : Table} {k : Bytes} {d : TData} (h : T.get k = some d) : (k, d) ∈ T := by
  unfold Table.get at h
  induction T with
  | nil => simp at h
  | cons e T ih =>
    obtain ⟨a, b⟩ := e
    simp only [List.lookup] at h
    split at h
    · rename_i he
      simp only [beq_iff_eq] at he
      cases h
      subst he
      exact List.mem_cons_self
    · exact List.mem_cons_of_mem _ (ih h)

theorem Table.wf_of_wfB {T : Table} (h : T.wfB = true) : T.WF := by
  intro k d hk
  have := List.all_eq_true.1 h _ (Table.get_mem hk)
  simp only at this
  cases d <;> simp only [Table.entryB, Bool.false_eq_true, optTest_iff, Bool.and_eq_true, Bool.not_eq_eq_eq_not, Bool.not_true,
    List.all_eq_true] at this
  · trivial
  · exact this
  · exact this
  · exact this
  · exact this
  · exact this
  · exact this

/-- check that extensions come last -/
def extLastB (T : Table) : List Field → Bool
  | [] => true
  | f :: fs => (if optTest TData.isExt (T.get f.type) then fs.all fun g => optTest TData.isExt (T.get g.type) else true) && extLastB T fs

theorem isExt_iff_optTest {T : Table} {p : Ptr} : IsExt T p ↔ optTest TData.isExt (T.get p) = true := by
  rw [optTest_iff]
  constructor
  · rintro ⟨q, h⟩; exact ⟨_, h, rfl⟩
  · rintro ⟨d, h1, h2⟩
    cases d <;> simp [TData.isExt] at h2
    exact ⟨_, h1⟩

theorem extLast_of {T : Table} : ∀ fs, extLastB T fs = true → ExtLast T fs := by
  intro fs
  induction fs with
  | nil => intro _ pre f post h; simp at h
  | cons a fs ih =>
    intro h pre f post e hf
    simp only [extLastB, Bool.and_eq_true] at h
    cases pre with
    | nil =>
      simp only [List.nil_append, List.cons.injEq] at e
      obtain ⟨rfl, rfl⟩ := e
      rw [isExt_iff_optTest] at hf
      rw [if_pos hf] at h
      intro g hg
      rw [isExt_iff_optTest]
      exact List.all_eq_true.1 h.1 g hg
    | cons b pre =>
      simp only [List.cons_append, List.cons.injEq] at e
      obtain ⟨rfl, rfl⟩ := e
      exact ih h.2 pre f post rfl hf

/-- names are ASCII -/
def asciiB (s : Bytes) : Bool := s.all fun c => c < 128

/-- names are distinct -/
def distinctB : List Bytes → Bool
  | [] => true
  | a :: l => !l.contains a && distinctB l

theorem nodup_of_distinctB : ∀ l, distinctB l = true → l.Nodup := by
  intro l
  induction l with
  | nil => simp
  | cons a l ih =>
    intro h
    simp only [distinctB, Bool.and_eq_true, Bool.not_eq_eq_eq_not, Bool.not_true] at h
    exact List.nodup_cons.2 ⟨by simpa using h.1, ih h.2⟩

/-- check of `Regular` (sufficient) -/
def Table.regularB (T : Table) : Bool := T.all fun e => match e.2 with
  | .struct fs => extLastB T fs && decide (fs.length < 2147483648) && distinctB (fs.map (·.name)) && fs.all fun f => asciiB f.name
  | .variant fs => decide (fs.length < 4294967296) && distinctB (fs.map (·.name)) && fs.all fun f => asciiB f.name
  | _ => true

theorem utf8_of_asciiB {s : Bytes} (h : asciiB s = true) : Utf8 s := by
  apply utf8_ascii
  intro c hc
  have := List.all_eq_true.1 h c hc
  simpa [UInt8.lt_iff_toNat_lt] using this

theorem Table.regular_of_regularB {T : Table} (h : T.regularB = true) : Regular T := by
  have hs : ∀ k fs, T.get k = some (.struct fs) → (extLastB T fs && decide (fs.length < 2147483648) &&
      distinctB (fs.map (·.name)) && fs.all fun f => asciiB f.name) = true :=
    fun k fs hk => List.all_eq_true.1 h _ (Table.get_mem hk)
  have hv : ∀ k fs, T.get k = some (.variant fs) → (decide (fs.length < 4294967296) &&
      distinctB (fs.map (·.name)) && fs.all fun f => asciiB f.name) = true :=
    fun k fs hk => List.all_eq_true.1 h _ (Table.get_mem hk)
  simp only [Bool.and_eq_true, decide_eq_true_eq] at hs hv
  refine ⟨fun k fs hk => extLast_of _ (hs k fs hk).1.1.1, fun k fs hk => (hs k fs hk).1.1.2,
    fun k fs hk => nodup_of_distinctB _ (hs k fs hk).1.2, ⟨fun k fs hk f hf => utf8_of_asciiB (List.all_eq_true.1 (hs k fs hk).2 f hf),
    fun k fs hk f hf => utf8_of_asciiB (List.all_eq_true.1 (hv k fs hk).2 f hf)⟩, fun k fs hk => ⟨(hv k fs hk).1.1, ?_⟩⟩
  have := nodup_of_distinctB _ (hv k fs hk).1.2
  intro f hf g hg e
  have : f = g := List.inj_on_of_nodup_map this hf hg e
  rw [this]

end Abieos
