import Verif.Proofs.RefineR
import Verif.Proofs.RefineO
import Verif.Proofs.RefineD
import Verif.Proofs.Loader
/-
Conversions depend only on the types that can be reached from the given type.
-/
namespace Abieos

/-- The two tables agree on a set of types that is closed under references. -/
def Agree (T T' : Table) (P : Ptr → Prop) : Prop :=
  ∀ p, P p → ∃ d, T.get p = some d ∧ T'.get p = some d ∧ d.isTarget = true ∧ ∀ q ∈ d.ptrs, P q

theorem agree_of_wf {T T' : Table} (wf : T.WF) (h : ∀ k d, T.get k = some d → T'.get k = some d) : Agree T T' T.Valid := by
  rintro p ⟨d, h1, h2⟩
  refine ⟨d, h1, h _ _ h1, h2, ?_⟩
  have := wf _ _ h1
  cases d with
  | builtin b => simp [TData.ptrs]
  | aliasDef => cases h2
  | structDef => cases h2
  | variantDef => cases h2
  | «alias» q => cases h2
  | optional q => obtain ⟨d, a, b, -⟩ := this; simpa [TData.ptrs] using ⟨d, a, b⟩
  | extension q => obtain ⟨d, a, b, -⟩ := this; simpa [TData.ptrs] using ⟨d, a, b⟩
  | array q => obtain ⟨d, a, b, -⟩ := this; simpa [TData.ptrs] using ⟨d, a, b⟩
  | struct fs => simpa [TData.ptrs, Table.EntryOk] using this
  | variant fs => simpa [TData.ptrs, Table.EntryOk] using this

section
variable {T T' : Table} {P : Ptr → Prop} (ha : Agree T T' P)
include ha

theorem Agree.get {p : Ptr} (hp : P p) : T'.get p = T.get p := by
  obtain ⟨d, h1, h2, -⟩ := ha p hp
  rw [h1, h2]

theorem agree_encRFields {E E' : Bool → Ptr → JVal → Res (Bytes × Bool)} (hE : ∀ a p v, P p → E' a p v = E a p v) (allow : Bool) (ms : List (Bytes × JVal)) :
    ∀ (fs : List Field) (sk : Bool) (pos : Int), (∀ f ∈ fs, P f.type) → encRFields T' E' allow ms fs sk pos = encRFields T E allow ms fs sk pos
  | [], _, _, _ => rfl
  | f :: fs, sk, pos, h => by
    have h1 := h f (by simp)
    have ih : ∀ sk pos, encRFields T' E' allow ms fs sk pos = encRFields T E allow ms fs sk pos :=
      fun sk pos => agree_encRFields hE allow ms fs sk pos (fun g hg => h g (List.mem_cons_of_mem _ hg))
    unfold encRFields
    simp only [ha.get h1, hE _ _ _ h1, ih]

theorem agree_encR (L : Leaves) : ∀ (n : Nat) (allow : Bool) (ty : Ptr) (v : JVal), P ty → encR T' L n allow ty v = encR T L n allow ty v
  | 0, _, _, _, _ => rfl
  | n + 1, allow, ty, v, hty => by
    obtain ⟨d, h1, h2, h3, h4⟩ := ha ty hty
    have ih : ∀ a p v, P p → encR T' L n a p v = encR T L n a p v := fun a p v hp => agree_encR L n a p v hp
    unfold encR
    rw [h1, h2]
    cases d with
    | builtin b => rfl
    | aliasDef => cases h3
    | structDef => cases h3
    | variantDef => cases h3
    | «alias» q => cases h3
    | optional q => simp only [ih _ _ _ (h4 q (by simp [TData.ptrs]))]
    | extension q => simp only [ih _ _ _ (h4 q (by simp [TData.ptrs]))]
    | array q =>
      have he : (fun v => encR T' L n false q v) = (fun v => encR T L n false q v) := funext fun v => ih _ _ _ (h4 q (by simp [TData.ptrs]))
      cases v <;> simp only [show encR T' L n false q = encR T L n false q from he]
    | struct fs =>
      have hf : ∀ f ∈ fs, P f.type := fun f hf => h4 _ (by simp only [TData.ptrs]; exact List.mem_map.2 ⟨f, hf, rfl⟩)
      cases v <;> simp only [agree_encRFields ha ih _ _ fs _ _ hf]
    | variant fs =>
      have hf : ∀ f ∈ fs, P f.type := fun f hf => h4 _ (by simp only [TData.ptrs]; exact List.mem_map.2 ⟨f, hf, rfl⟩)
      simp only
      split
      · split
        · rfl
        · rename_i i f hfa
          rw [ih _ _ _ (hf f (findAlt_mem hfa))]
      · rfl

theorem agree_encOMembers {E E' : Bool → Ptr → JVal → Res (List Piece × Bool)} (hE : ∀ a p v, P p → E' a p v = E a p v) (lvl : Nat) (allow : Bool) :
    ∀ (fs : List Field) (ms : List (Bytes × JVal)) (pos : Int), (∀ f ∈ fs, P f.type) → encOMembers T' E' lvl allow fs ms pos = encOMembers T E lvl allow fs ms pos
  | [], [], _, _ => rfl
  | f :: fs, [], pos, h => by
    unfold encOMembers
    simp only [ha.get (h f (by simp))]
  | [], m :: ms, pos, h => rfl
  | f :: fs, (k, v) :: ms, pos, h => by
    have h1 := h f (by simp)
    have ih : ∀ pos, encOMembers T' E' lvl allow fs ms pos = encOMembers T E lvl allow fs ms pos :=
      fun pos => agree_encOMembers hE lvl allow fs ms pos (fun g hg => h g (List.mem_cons_of_mem _ hg))
    unfold encOMembers
    simp only [hE _ _ _ h1, ih]

theorem agree_encO (L : Leaves) : ∀ (n lvl : Nat) (allow : Bool) (ty : Ptr) (v : JVal), P ty → encO T' L n lvl allow ty v = encO T L n lvl allow ty v
  | 0, _, _, _, _, _ => rfl
  | n + 1, lvl, allow, ty, v, hty => by
    obtain ⟨d, h1, h2, h3, h4⟩ := ha ty hty
    have ih : ∀ l a p v, P p → encO T' L n l a p v = encO T L n l a p v := fun l a p v hp => agree_encO L n l a p v hp
    unfold encO
    rw [h1, h2]
    cases d with
    | builtin b => rfl
    | aliasDef => cases h3
    | structDef => cases h3
    | variantDef => cases h3
    | «alias» q => cases h3
    | optional q => simp only [ih _ _ _ _ (h4 q (by simp [TData.ptrs]))]
    | extension q => simp only [ih _ _ _ _ (h4 q (by simp [TData.ptrs]))]
    | array q =>
      have he : encO T' L n (lvl + 1) false q = encO T L n (lvl + 1) false q := funext fun v => ih _ _ _ _ (h4 q (by simp [TData.ptrs]))
      cases v <;> simp only [he]
    | struct fs =>
      have hf : ∀ f ∈ fs, P f.type := fun f hf => h4 _ (by simp only [TData.ptrs]; exact List.mem_map.2 ⟨f, hf, rfl⟩)
      cases v <;> simp only [agree_encOMembers ha (ih (lvl + 1)) lvl _ fs _ _ hf]
    | variant fs =>
      have hf : ∀ f ∈ fs, P f.type := fun f hf => h4 _ (by simp only [TData.ptrs]; exact List.mem_map.2 ⟨f, hf, rfl⟩)
      cases v with
      | arr l =>
        simp only
        split
        · match l with
          | [] => rfl
          | .str name :: l =>
            simp only
            split
            · rfl
            · rename_i i f hfa
              have h6 : P f.type := hf f (findAlt_mem hfa)
              cases l with
              | nil => rfl
              | cons x l => simp only [ih _ _ _ _ h6]
          | .null :: l => rfl
          | .bool _ :: l => rfl
          | .arr _ :: l => rfl
          | .obj _ :: l => rfl
        · rfl
      | _ => rfl

theorem agree_decFields {E E' : Bool → Ptr → Bytes → Res (Bytes × Bytes)} (hE : ∀ a p v, P p → E' a p v = E a p v) (allow : Bool) :
    ∀ (fs : List Field) (pos : Int) (bin : Bytes), (∀ f ∈ fs, P f.type) → decFields T' E' allow fs pos bin = decFields T E allow fs pos bin
  | [], _, _, _ => rfl
  | f :: fs, pos, bin, h => by
    have h1 := h f (by simp)
    have ih : ∀ pos bin, decFields T' E' allow fs pos bin = decFields T E allow fs pos bin :=
      fun pos bin => agree_decFields hE allow fs pos bin (fun g hg => h g (List.mem_cons_of_mem _ hg))
    unfold decFields
    simp only [ha.get h1, hE _ _ _ h1, ih]

theorem agree_dec (L : Leaves) : ∀ (n lvl : Nat) (allow : Bool) (ty : Ptr) (bin : Bytes), P ty → dec T' L n lvl allow ty bin = dec T L n lvl allow ty bin
  | 0, _, _, _, _, _ => rfl
  | n + 1, lvl, allow, ty, bin, hty => by
    obtain ⟨d, h1, h2, h3, h4⟩ := ha ty hty
    have ih : ∀ l a p v, P p → dec T' L n l a p v = dec T L n l a p v := fun l a p v hp => agree_dec L n l a p v hp
    unfold dec
    rw [h1, h2]
    cases d with
    | builtin b => rfl
    | aliasDef => cases h3
    | structDef => cases h3
    | variantDef => cases h3
    | «alias» q => cases h3
    | optional q => simp only [ih _ _ _ _ (h4 q (by simp [TData.ptrs]))]
    | extension q => simp only [ih _ _ _ _ (h4 q (by simp [TData.ptrs]))]
    | array q =>
      have he : dec T' L n (lvl + 1) false q = dec T L n (lvl + 1) false q := funext fun v => ih _ _ _ _ (h4 q (by simp [TData.ptrs]))
      simp only [he]
    | struct fs =>
      have hf : ∀ f ∈ fs, P f.type := fun f hf => h4 _ (by simp only [TData.ptrs]; exact List.mem_map.2 ⟨f, hf, rfl⟩)
      simp only [agree_decFields ha (ih (lvl + 1)) _ fs _ _ hf]
    | variant fs =>
      have hf : ∀ f ∈ fs, P f.type := fun f hf => h4 _ (by simp only [TData.ptrs]; exact List.mem_map.2 ⟨f, hf, rfl⟩)
      simp only
      split
      · cases varuint32FromBin bin with
        | error e => rfl
        | ok i =>
          simp only [bind, Except.bind]
          split
          · rfl
          · rename_i f hfa
            rw [ih _ _ _ _ (hf f (List.mem_of_getElem? hfa))]
      · rfl

variable (wf : T.WF) (wf' : T'.WF) {ty : Ptr} (hty : P ty) (L : Leaves)
include wf wf' hty

theorem agree_jsonToBin (v : JVal) (r : Res Bytes) : JsonToBin T' L ty v r ↔ JsonToBin T L ty v r := by
  obtain ⟨d, h1, h2, h3, -⟩ := ha ty hty
  rw [jsonToBin_iff wf ⟨d, h1, h3⟩ v (3 * v.height + 3) (by omega), jsonToBin_iff wf' ⟨d, h2, h3⟩ v (3 * v.height + 3) (by omega),
    agree_encO ha L _ _ _ _ _ hty]

theorem agree_binToJson (bin : Bytes) (r : Res (Bytes × Bytes)) : BinToJson T' L ty bin r ↔ BinToJson T L ty bin r := by
  obtain ⟨d, h1, h2, h3, -⟩ := ha ty hty
  rw [binToJson_iff wf ⟨d, h1, h3⟩ bin (3 * maxStack + 3) (by omega), binToJson_iff wf' ⟨d, h2, h3⟩ bin (3 * maxStack + 3) (by omega),
    agree_dec ha L _ _ _ _ _ hty]

theorem agree_jvalueToBin (v : JVal) (r : Res Bytes) : JvalueToBin T' L ty v r ↔ JvalueToBin T L ty v r := by
  obtain ⟨d, h1, h2, h3, -⟩ := ha ty hty
  rw [jvalueToBin_iff wf ⟨d, h1, h3⟩ v (3 * v.height + 3) (by omega), jvalueToBin_iff wf' ⟨d, h2, h3⟩ v (3 * v.height + 3) (by omega),
    agree_encR ha L _ _ _ _ hty]

theorem agree_reorderable (v : JVal) (r : Res Bytes) : JsonToBinReorderable T' L ty v r ↔ JsonToBinReorderable T L ty v r := by
  unfold JsonToBinReorderable
  split
  · rfl
  · exact agree_jvalueToBin ha wf wf' hty L _ r

end
end Abieos
