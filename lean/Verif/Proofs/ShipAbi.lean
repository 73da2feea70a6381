import Verif.Props.SameTypeExample
import Verif.Props.Ship
import Verif.Proofs.Convert
import Verif.Spec.ShipAbi
import Verif.Proofs.ShipLits
/-
The types of the state-history protocol and a table that describes them; the table of the protocol's ABI has the same types under its names.
-/
namespace Abieos
open Spec
namespace Ship

mutual
/-- the type and what is in it, not looking into structs -/
def parts : CTy → List CTy
  | .leaf k => [.leaf k]
  | .struct n => [.struct n]
  | .vec t => .vec t :: parts t
  | .opt t => .opt t :: parts t
  | .ext t => .ext t :: parts t
  | .variant ts => .variant ts :: partsAll ts
def partsAll : List CTy → List CTy
  | [] => []
  | t :: ts => parts t ++ partsAll ts
end

theorem self_parts (t : CTy) : t ∈ parts t := by
  cases t <;> simp [parts]

theorem partsAll_mem : ∀ {ts : List CTy} {t u : CTy}, t ∈ ts → u ∈ parts t → u ∈ partsAll ts
  | [], _, _, h, _ => by simp at h
  | s :: ts, t, u, h, hu => by
    rw [partsAll, List.mem_append]
    rcases List.mem_cons.1 h with rfl | h
    · exact .inl hu
    · exact .inr (partsAll_mem h hu)

/-- all types of members, of the variants, structs, and of the data in results -/
def tops : List CTy := variants ++ prog.map (fun s => .struct s.1) ++ [.vec table_deltaTy, .vec transaction_traceTy] ++ prog.flatMap fun s => s.2.map (·.2)

/-- add a type that is not there -/
def insertOnce (t : CTy) (l : List CTy) : List CTy := if l.any t.same then l else t :: l

theorem mem_insertOnce {t u : CTy} {l : List CTy} (h : u = t ∨ u ∈ l) : u ∈ insertOnce t l := by
  unfold insertOnce
  split
  · rename_i ha
    rcases h with rfl | h
    · obtain ⟨w, hw, e⟩ := List.any_eq_true.1 ha
      rw [(same_iff _ _).1 e]; exact hw
    · exact h
  · exact List.mem_cons.2 h

theorem mem_once {u : CTy} : ∀ {l : List CTy}, u ∈ l → u ∈ l.foldr insertOnce []
  | t :: l, h => by
    rw [List.foldr_cons]
    refine mem_insertOnce ?_
    rcases List.mem_cons.1 h with h | h
    · exact .inl h
    · exact .inr (mem_once h)

/-- every type once -/
def types : List CTy := (tops.flatMap parts).foldr insertOnce []

/-- What is used is among the parts of what there is. -/
theorem uses_parts {t u : CTy} (h : Uses prog t u) : u ∈ parts t ∨ ∃ s ∈ prog, ∃ f ∈ s.2, u ∈ parts f.2 := by
  induction h with
  | self => exact .inl (self_parts _)
  | vec _ ih => exact ih.imp_left fun h => by rw [parts]; exact List.mem_cons_of_mem _ h
  | opt _ ih => exact ih.imp_left fun h => by rw [parts]; exact List.mem_cons_of_mem _ h
  | ext _ ih => exact ih.imp_left fun h => by rw [parts]; exact List.mem_cons_of_mem _ h
  | alt hm _ ih => exact ih.imp_left fun h => by rw [parts]; exact List.mem_cons_of_mem _ (partsAll_mem hm h)
  | @field n m t u hm _ ih =>
    rcases ih with ih | ih
    · unfold Prog.fields at hm
      cases hl : prog.lookup n with
      | none => rw [hl] at hm; simp at hm
      | some fs =>
        rw [hl] at hm
        exact .inr ⟨_, mem_of_lookup hl, _, hm, ih⟩
    · exact .inr ih

theorem uses_types {t u : CTy} (ht : t ∈ tops) (h : Uses prog t u) : u ∈ types := by
  rcases uses_parts h with h | ⟨s, hs, f, hf, h⟩
  · exact mem_once (List.mem_flatMap.2 ⟨_, ht, h⟩)
  · refine mem_once (List.mem_flatMap.2 ⟨f.2, ?_, h⟩)
    unfold tops
    exact List.mem_append_right _ (List.mem_flatMap.2 ⟨s, hs, List.mem_map_of_mem hf⟩)

/-- a table with exactly these types -/
def table : Table := types.foldl (fun T t => T.emplace (typeText t) (shape prog t)) []

/-- the name of the type in the ABI -/
def abiName : CTy → Bytes
  | .leaf k => k.typeName
  | .struct n => n
  | .vec t => abiName t ++ str "[]"
  | .opt t => abiName t ++ str "?"
  | .ext t => abiName t ++ str "$"
  | .variant ts => ((Spec.Ship.choices.find? fun v => v.types == ts.map typeText).map (·.name)).getD []

/-- the ABI's table, after the arrays in results have been asked for -/
def loaded : Table := lookups [str "table_delta[]", str "transaction_trace[]"] (LoaderExample.tableOf (LoaderExample.load Spec.Ship.abi))

def pairs : List (Bytes × Bytes) := types.map fun t => (abiName t, typeText t)

/-- numbers that C++ copies from the data -/
def fixedB : Builtin → Bool
  | .int8 | .uint8 | .int16 | .uint16 | .int32 | .uint32 | .int64 | .uint64 | .int128 | .uint128 | .float32 | .float64 => true
  | _ => false

theorem fixedB_iff (k : Builtin) : fixedB k = true ↔ IsFixedNumber k := by cases k <;> simp [fixedB, IsFixedNumber]

/-- what the theorems about conversions ask of a table, entry by entry -/
def entryB : TData → Bool
  | .struct fs => decide (fs.length < 2147483648) && decide (fs.map (·.name)).Nodup
  | .extension _ => false
  | _ => true

/-- a vector of numbers -/
def numbersB : CTy → Bool
  | .vec (.leaf k) => fixedB k
  | _ => false

/-- what is asked for is found -/
def foundB (p : Bytes) : Res Ptr → Bool
  | .ok q => q == p
  | .error _ => false

theorem foundB_iff {p : Bytes} {r : Res Ptr} : foundB p r = true ↔ r = .ok p := by cases r <;> simp [foundB]


/-- `prog`s that are the same -/
def sameProg : Prog → Prog → Bool
  | [], [] => true
  | (n, fs) :: p, (m, gs) :: q => n == m && fs.map (·.1) == gs.map (·.1) && CTy.sameAll (fs.map (·.2)) (gs.map (·.2)) && sameProg p q
  | _, _ => false

theorem eq_of_maps {α β : Type} : ∀ {l m : List (α × β)}, l.map (·.1) = m.map (·.1) → l.map (·.2) = m.map (·.2) → l = m
  | [], [], _, _ => rfl
  | [], _ :: _, h, _ => by cases h
  | _ :: _, [], h, _ => by cases h
  | (a, b) :: l, (c, d) :: m, h, g => by
    simp only [List.map_cons, List.cons.injEq] at h g
    rw [h.1, g.1, eq_of_maps h.2 g.2]

theorem sameProg_eq : ∀ {p q : Prog}, sameProg p q = true → p = q
  | [], [], _ => rfl
  | [], _ :: _, h => by cases h
  | _ :: _, [], h => by cases h
  | (n, fs) :: p, (m, gs) :: q, h => by
    simp only [sameProg, Bool.and_eq_true, beq_iff_eq] at h
    rw [h.1.1.1, eq_of_maps h.1.1.2 ((sameAll_iff _ _).1 h.1.2), sameProg_eq h.2]

theorem prog_lit : prog = progLit := sameProg_eq (by decide +kernel)

theorem abi_lit : Spec.Ship.abi = abiLit := by decide +kernel

theorem types_lit : types = typesLit := by
  unfold types tops
  rw [prog_lit]
  exact (sameAll_iff _ _).1 (by decide +kernel)

theorem table_lit : table = tableLit := by
  unfold table
  rw [types_lit, prog_lit]
  decide +kernel

theorem pairs_lit : pairs = pairsLit := by
  unfold pairs
  rw [types_lit]
  decide +kernel

theorem loaded_checks : (LoaderExample.isOk (LoaderExample.load Spec.Ship.abi) && loaded == loadedLit) = true := by
  unfold loaded
  rw [abi_lit]
  decide +kernel

theorem loaded_lit : loaded = loadedLit := by
  have h := loaded_checks
  rw [Bool.and_eq_true, beq_iff_eq] at h
  exact h.2

theorem check_loads : LoaderExample.isOk (LoaderExample.load Spec.Ship.abi) = true := by
  have h := loaded_checks
  rw [Bool.and_eq_true] at h
  exact h.1

theorem check_described : (types.all fun t => table.get (typeText t) == some (shape prog t)) = true := by
  rw [types_lit, table_lit, prog_lit]
  decide +kernel

theorem check_wf : table.wfB = true := by
  rw [table_lit]
  decide +kernel

theorem check_same : (pairs.all fun x => sameBuildB pairs (loaded.get x.1) (table.get x.2)) = true := by
  rw [pairs_lit, loaded_lit, table_lit]
  decide +kernel

theorem check_found : (types.all fun t => foundB (abiName t) (lookupType (abiName t) loaded).1) = true := by
  rw [types_lit, loaded_lit]
  decide +kernel

theorem check_entries : (table.all fun e => entryB e.2) = true := by
  rw [table_lit]
  decide +kernel

theorem check_numbers : (types.all fun t => !numbersB t) = true := by
  rw [types_lit]
  decide +kernel

def asciiB (s : Bytes) : Bool := s.all fun c => decide (c.toNat < 128)

theorem utf8_of_asciiB {s : Bytes} (h : asciiB s = true) : IsUtf8Text s :=
  (utf8_iff _).1 (utf8_ascii fun c hc => by simpa using List.all_eq_true.1 h c hc)

def altsB : CTy → Bool
  | .variant ts => ts.all fun t => asciiB (typeText t)
  | _ => true

theorem ascii_checks : ((prog.all fun s => s.2.all fun f => asciiB f.1) && types.all altsB) = true := by decide +kernel

/-- the names are those of the ABI, the types those of the program -/
theorem name_checks : (Spec.Ship.named.all (fun x => x.1 == abiName x.2 && tops.any x.2.same) &&
    (Spec.Ship.structs.all fun r => (prog.map (·.1)).contains r.name) && (prog.all fun s => (Spec.Ship.structs.map (·.name)).contains s.1) &&
    variants.all fun t => Spec.Ship.named.any fun x => t.same x.2) = true := by decide +kernel

end Ship
end Abieos
