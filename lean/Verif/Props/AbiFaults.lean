import Verif.Proofs.AbiFaults
import Verif.Props.Messages
import Verif.Props.BinFaults
/-
C74: what an unreadable ABI definition is told.
-/
namespace Abieos
open Spec

/-! ## Documents -/

/-- **C74.** A JSON document describes an ABI definition exactly if it has the shape of one. -/
theorem c74_describes (v : JVal) : (∃ D, AbiDoc v D) ↔ HasShape abiShape v := by
  rw [← abiJson_ok]
  exact exists_congr fun D => (c50_reads_description v D).symm

/-- **C74.** A document has a fault exactly if it describes no ABI definition, and then it has one fault only. -/
theorem c74_one_fault (v : JVal) : ((∃ m, ShapeFault abiShape v m) ↔ ¬ ∃ D, AbiDoc v D) ∧ ∀ m m', ShapeFault abiShape v m → ShapeFault abiShape v m' → m = m' := by
  constructor
  · constructor
    · rintro ⟨m, h⟩ ⟨D, hD⟩
      obtain ⟨e, -, -, h⟩ := abiJson_fails.2 h
      rw [(c50_reads_description v D).2 hD] at h
      cases h
    · intro h
      cases hr : abiDefFromJson v.toks with
      | ok D => exact absurd ⟨D, (c50_reads_description v D).1 hr⟩ h
      | error e => exact ⟨e.what, abiJson_fails.1 ⟨e, fun he => defined_abiDefFromJson v (by rw [hr, he]), rfl, hr⟩⟩
  · intro m m' h h'
    obtain ⟨e, -, h1, he⟩ := abiJson_fails.2 h
    obtain ⟨e', -, h2, he'⟩ := abiJson_fails.2 h'
    rw [he] at he'
    cases he'
    rw [← h1, h2]

/-- **C74.** Loading a document that describes no ABI definition says the first thing that is wrong with it. -/
theorem c74_document {env : Env} {c : Ctx} {k : Nat} {text : Option Bytes} {v : JVal} {m : String} (hr : env.read (cstr text) = some v)
    (h : ShapeFault abiShape v m) : Says env c (.setAbi k text) (str m) := by
  obtain ⟨e, hub, rfl, he⟩ := abiJson_fails.2 h
  refine says_of (handled_says failure_false fun x hx => ?_)
  unfold SetAbi at hx
  simp only [hr, he, failed] at hx
  rw [if_neg hub] at hx
  exact .inl ⟨_, hx⟩

/-! ## Bytes -/

theorem text_nonempty {v rest : Bytes} : textFromBin [] ≠ .ok (v, rest) := by
  intro h
  unfold textFromBin at h
  rw [show varuint32FromBin [] = .error .overrun by unfold varuint32FromBin; rw [varuintFromBinLoop.eq_def]; rfl] at h
  cases h

/-- What `abieos_set_abi_bin` answers before it loads the definition. -/
theorem setAbiBin_fault {c : Ctx} {k : Nat} {b : Bytes} {m : String} (hb : b.length < 2 ^ 32) (h : AbiBytesFault b m) :
    ∀ o, CallSetAbiBin k (some b) (some c) o → ∃ c' r, o = .done (some c') r ∧ Failure r ∧ c'.lastError = str m := by
  cases h with
  | empty =>
    refine handled_says failure_false fun x hx => ?_
    unfold SetAbiBin at hx
    simp only [Option.getD_some, if_true] at hx
    subst hx
    exact .inr ⟨_, _, rfl, rfl, rfl⟩
  | noVersion h0 h1 =>
    obtain ⟨e, hub, rfl, he⟩ := (faults_text b m hb).2 h1
    refine handled_says failure_false fun x hx => ?_
    unfold SetAbiBin at hx
    simp only [Option.getD_some] at hx
    rw [if_neg h0, he] at hx
    simp only [failed] at hx
    rw [if_neg hub] at hx
    exact .inl ⟨_, hx⟩
  | version h1 h2 => exact setAbiBin_version (text_iff.2 ⟨_, h1, rfl⟩) (by rintro ⟨minor, hm⟩; exact h2 minor hm)
  | @rest hd minor tl m h1 h2 =>
    have ht : textFromBin (hd ++ (str "eosio::abi/1." ++ minor ++ tl)) = .ok (str "eosio::abi/1." ++ minor, tl) := text_iff.2 ⟨_, h1, rfl⟩
    obtain ⟨e, hub, rfl, he⟩ := (faults_sections (str "eosio::abi/1." ++ minor) tl m (by simp only [List.length_append] at hb; omega)).2 h2
    have ha : abiDefFromBin (hd ++ (str "eosio::abi/1." ++ minor ++ tl)) = .error e := by rw [abiDefFromBin_sections, ht, bind_ok]; exact he
    generalize hd ++ (str "eosio::abi/1." ++ minor ++ tl) = b at *
    have h0 : b ≠ [] := by rintro rfl; exact text_nonempty ht
    refine handled_says failure_false fun x hx => ?_
    unfold SetAbiBin at hx
    simp only [Option.getD_some] at hx
    rw [if_neg h0, ht] at hx
    simp only at hx
    rw [if_pos ((versionOk_iff _).2 ⟨_, rfl⟩), ha] at hx
    simp only [failed] at hx
    rw [if_neg hub] at hx
    exact .inl ⟨_, hx⟩

/-- **C74.** Loading bytes that hold no ABI definition of a known version says the first thing that is wrong with them; so does loading their digits. -/
theorem c74_binary {env : Env} {c : Ctx} {k : Nat} {data : Bytes} {m : String} (hb : data.length < 2 ^ 32) (h : AbiBytesFault data m) :
    Says env c (.setAbiBin k (some data)) (str m) ∧ ∀ hex, unhexLoop (cstr hex) = some data → Says env c (.setAbiHex k hex) (str m) :=
  ⟨says_of (setAbiBin_fault hb h), fun _ hx => says_of (hexLoad_says hx (setAbiBin_fault hb h))⟩

/-- **C74.** Bytes have a fault exactly if they hold no ABI definition of a known version, and then they have one fault only. -/
theorem c74_one_fault_binary {data : Bytes} (hb : data.length < 2 ^ 32) :
    ((∃ m, AbiBytesFault data m) ↔ ¬ ∃ D, HoldsDef data D ∧ ∃ minor, D.version = str "eosio::abi/1." ++ minor) ∧
    ∀ m m', AbiBytesFault data m → AbiBytesFault data m' → str m = str m' := by
  constructor
  · constructor
    · rintro ⟨m, h⟩ ⟨D, ⟨rest, hD⟩, minor, hv⟩
      obtain ⟨r, ht⟩ := abiDef_version hD
      cases h with
      | empty => exact text_nonempty ht
      | noVersion h0 h1 =>
        obtain ⟨e, -, -, he⟩ := (faults_text data m hb).2 h1
        rw [he] at ht
        cases ht
      | version h1 h2 =>
        rw [text_iff.2 ⟨_, h1, rfl⟩] at ht
        cases ht
        exact h2 _ hv
      | @rest hd minor' tl m h1 h2 =>
        obtain ⟨e, hub, rfl, he⟩ := (faults_sections (str "eosio::abi/1." ++ minor') tl m (by simp only [List.length_append] at hb; omega)).2 h2
        rw [abiDefFromBin_sections, text_iff.2 ⟨_, h1, rfl⟩, bind_ok] at hD
        rw [he] at hD
        cases hD
    · intro h
      by_cases h0 : data = []
      · subst h0; exact ⟨_, .empty⟩
      cases ht : textFromBin data with
      | error e => exact ⟨_, .noVersion h0 ((faults_text data e.what hb).1 ⟨e, fun he => defined_text data (by rw [ht, he]), rfl, ht⟩)⟩
      | ok p =>
        obtain ⟨v, rest⟩ := p
        obtain ⟨hd, h1, rfl⟩ := text_iff.1 ht
        by_cases hv : ∃ minor, v = str "eosio::abi/1." ++ minor
        · obtain ⟨minor, rfl⟩ := hv
          cases ha : abiDefFromBin (hd ++ (str "eosio::abi/1." ++ minor ++ rest)) with
          | ok p =>
            obtain ⟨D, tl⟩ := p
            refine absurd ⟨D, ⟨tl, ha⟩, minor, ?_⟩ h
            obtain ⟨r, h2⟩ := abiDef_version ha
            rw [ht] at h2
            exact (congrArg Prod.fst (Except.ok.inj h2)).symm
          | error e =>
            have hub : e ≠ .ub := fun he => defined_abiDefFromBin _ (by rw [ha, he])
            rw [abiDefFromBin_sections, ht, bind_ok] at ha
            exact ⟨_, .rest h1 ((faults_sections _ rest e.what (by simp only [List.length_append] at hb; omega)).1 ⟨e, hub, rfl, ha⟩)⟩
        · exact ⟨_, .version h1 fun minor hm => hv ⟨minor, hm⟩⟩
  · intro m m' h h'
    obtain ⟨o, ho⟩ := setAbiBin_exists 0 data Ctx.init
    have hs : CallSetAbiBin 0 (some data) (some Ctx.init) _ := handled_iff.2 ⟨o, ho, rfl⟩
    obtain ⟨c1, r1, e1, -, h1⟩ := setAbiBin_fault (c := Ctx.init) (k := 0) hb h _ hs
    obtain ⟨c2, r2, e2, -, h2⟩ := setAbiBin_fault (c := Ctx.init) (k := 0) hb h' _ hs
    rw [e1] at e2
    cases e2
    rw [← h1, h2]

/-! ## Examples -/

namespace AbiFaultsExample

/-- `{"version": "eosio::abi/1.1", "structs": [{"name": "a", "fields": [{"name": "x", "type": 5, …}]}], …}`: the first wrong member is the type of the field, which
is no text; what follows does not matter, and neither do members no definition has. -/
def doc (more : List (Bytes × JVal)) (t : JVal) : JVal :=
  .obj ([(str "version", .str (str "eosio::abi/1.1")), (str "comment", .null),
    (str "structs", .arr [.obj [(str "name", .str (str "a")), (str "fields", .arr [.obj [(str "name", .str (str "x")), (str "type", t)]])]])] ++ more)

theorem doc_fault (more : List (Bytes × JVal)) : ShapeFault abiShape (doc more (.bool true)) "Expected string" :=
  .object (before := [(str "version", .str (str "eosio::abi/1.1")), (str "comment", .null)]) (after := more) (k := str "structs") (s := .list structShape)
    (by
      intro j w hj s hs
      simp only [List.mem_cons, Prod.mk.injEq, List.not_mem_nil, or_false] at hj
      rcases hj with ⟨rfl, rfl⟩ | ⟨rfl, rfl⟩
      · simp only [List.mem_cons, mem, Prod.mk.injEq, List.not_mem_nil, or_false] at hs
        rcases hs with ⟨-, rfl⟩ | ⟨h, -⟩ | ⟨h, -⟩ | ⟨h, -⟩ | ⟨h, -⟩ | ⟨h, -⟩ | ⟨h, -⟩ | ⟨h, -⟩ | ⟨h, -⟩
        · exact .text
        all_goals exact absurd h (by decide)
      · simp only [List.mem_cons, mem, Prod.mk.injEq, List.not_mem_nil, or_false] at hs
        rcases hs with ⟨h, -⟩ | ⟨h, -⟩ | ⟨h, -⟩ | ⟨h, -⟩ | ⟨h, -⟩ | ⟨h, -⟩ | ⟨h, -⟩ | ⟨h, -⟩ | ⟨h, -⟩
        all_goals exact absurd h (by decide))
    (by simp [mem])
    (.list (before := []) (after := []) (by simp)
      (.object (before := [(str "name", .str (str "a"))]) (after := []) (k := str "fields") (s := .list fieldShape)
        (by
          intro j w hj s hs
          simp only [List.mem_cons, Prod.mk.injEq, List.not_mem_nil, or_false] at hj
          obtain ⟨rfl, rfl⟩ := hj
          simp only [List.mem_cons, mem, Prod.mk.injEq, List.not_mem_nil, or_false] at hs
          rcases hs with ⟨-, rfl⟩ | ⟨h, -⟩ | ⟨h, -⟩
          · exact .text
          all_goals exact absurd h (by decide))
        (by simp [mem])
        (.list (before := []) (after := []) (by simp)
          (.object (before := [(str "name", .str (str "x"))]) (after := []) (k := str "type") (s := .text)
            (by
              intro j w hj s hs
              simp only [List.mem_cons, Prod.mk.injEq, List.not_mem_nil, or_false] at hj
              obtain ⟨rfl, rfl⟩ := hj
              simp only [List.mem_cons, mem, Prod.mk.injEq, List.not_mem_nil, or_false] at hs
              rcases hs with ⟨-, rfl⟩ | ⟨h, -⟩
              · exact .text
              all_goals exact absurd h (by decide))
            (by simp [mem])
            (.text fun s => by simp)))))

example (more : List (Bytes × JVal)) : ¬ ∃ D, AbiDoc (doc more (.bool true)) D := (c74_one_fault _).1.1 ⟨_, doc_fault more⟩

example : ShapeFault abiShape (.arr []) "Expected {" := .noObject fun l => by simp

/-- The version, one type, and then the list of structs ends early. -/
def cutData : Bytes := [14] ++ (str "eosio::abi/1.1" ++ ([1, 1, 97, 4] ++ str "int8" ++ [1, 1, 115, 0, 1, 1, 120]))

theorem cut_fault : AbiBytesFault cutData "Stream overrun" := by
  refine .rest (minor := [49]) (h := [14]) (rest := [1, 1, 97, 4] ++ str "int8" ++ [1, 1, 115, 0, 1, 1, 120]) (FaultsExample.size_of (n := 14) (by decide)) ?_
  refine .second (b := [1, 1, 97, 4] ++ str "int8") (b' := [1, 1, 115, 0, 1, 1, 120]) ?_ (.first ?_)
  · exact .list (h := [1]) (l := [[1, 97] ++ ([4] ++ str "int8")]) (FaultsExample.size_of (n := 1) (by decide)) fun b hb => by
      rw [List.mem_singleton] at hb
      subst hb
      exact .pair (.text (h := [1]) (b := [97]) (FaultsExample.size_of (n := 1) (by decide))) (.text (h := [4]) (b := str "int8") (FaultsExample.size_of (n := 4) (by decide)))
  · refine .elem (n := 1) (h := [1]) (l := []) (b := [1, 115, 0, 1, 1, 120]) (FaultsExample.size_of (n := 1) (by decide)) (by decide) (by simp) ?_
    refine .second (b := [1, 115]) (b' := [0, 1, 1, 120]) (.text (h := [1]) (b := [115]) (FaultsExample.size_of (n := 1) (by decide))) ?_
    refine .second (b := [0]) (b' := [1, 1, 120]) (.text (h := [0]) (b := []) (FaultsExample.size_of (n := 0) (by decide))) ?_
    refine .elem (n := 1) (h := [1]) (l := []) (b := [1, 120]) (FaultsExample.size_of (n := 1) (by decide)) (by decide) (by simp) ?_
    exact .second (b := [1, 120]) (b' := []) (.text (h := [1]) (b := [120]) (FaultsExample.size_of (n := 1) (by decide))) (.text (.noSize (by simp) (by decide)))

example (env : Env) (c : Ctx) (k : Nat) : Says env c (.setAbiBin k (some cutData)) (str "Stream overrun") := (c74_binary (by decide +kernel) cut_fault).1

end AbiFaultsExample

end Abieos
