import Verif.Spec.StaticPrints
import Verif.Props.StaticJson
import Verif.Props.StaticValue
import Verif.Props.KeyFormat
import Verif.Proofs.LeafPrints
/-!
**C54.** Which C++ values have a JSON text: all that can be stored, but for three kinds of scalars.
-/
namespace Abieos
open Spec

theorem unprintable_iff {k : Builtin} {b : Bytes} : Unprintable k b ↔ NoText k b := by cases k <;> exact Iff.rfl

theorem noExt_vec {P : Prog} {t : CTy} (h : NoExt P (.vec t)) : NoExt P t := fun u hu => h u (.vec hu)
theorem noExt_opt {P : Prog} {t : CTy} (h : NoExt P (.opt t)) : NoExt P t := fun u hu => h u (.opt hu)
theorem noExt_alt {P : Prog} {ts : List CTy} {t : CTy} (h : NoExt P (.variant ts)) (hm : t ∈ ts) : NoExt P t := fun u hu => h u (.alt hm hu)
theorem noExt_field {P : Prog} {n : Bytes} (h : NoExt P (.struct n)) : ∀ f ∈ P.fields n, NoExt P f.2 := fun _ hf u hu => h u (.field hf hu)

mutual
theorem shows_exists {P : Prog} : ∀ {t : CTy} {v : SVal} {b : Bytes}, Stored P t v b → NoExt P t → (∀ k c, ScalarIn P t v k c → ¬ NoText k c) → ∃ x, Shows P t v x
  | _, _, _, .leaf h, _, hs => by
    obtain ⟨t, ht⟩ := leaf_prints h (fun hu => hs _ _ .self (unprintable_iff.1 hu))
    exact ⟨_, .leaf ht⟩
  | _, _, _, .vec _ h, he, hs => by
    obtain ⟨x, hx⟩ := showsAll_exists h (noExt_vec he) (fun v hv k c hc => hs k c (.vec hv hc))
    exact ⟨_, .vec hx⟩
  | _, _, _, .absent, _, _ => ⟨_, .absent⟩
  | _, _, _, .present h, he, hs => by
    obtain ⟨x, hx⟩ := shows_exists h (noExt_opt he) (fun k c hc => hs k c (.present hc))
    exact ⟨_, .present hx⟩
  | _, _, _, .alt hi _ h, he, hs => by
    obtain ⟨x, hx⟩ := shows_exists h (noExt_alt he (List.mem_of_getElem? hi)) (fun k c hc => hs k c (.alt hi hc))
    exact ⟨_, .alt hi hx⟩
  | _, _, _, .struct h, he, hs => by
    obtain ⟨x, hx⟩ := showsFields_exists h (noExt_field he) (fun k c hc => hs k c (.struct hc))
    exact ⟨_, .struct hx⟩
  | _, _, _, .ext (t := t) _ _, he, _ => (he t .self).elim

theorem showsAll_exists {P : Prog} : ∀ {t : CTy} {l : List SVal} {b : Bytes}, StoredAll P t l b → NoExt P t →
    (∀ v ∈ l, ∀ k c, ScalarIn P t v k c → ¬ NoText k c) → ∃ x, ShowsAll P t l x
  | _, _, _, .nil, _, _ => ⟨_, .nil⟩
  | _, _, _, .cons h h', he, hs => by
    obtain ⟨x, hx⟩ := shows_exists h he (hs _ (by simp))
    obtain ⟨y, hy⟩ := showsAll_exists h' he (fun v hv => hs v (by simp [hv]))
    exact ⟨_, .cons hx hy⟩

theorem showsFields_exists {P : Prog} : ∀ {fs : List (Bytes × CTy)} {l : List SVal} {b : Bytes}, StoredFields P fs l b → (∀ f ∈ fs, NoExt P f.2) →
    (∀ k c, ScalarInFields P fs l k c → ¬ NoText k c) → ∃ x, ShowsFields P fs l x
  | _, _, _, .nil, _, _ => ⟨_, .nil⟩
  | _, _, _, .cons (n := n) (t := t) h h', he, hs => by
    obtain ⟨x, hx⟩ := shows_exists h (he (n, t) (by simp)) (fun k c hc => hs k c (.here hc))
    obtain ⟨y, hy⟩ := showsFields_exists h' (fun f hf => he f (by simp [hf])) (fun k c hc => hs k c (.later hc))
    exact ⟨_, .cons hx hy⟩
end

/-- **C54.** Every value that can be stored and uses no binary extensions has a JSON text, compact and indented, unless one of the scalars in
it has none: the smallest amount of an asset, or a float that is negative with 24 digits. -/
theorem c54_prints {P : Prog} {t : CTy} {v : SVal} {b : Bytes} (h : Stored P t v b) (he : NoExt P t) (hs : ∀ k c, ScalarIn P t v k c → ¬ NoText k c) :
    (∃ s, convertToJson P t v = .ok s) ∧ ∃ s, formatJson P t v = .ok s := by
  obtain ⟨x, hx⟩ := shows_exists h he hs
  exact ⟨⟨_, c54_compact hx⟩, _, c54_indented hx⟩

/-- **C54.** What was read from binary data can be printed, under the same condition. -/
theorem c54_prints_read {P : Prog} {t : CTy} (he : NoExt P t) {s r : Bytes} {v : SVal} (hl : s.length < 2 ^ 32) (h : FromBin P t s v r)
    (hs : ∀ k c, ScalarIn P t v k c → ¬ NoText k c) : ∃ u, convertToJson P t v = .ok u := by
  obtain ⟨b, h1, -⟩ := (c57_within he h).2 hl
  exact (c54_prints h1 he hs).1

/-! ## an example -/

namespace StaticPrintsExample

/-- `std::vector<std::optional<asset>>` -/
def ty : CTy := .vec (.opt (.leaf .asset))

/-- nothing, and an amount of SYS -/
def funds (amount : Bytes) : SVal := .vec [.absent, .present (.leaf (amount ++ [4, 83, 89, 83, 0, 0, 0, 0]))]

theorem noExt_ty : NoExt [] ty := by
  intro u h
  generalize hx : CTy.ext u = x at h
  cases h with
  | self => cases hx
  | vec h => cases h with
    | self => cases hx
    | opt h => cases h with
      | self => cases hx

theorem stored_funds {a : Bytes} (h : a.length = 8) : Stored [] ty (funds a) ([2] ++ ([0] ++ ((1 :: (a ++ [4, 83, 89, 83, 0, 0, 0, 0])) ++ []))) :=
  .vec ((size_tag (by simp)).2 rfl) (.cons .absent (.cons (.present (.leaf (by simp [LeafBytes, h]))) .nil))

theorem only_scalar {a c : Bytes} {k : Builtin} (h : ScalarIn [] ty (funds a) k c) : k = .asset ∧ c = a ++ [4, 83, 89, 83, 0, 0, 0, 0] := by
  cases h with
  | vec hm h =>
    cases h with
    | present h =>
      simp only [List.mem_cons, SVal.present.injEq, List.not_mem_nil, or_false] at hm
      rcases hm with hm | rfl
      · cases hm
      · cases h with
        | self => exact ⟨rfl, rfl⟩

/-- all amounts are printed but one -/
theorem c54_prints_example {a : Bytes} (h : a.length = 8) (hm : a ≠ [0, 0, 0, 0, 0, 0, 0, 128]) : ∃ s, convertToJson [] ty (funds a) = .ok s :=
  (c54_prints (stored_funds h) noExt_ty fun k c hc hn => by
    obtain ⟨rfl, rfl⟩ := only_scalar hc
    obtain ⟨sym, rest, -, e⟩ := hn
    rw [List.append_assoc] at e
    exact hm (List.append_inj_left e (by simp [h]))).1

example : StaticJsonExample.isText (convertToJson [] ty (funds [16, 39, 0, 0, 0, 0, 0, 0])) "[null,\"1.0000 SYS\"]" = true := by decide +kernel
example : (convertToJson [] ty (funds [0, 0, 0, 0, 0, 0, 0, 128])) = .error .ub := by decide +kernel

end StaticPrintsExample

end Abieos
