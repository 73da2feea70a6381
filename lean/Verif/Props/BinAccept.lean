import Verif.Proofs.BinAccept
/-!
**C64.** Exactly which byte strings the binary readers of C++ values accept, and as which values: also those the library would not have
written.
-/
namespace Abieos
open Spec

/-- **C64.** The reader of a type accepts exactly the inputs that begin with a value of the type, in any of the forms a value may have, and
leaves what follows. -/
theorem c64_accepts {t : BTy} (ho : Orders t) (v : BVal) (s r : Bytes) : fromBin t s = .ok (v, r) ↔ Scan t v s r := scan_iff t ho v s r

/-- **C64.** `convert_from_bin` accepts exactly the inputs that begin with a value of the type; what follows the value is ignored. -/
theorem c64_convert {t : BTy} (ho : Orders t) (v : BVal) (s : Bytes) : convertFromBin t s = .ok v ↔ ∃ r, Scan t v s r := by
  unfold convertFromBin
  constructor
  · intro h
    obtain ⟨⟨v', r⟩, h1, h⟩ := bind_eq_ok.1 h
    injection h with h
    subst h
    exact ⟨r, (scan_iff t ho _ _ _).1 h1⟩
  · rintro ⟨r, h⟩
    rw [(scan_iff t ho _ _ _).2 h]
    rfl

/-- **C64.** The forms are unambiguous: an input begins with at most one value of the type. -/
theorem c64_unique {t : BTy} (ho : Orders t) {v v' : BVal} {s r r' : Bytes} (h : Scan t v s r) (h' : Scan t v' s r') : v = v' ∧ r = r' := by
  rw [← scan_iff t ho] at h h'
  rw [h] at h'
  simp only [Except.ok.injEq, Prod.mk.injEq] at h'
  exact h'

/-- **C64.** What the library writes is one of the forms. -/
theorem c64_written {t : BTy} (ho : Orders t) (hw : WfType t) {v : BVal} {b : Bytes} (h : Layout t v b) (r : Bytes) : Scan t v (b ++ r) r :=
  (scan_iff t ho _ _ _).1 (layout_read t v b hw h r)

/-- **C64.** Sets: whatever the order of the elements in the input and however often they are repeated, the set holds each once, the first
of those the comparison does not distinguish, in the order of the comparison. -/
theorem c64_set {lt : BVal → BVal → Bool} {t : BTy} (ho : Orders t) (hl : WeakOrder lt) {s r : Bytes} {m : List BVal} :
    fromBin (.set lt t) s = .ok (.list m, r) ↔ ∃ l, fromBin (.vec t) s = .ok (.list l, r) ∧
      m.Pairwise (fun x y => lt x y = true) ∧ ∀ y, y ∈ m ↔ FirstOf lt l y := by
  rw [scan_iff (.set lt t) ⟨ho, hl⟩, Scan]
  constructor
  · rintro ⟨h, l, m', e, rfl, h1, h2, h3, h4⟩
    injection h4 with h4
    subst h4
    refine ⟨l, (scan_iff (.vec t) ho _ _ _).2 ?_, h3⟩
    rw [Scan]
    exact ⟨h, l, m', rfl, h1, h2, rfl⟩
  · rintro ⟨l, h1, h2⟩
    rw [scan_iff (.vec t) ho, Scan] at h1
    obtain ⟨h, l', m', rfl, h3, h4, h5⟩ := h1
    injection h5 with h5
    subst h5
    exact ⟨h, l, m', m, rfl, h3, h4, h2, rfl⟩

/-- **C64.** The elements of a set in the input may be permuted, if the comparison distinguishes all of them: the set is the same. -/
theorem c64_set_order {lt : BVal → BVal → Bool} {t : BTy} (ho : Orders t) (hl : WeakOrder lt) {s s' r r' : Bytes} {l l' m : List BVal}
    (h1 : fromBin (.vec t) s = .ok (.list l, r)) (h2 : fromBin (.vec t) s' = .ok (.list l', r')) (hp : ∀ x, x ∈ l ↔ x ∈ l')
    (hd : ∀ x ∈ l, ∀ y ∈ l, Tied lt x y → x = y) (hm : fromBin (.set lt t) s = .ok (.list m, r)) : fromBin (.set lt t) s' = .ok (.list m, r') := by
  obtain ⟨l0, h3, h4, h5⟩ := (c64_set ho hl).1 hm
  rw [h1] at h3
  simp only [Except.ok.injEq, Prod.mk.injEq, BVal.list.injEq, and_true] at h3
  subst h3
  refine (c64_set ho hl).2 ⟨l', h2, h4, fun y => ?_⟩
  have key : ∀ {k : List BVal}, (∀ x ∈ k, ∀ y ∈ k, Tied lt x y → x = y) → (FirstOf lt k y ↔ y ∈ k) := by
    intro k hk
    constructor
    · rintro ⟨a, b, rfl, -⟩; simp
    · intro hy
      obtain ⟨c, w, d, e, h6, h7⟩ := first_same hl.irrefl hy
      have : w = y := hk w (by rw [e]; simp) y hy h6
      subst this
      exact ⟨c, d, e, h7⟩
  rw [h5, key hd, key (fun x hx z hz => hd x ((hp x).2 hx) z ((hp z).2 hz)), hp]

namespace AcceptExample

/-- `std::map<varuint32, std::string>` -/
def byNumber : BVal → BVal → Bool := fun x y => decide ((match x with | .num n => n | _ => 0) < (match y with | .num n => n | _ => 0))

theorem weak : WeakOrder byNumber where
  irrefl x := by simp [byNumber]
  trans x y z h1 h2 := by
    simp only [byNumber, decide_eq_true_eq] at h1 h2 ⊢
    exact Nat.lt_trans h1 h2
  same x y z h1 h2 := by
    simp only [Tied, byNumber, decide_eq_false_iff_not] at h1 h2 ⊢
    omega

def ty : BTy := .struct [.map byNumber .varuint32 .str, .bool, .opt (.raw 1), .maybe (.raw [9]) (.raw 1)]

theorem orders : Orders ty := ⟨⟨trivial, trivial, weak⟩, trivial, trivial, trivial, trivial⟩

/-- The count in two bytes; the entries 5 "b", 2 "a", 5 "c": not in order, and 5 twice; a true that is 7, a value that is present with 255;
and the extension missing at the end. -/
theorem read : fromBin ty [0x83, 0, 5, 1, 98, 2, 1, 97, 5, 1, 99, 7, 255, 4] =
    .ok (.list [.list [.list [.num 2, .raw [97]], .list [.num 5, .raw [98]]], .raw [1], .some (.raw [4]), .raw [9]], []) := by with_unfolding_all rfl

example : Scan ty (.list [.list [.list [.num 2, .raw [97]], .list [.num 5, .raw [98]]], .raw [1], .some (.raw [4]), .raw [9]])
    [0x83, 0, 5, 1, 98, 2, 1, 97, 5, 1, 99, 7, 255, 4] [] := (c64_accepts orders _ _ _).1 read

end AcceptExample

end Abieos
