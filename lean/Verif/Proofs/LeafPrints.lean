import Verif.Proofs.StaticLeaf
import Verif.Proofs.Defined
import Verif.Proofs.BytesFaults
import Verif.Props.Keys
import Verif.Props.Ripemd160
/-
A builtin value is printed, but for the exceptions.
-/
namespace Abieos
open Spec

theorem map_cases {r : Res Bytes} {f : Bytes → Bytes} (h : (∃ t, r = .ok t) ∨ r = .error .ub) : (∃ t, r.map f = .ok t) ∨ r.map f = .error .ub := by
  rcases h with ⟨t, rfl⟩ | rfl
  · exact .inl ⟨_, rfl⟩
  · exact .inr rfl

theorem fp_cases (bits : Nat) : (∃ t, fpToJson bits = .ok t) ∨ fpToJson bits = .error .ub := by
  cases h : fpToJson bits with
  | ok t => exact .inl ⟨t, rfl⟩
  | error e => exact .inr (by rw [fpToJson_error h])

theorem assetToString_cases (a : Int) (s : Nat) : (∃ t, assetToString a s = .ok t) ∨ assetToString a s = .error .ub := by
  unfold assetToString
  split
  · exact .inr rfl
  · exact .inl ⟨_, rfl⟩

theorem showLeaf_cases {k : Builtin} {x : BVal} {b : Bytes} (h : Layout (leafTy k) x b) : (∃ t, showLeaf k x = .ok t) ∨ showLeaf k x = .error .ub := by
  cases k
  case public_key => exact map_cases (.inl (by obtain ⟨t, h1, -⟩ := c14_public_key_ripemd h; exact ⟨t, h1⟩))
  case private_key => exact map_cases (.inl (by obtain ⟨t, h1, -⟩ := c14_private_key keyDigest_length h; exact ⟨t, h1⟩))
  case signature => exact map_cases (.inl (by obtain ⟨t, h1, -⟩ := c14_signature keyDigest_length h; exact ⟨t, h1⟩))
  case asset =>
    unfold showLeaf
    split
    all_goals first
      | exact .inl ⟨_, rfl⟩
      | exact .inr rfl
      | exact map_cases (assetToString_cases _ _)
      | exact fp_cases _
      | contradiction
  all_goals
    cases x <;> first
      | exact .inl ⟨_, rfl⟩
      | exact .inr rfl
      | exact fp_cases _

/-- Every value of a builtin type has a text, but for the smallest amount of an asset and negative numbers of 24 digits. -/
theorem leaf_prints {k : Builtin} {b : Bytes} (h : LeafBytes k b) (hu : ¬ Unprintable k b) : ∃ t, builtinFromBin k b = .ok (t, []) := by
  obtain ⟨x, hx⟩ := (leafBytes_iff k b).1 h
  have := leaf_text hx []
  rw [List.append_nil] at this
  rcases showLeaf_cases hx with ⟨t, ht⟩ | he
  · exact ⟨t, by rw [this, ht]; rfl⟩
  · rw [he] at this
    exact absurd (builtinFromBin_ub this) hu

end Abieos
