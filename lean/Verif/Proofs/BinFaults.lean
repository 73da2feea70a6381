import Verif.Spec.BinFaults
import Verif.Proofs.BytesFaults
import Verif.Proofs.Decodes
import Verif.Props.Shown
import Verif.Proofs.DefinedConv
/-
The decoder fails with a message exactly if the bytes have the fault.
-/
namespace Abieos
open Spec

section
variable {D : AbiDef} {T : Table} {L : Leaves} {S : Builtin → Bytes → Bytes → Prop} {B : Builtin → Bytes → String → Prop}

/-! ## Values -/

theorem fits_of_dec (h : LoadedThen D T) (hxl : ExtLastDef D) (hS : ∀ k bin t rest, L.fromBin k bin = .ok (t, rest) → ∃ b, bin = b ++ rest ∧ S k b t) {n lvl : Nat} {p : Ptr}
    {bin t rest : Bytes} (hp : T.Valid p) (he : dec T L n lvl false p bin = .ok (t, rest)) : ∃ b, bin = b ++ rest ∧ FitsBytes D S lvl p b := by
  obtain ⟨d, h1, h2⟩ := dec_of_ok (c26_resolved h).1 (extTail_of_def h hxl) n lvl false p bin t rest hp he
  obtain ⟨b, h3, h4⟩ := dec_shown h hS n h1 (by simp)
  exact ⟨b, h3, t, d, h2, h4⟩

theorem dec_of_fits (h : LoadedThen D T) (hsm : SmallDef D) (hS : ∀ k b t, S k b t → ∀ rest, L.fromBin k (b ++ rest) = .ok (t, rest)) {lvl : Nat} {p : Ptr} {b : Bytes}
    (hp : T.Valid p) (hf : FitsBytes D S lvl p b) (rest : Bytes) : ∃ t N, ∀ n ≥ N, dec T L n lvl false p (b ++ rest) = .ok (t, rest) := by
  obtain ⟨t, d, h1, h2⟩ := hf
  obtain ⟨N, h3⟩ := shown_dec h hS h2 hp rest (by simp)
  refine ⟨t, N, fun n hn => ?_⟩
  rw [dec_of_dec (c26_resolved h).1 (small_of_def h hsm) n lvl false p _ _ _ _ (decR_mono hn h3), limited]
  exact if_pos h1

/-! ## From the decoder to the faults -/

theorem isExt_of {k : Bytes} {d : TData} (h : T.get k = some d) (hd : d.isExt = true) : IsExt T k := by
  cases d <;> simp only [TData.isExt, Bool.false_eq_true] at hd
  exact ⟨_, h⟩

/-- After a missing extension there is nothing to fail. -/
theorem decFields_missing {E : Bool → Ptr → Bytes → Res (Bytes × Bytes)} : ∀ (fs : List Field) (pos : Int) (e : Err), (∀ f ∈ fs, IsExt T f.type) →
    decFields T E true fs pos [] = .error e → e = .ub
  | [], pos, e, _, he => by
    rw [decFields] at he
    rcases bind_eq_error.1 he with g | ⟨_, -, g⟩
    · exact incInt_error g
    · cases g
  | f :: fs, pos, e, hx, he => by
    rw [decFields] at he
    rcases bind_eq_error.1 he with g | ⟨a, -, g⟩
    · exact incInt_error g
    · obtain ⟨q, h1⟩ := hx f (by simp)
      simp only [h1, TData.isExt, and_self, if_true] at g
      exact decFields_missing fs _ e (fun f hf => hx f (by simp [hf])) g

theorem decFields_fault (h : LoadedThen D T) {E : Bool → Ptr → Bytes → Res (Bytes × Bytes)} {lvl : Nat} {last : Bool}
    (hok : ∀ p bin t rest, T.Valid p → E false p bin = .ok (t, rest) → ∃ b, bin = b ++ rest ∧ FitsBytes D S lvl p b)
    (herr : ∀ a p bin e, T.Valid p → bin.length < 2 ^ 32 → E a p bin = .error e → e ≠ .ub → BinFault D S B lvl a p bin e.what) :
    ∀ (fs : List Field) (pos : Int) (bin : Bytes) (e : Err), (∀ f ∈ fs, T.Valid f.type) → (∀ pre f post, fs = pre ++ f :: post → IsExt T f.type → ∀ g ∈ post, IsExt T g.type) →
      bin.length < 2 ^ 32 → decFields T E last fs pos bin = .error e → e ≠ .ub → BinFieldsFault D S B lvl last fs bin e.what
  | [], pos, bin, e, _, _, _, he, hu => by
    rw [decFields] at he
    rcases bind_eq_error.1 he with g | ⟨_, -, g⟩
    · exact absurd (incInt_error g) hu
    · cases g
  | f :: fs, pos, bin, e, hv, hx, hb, he, hu => by
    rw [decFields] at he
    rcases bind_eq_error.1 he with g | ⟨pos', -, g⟩
    · exact absurd (incInt_error g) hu
    · have hvf := hv f (by simp)
      cases hd : T.get f.type with
      | none => simp only [hd] at g; cases g; exact absurd rfl hu
      | some d =>
        simp only [hd] at g
        split at g
        · rename_i hc
          obtain ⟨rfl, h1, rfl⟩ := hc
          exact absurd (decFields_missing fs _ e (hx [] f fs rfl (isExt_of hd h1)) g) hu
        · rename_i hc
          have hc' : ¬ (last = true ∧ bin = [] ∧ ExtType D f.type) := by
            rintro ⟨h1, h2, h3⟩
            obtain ⟨q, h4⟩ := (isExt_iff_meaning h hvf).2 h3
            rw [hd] at h4
            cases h4
            exact hc ⟨h2, rfl, h1⟩
          rcases bind_eq_error.1 g with g0 | ⟨⟨t, mid⟩, g1, g2⟩
          · exact .here hc' (herr _ _ _ _ hvf hb g0 hu)
          · clear g
            rcases bind_eq_error.1 g2 with g | ⟨_, -, g⟩
            · have hne : fs.isEmpty = false := by
                cases fs with
                | nil =>
                  exfalso
                  dsimp only at g
                  rw [decFields] at g
                  rcases bind_eq_error.1 g with g | ⟨_, -, g⟩
                  · exact absurd (incInt_error g) hu
                  · cases g
                | cons => rfl
              rw [hne, Bool.and_false] at g1
              obtain ⟨a, rfl, h2⟩ := hok _ _ _ _ hvf g1
              rw [List.length_append] at hb
              exact .later hc' h2 (decFields_fault h hok herr fs _ _ e (fun f hf => hv f (by simp [hf]))
                (fun pre g post hg => hx (f :: pre) g post (by rw [hg]; rfl)) (by omega) g hu)
            · cases g

theorem decElems_fault {E : Bytes → Res (Bytes × Bytes)} {lvl : Nat} {q : Ptr} (hok : ∀ bin t rest, E bin = .ok (t, rest) → ∃ b, bin = b ++ rest ∧ FitsBytes D S lvl q b)
    (herr : ∀ (bin : Bytes) e, bin.length < 2 ^ 32 → E bin = .error e → e ≠ .ub → BinFault D S B lvl false q bin e.what) :
    ∀ (k j : Nat) (bin : Bytes) (e : Err), bin.length < 2 ^ 32 → decElems E k ((j : Int) - 1) bin = .error e → e ≠ .ub → j ≤ 2 ^ 31 →
      BinElemsFault D S B lvl q (min k (2 ^ 31 - j)) bin e.what
  | 0, j, bin, e, _, he, hu, _ => by
    rw [decElems] at he
    rcases bind_eq_error.1 he with g | ⟨_, -, g⟩
    · exact absurd (incInt_error g) hu
    · cases g
  | k + 1, j, bin, e, hb, he, hu, hj => by
    rw [decElems] at he
    rcases bind_eq_error.1 he with g | ⟨pos', h0, g⟩
    · exact absurd (incInt_error g) hu
    · obtain ⟨h1, rfl⟩ := incInt_ok.1 h0
      have hm : min (k + 1) (2 ^ 31 - j) = min k (2 ^ 31 - (j + 1)) + 1 := by omega
      rw [hm]
      rcases bind_eq_error.1 g with g0 | ⟨⟨t, mid⟩, g1, g2⟩
      · exact .here (herr _ _ hb g0 hu)
      · clear g
        rcases bind_eq_error.1 g2 with g | ⟨_, -, g⟩
        · obtain ⟨a, rfl, h2⟩ := hok _ _ _ g1
          rw [List.length_append] at hb
          refine .later h2 (decElems_fault hok herr k (j + 1) _ e (by omega) ?_ hu (by omega))
          rw [show (((j + 1 : Nat) : Int) - 1) = (j : Int) - 1 + 1 by omega]
          exact g
        · cases g

theorem dec_fault (h : LoadedThen D T) (hxl : ExtLastDef D) (hS : ∀ k bin t rest, L.fromBin k bin = .ok (t, rest) → ∃ b, bin = b ++ rest ∧ S k b t)
    (hB : ∀ k b m, b.length < 2 ^ 32 → Fails (L.fromBin k b) m → B k b m) :
    ∀ (n lvl : Nat) (last : Bool) (p : Ptr) (bin : Bytes) (e : Err), T.Valid p → bin.length < 2 ^ 32 → dec T L n lvl last p bin = .error e → e ≠ .ub →
      BinFault D S B lvl last p bin e.what := by
  have hw := (c26_resolved h).1
  intro n
  induction n with
  | zero => intro lvl last p bin e _ _ he hu; rw [dec] at he; cases he; exact absurd rfl hu
  | succ n ih =>
    intro lvl last p bin e hp hb he hu
    rw [dec] at he
    cases hg : T.get p with
    | none => simp only [hg] at he; cases he; exact absurd rfl hu
    | some d =>
      have hm := (c26_resolved h).2 _ _ hg
      simp only [hg] at he
      cases d with
      | builtin k => exact .scalar hm (hB _ _ _ hb ⟨e, hu, rfl, he⟩)
      | «alias» q => cases he; exact absurd rfl hu
      | aliasDef t => cases he; exact absurd rfl hu
      | structDef s => cases he; exact absurd rfl hu
      | variantDef s => cases he; exact absurd rfl hu
      | optional q =>
        simp only at he
        cases bin with
        | nil =>
          have : e = .overrun := by
            rcases bind_eq_error.1 he with g | ⟨a, g, -⟩
            · unfold readU8 at g; injection g with g; exact g.symm
            · cases g
          rw [this]
          exact .noFlag hm
        | cons c bin =>
          have hr : readU8 (c :: bin) = .ok (c, bin) := rfl
          rw [hr, bind_ok] at he
          simp only at he
          split at he
          · rename_i hc
            exact .some hm hc (ih _ _ _ _ _ (hw.optional hg).1 (by simp at hb; omega) he hu)
          · cases he
      | extension q => exact .extension hm (ih _ _ _ _ _ (hw.extension hg).1 hb he hu)
      | struct fs =>
        simp only at he
        split at he
        · rename_i hl
          have hl' : lvl < 128 := hl
          rcases bind_eq_error.1 he with g | ⟨_, -, g⟩
          · exact .fields hm hl' (decFields_fault h (fun p bin t rest hp he => fits_of_dec h hxl hS hp he) (fun a p bin e h1 h2 h3 h4 => ih _ _ _ _ _ h1 h2 h3 h4) fs _ _ e (hw.struct hg)
              (fun pre f post he hx => extTail_of_def h hxl p fs hg pre f post he hx) hb g hu)
          · cases g
        · rename_i hl
          cases he
          exact .deepStruct hm (by have : ¬ lvl + 1 ≤ 128 := hl; omega)
      | array q =>
        simp only at he
        rcases bind_eq_error.1 he with g | ⟨⟨c, mid⟩, h1, g⟩
        · exact .noSize hm (size_fails.1 ⟨e, hu, rfl, g⟩)
        · obtain ⟨a, rfl, h2⟩ := varuint32_iff.1 h1
          split at g
          · rename_i hl
            have hl' : lvl < 128 := hl
            rcases bind_eq_error.1 g with g | ⟨_, -, g⟩
            · rw [List.length_append] at hb
              have := decElems_fault (D := D) (S := S) (B := B) (lvl := lvl + 1) (q := q) (fun bin t rest he => fits_of_dec h hxl hS (hw.array hg).1 he)
                (fun bin e h2 h3 h4 => ih _ _ _ _ _ (hw.array hg).1 h2 h3 h4) c 0 mid e (by omega) g hu (by omega)
              exact .elems hm h2 hl' this
            · cases g
          · rename_i hl
            cases g
            exact .deepArray hm h2 (by have : ¬ lvl + 1 ≤ 128 := hl; omega)
      | variant alts =>
        simp only at he
        split at he
        · rename_i hl
          have hl' : lvl < 128 := hl
          rcases bind_eq_error.1 he with g | ⟨⟨i, mid⟩, h1, g⟩
          · exact .noIndex hm hl' (size_fails.1 ⟨e, hu, rfl, g⟩)
          · obtain ⟨a, rfl, h2⟩ := varuint32_iff.1 h1
            simp only at g
            split at g
            · rename_i hi
              cases g
              exact .noAlternative hm hl' h2 (by simpa using hi)
            · rename_i f hi
              rcases bind_eq_error.1 g with g | ⟨_, -, g⟩
              · obtain ⟨before, after, rfl, rfl⟩ := getElem?_split hi
                rw [List.length_append] at hb
                exact .alternative hm hl' h2 (ih _ _ _ _ _ (hw.variant hg f (by simp)) (by omega) g hu)
              · cases g
        · rename_i hl
          cases he
          exact .deepVariant hm (by have : ¬ lvl + 1 ≤ 128 := hl; omega)

/-! ## From the faults to the decoder -/

mutual
theorem fault_dec (h : LoadedThen D T) (hsm : SmallDef D) (hS : ∀ k b t, S k b t → ∀ rest, L.fromBin k (b ++ rest) = .ok (t, rest))
    (hB : ∀ k b m, b.length < 2 ^ 32 → B k b m → Fails (L.fromBin k b) m) : ∀ {lvl : Nat} {last : Bool} {p : Ptr} {bin : Bytes} {m : String},
    BinFault D S B lvl last p bin m → T.Valid p → bin.length < 2 ^ 32 → ∃ N e, e ≠ Err.ub ∧ e.what = m ∧ ∀ n ≥ N, dec T L n lvl last p bin = .error e
  | _, _, _, _, _, .scalar hm hb, hp, hl => by
    obtain ⟨e, h1, h2, h3⟩ := hB _ _ _ hl hb
    refine ⟨1, e, h1, h2, fun n hn => ?_⟩
    obtain ⟨n, rfl⟩ : ∃ k, n = k + 1 := ⟨n - 1, by omega⟩
    rw [dec, get_of_meaning h hp hm]
    exact h3
  | _, _, _, _, _, .noFlag hm, hp, hl => by
    refine ⟨1, .overrun, by simp, rfl, fun n hn => ?_⟩
    obtain ⟨n, rfl⟩ : ∃ k, n = k + 1 := ⟨n - 1, by omega⟩
    rw [dec, get_of_meaning h hp hm]
    rfl
  | _, _, _, _, _, .some hm hc hf, hp, hl => by
    have hg := get_of_meaning h hp hm
    obtain ⟨N, e, h1, h2, h3⟩ := fault_dec h hsm hS hB hf ((c26_resolved h).1.optional hg).1 (by simp at hl; omega)
    refine ⟨N + 1, e, h1, h2, fun n hn => ?_⟩
    obtain ⟨n, rfl⟩ : ∃ k, n = k + 1 := ⟨n - 1, by omega⟩
    rw [dec, hg]
    show (if _ then _ else _) = _
    rw [if_pos hc]
    exact h3 n (by omega)
  | _, _, _, _, _, .extension hm hf, hp, hl => by
    have hg := get_of_meaning h hp hm
    obtain ⟨N, e, h1, h2, h3⟩ := fault_dec h hsm hS hB hf ((c26_resolved h).1.extension hg).1 hl
    refine ⟨N + 1, e, h1, h2, fun n hn => ?_⟩
    obtain ⟨n, rfl⟩ : ∃ k, n = k + 1 := ⟨n - 1, by omega⟩
    rw [dec, hg]
    exact h3 n (by omega)
  | _, _, _, _, _, .deepStruct hm hd, hp, hl => by
    refine ⟨1, .recursion_limit_reached, by simp, rfl, fun n hn => ?_⟩
    obtain ⟨n, rfl⟩ : ∃ k, n = k + 1 := ⟨n - 1, by omega⟩
    rw [dec, get_of_meaning h hp hm]
    exact if_neg (by unfold maxStack; omega)
  | _, _, _, _, _, .fields hm hd hf, hp, hl => by
    have hg := get_of_meaning h hp hm
    obtain ⟨N, e, h1, h2, h3⟩ := fieldsFault_dec h hsm hS hB hf ((c26_resolved h).1.struct hg) hl
    refine ⟨N + 1, e, h1, h2, fun n hn => ?_⟩
    obtain ⟨n, rfl⟩ : ∃ k, n = k + 1 := ⟨n - 1, by omega⟩
    have hs := small_of_def h hsm _ _ hg
    rw [dec, hg]
    simp only
    rw [if_pos (by unfold maxStack; omega), h3 n (by omega) (-1) (by omega), bind_error]
  | _, _, _, _, _, .noSize hm hf, hp, hl => by
    obtain ⟨e, h1, h2, h3⟩ := size_fails.2 hf
    refine ⟨1, e, h1, h2, fun n hn => ?_⟩
    obtain ⟨n, rfl⟩ : ∃ k, n = k + 1 := ⟨n - 1, by omega⟩
    rw [dec, get_of_meaning h hp hm]
    simp only
    rw [h3, bind_error]
  | _, _, _, _, _, .deepArray (c := c) (b := b) hm hc hd, hp, hl => by
    refine ⟨1, .recursion_limit_reached, by simp, rfl, fun n hn => ?_⟩
    obtain ⟨n, rfl⟩ : ∃ k, n = k + 1 := ⟨n - 1, by omega⟩
    rw [dec, get_of_meaning h hp hm]
    simp only
    rw [varuint32_iff.2 ⟨c, rfl, hc⟩, bind_ok]
    exact if_neg (by unfold maxStack; omega)
  | _, _, _, _, _, .elems (c := c) (b := b) hm hc hd hf, hp, hl => by
    have hg := get_of_meaning h hp hm
    obtain ⟨N, e, h1, h2, h3⟩ := elemsFault_dec h hsm hS hB hf ((c26_resolved h).1.array hg).1 (by simp at hl; omega)
    refine ⟨N + 1, e, h1, h2, fun n hn => ?_⟩
    obtain ⟨n, rfl⟩ : ∃ k, n = k + 1 := ⟨n - 1, by omega⟩
    rw [dec, hg]
    simp only
    rw [varuint32_iff.2 ⟨c, rfl, hc⟩, bind_ok, if_pos (by unfold maxStack; omega)]
    have := h3 n (by omega) 0 _ (Nat.min_le_left _ _) (by omega)
    rw [show (((0 : Nat) : Int) - 1) = -1 by omega] at this
    rw [this, bind_error]
  | _, _, _, _, _, .deepVariant hm hd, hp, hl => by
    refine ⟨1, .recursion_limit_reached, by simp, rfl, fun n hn => ?_⟩
    obtain ⟨n, rfl⟩ : ∃ k, n = k + 1 := ⟨n - 1, by omega⟩
    rw [dec, get_of_meaning h hp hm]
    exact if_neg (by unfold maxStack; omega)
  | _, _, _, _, _, .noIndex hm hd hf, hp, hl => by
    obtain ⟨e, h1, h2, h3⟩ := size_fails.2 hf
    refine ⟨1, e, h1, h2, fun n hn => ?_⟩
    obtain ⟨n, rfl⟩ : ∃ k, n = k + 1 := ⟨n - 1, by omega⟩
    rw [dec, get_of_meaning h hp hm]
    simp only
    rw [if_pos (by unfold maxStack; omega), h3, bind_error]
  | _, _, _, _, _, .noAlternative (alts := alts) (i := i) (c := c) (b := b) hm hd hc hi, hp, hl => by
    refine ⟨1, .bad_variant_index, by simp, rfl, fun n hn => ?_⟩
    obtain ⟨n, rfl⟩ : ∃ k, n = k + 1 := ⟨n - 1, by omega⟩
    rw [dec, get_of_meaning h hp hm]
    simp only
    rw [if_pos (by unfold maxStack; omega), varuint32_iff.2 ⟨c, rfl, hc⟩, bind_ok]
    simp only
    rw [List.getElem?_eq_none hi]
  | _, _, _, _, _, .alternative (before := before) (after := after) (f := f) (c := c) (b := b) hm hd hc hf, hp, hl => by
    have hg := get_of_meaning h hp hm
    obtain ⟨N, e, h1, h2, h3⟩ := fault_dec h hsm hS hB hf ((c26_resolved h).1.variant hg f (by simp)) (by simp at hl; omega)
    refine ⟨N + 1, e, h1, h2, fun n hn => ?_⟩
    obtain ⟨n, rfl⟩ : ∃ k, n = k + 1 := ⟨n - 1, by omega⟩
    rw [dec, hg]
    simp only
    rw [if_pos (by unfold maxStack; omega), varuint32_iff.2 ⟨c, rfl, hc⟩, bind_ok]
    have hi : (before ++ f :: after)[before.length]? = some f := by simp
    simp only [hi]
    rw [h3 n (by omega), bind_error]
theorem fieldsFault_dec (h : LoadedThen D T) (hsm : SmallDef D) (hS : ∀ k b t, S k b t → ∀ rest, L.fromBin k (b ++ rest) = .ok (t, rest))
    (hB : ∀ k b m, b.length < 2 ^ 32 → B k b m → Fails (L.fromBin k b) m) : ∀ {lvl : Nat} {last : Bool} {fs : List Field} {bin : Bytes} {m : String},
    BinFieldsFault D S B lvl last fs bin m → (∀ f ∈ fs, T.Valid f.type) → bin.length < 2 ^ 32 →
      ∃ N e, e ≠ Err.ub ∧ e.what = m ∧ ∀ n ≥ N, ∀ pos : Int, pos + fs.length < 2147483648 → decFields T (dec T L n lvl) last fs pos bin = .error e
  | _, _, _, _, _, .here (f := f) (fs := fs) hc hf, hp, hl => by
    obtain ⟨N, e, h1, h2, h3⟩ := fault_dec h hsm hS hB hf (hp f (by simp)) hl
    refine ⟨N, e, h1, h2, fun n hn pos hpos => ?_⟩
    obtain ⟨d, hd, -⟩ := hp f (by simp)
    simp only [List.length_cons] at hpos
    rw [decFields, incInt_eq (by omega), bind_ok, hd]
    simp only
    rw [if_neg, h3 n hn, bind_error]
    rintro ⟨g1, g2, g3⟩
    exact hc ⟨g3, g1, (isExt_iff_meaning h (hp f (by simp))).1 (isExt_of hd g2)⟩
  | _, _, _, _, _, .later (f := f) (fs := fs) (a := a) (b := b) hc hw hf, hp, hl => by
    obtain ⟨N, e, h1, h2, h3⟩ := fieldsFault_dec h hsm hS hB hf (fun g hg => hp g (by simp [hg])) (by simp at hl; omega)
    obtain ⟨t, M, h4⟩ := dec_of_fits h hsm hS (hp f (by simp)) hw b
    refine ⟨max N M, e, h1, h2, fun n hn pos hpos => ?_⟩
    obtain ⟨d, hd, -⟩ := hp f (by simp)
    have hne : fs.isEmpty = false := by
      generalize hq : fs = l at hf
      cases hf <;> rfl
    simp only [List.length_cons] at hpos
    rw [decFields, incInt_eq (by omega), bind_ok, hd]
    simp only
    rw [if_neg, hne, Bool.and_false, h4 n (by omega), bind_ok]
    · simp only
      rw [h3 n (by omega) _ (by omega), bind_error]
    rintro ⟨g1, g2, g3⟩
    exact hc ⟨g3, g1, (isExt_iff_meaning h (hp f (by simp))).1 (isExt_of hd g2)⟩
theorem elemsFault_dec (h : LoadedThen D T) (hsm : SmallDef D) (hS : ∀ k b t, S k b t → ∀ rest, L.fromBin k (b ++ rest) = .ok (t, rest))
    (hB : ∀ k b m, b.length < 2 ^ 32 → B k b m → Fails (L.fromBin k b) m) : ∀ {lvl : Nat} {q : Ptr} {k : Nat} {bin : Bytes} {m : String},
    BinElemsFault D S B lvl q k bin m → T.Valid q → bin.length < 2 ^ 32 →
      ∃ N e, e ≠ Err.ub ∧ e.what = m ∧ ∀ n ≥ N, ∀ j c : Nat, k ≤ c → j + k ≤ 2147483648 → decElems (dec T L n lvl false q) c ((j : Int) - 1) bin = .error e
  | _, _, _, _, _, .here hf, hp, hl => by
    obtain ⟨N, e, h1, h2, h3⟩ := fault_dec h hsm hS hB hf hp hl
    refine ⟨N, e, h1, h2, fun n hn j c hc hj => ?_⟩
    obtain ⟨c, rfl⟩ : ∃ k, c = k + 1 := ⟨c - 1, by omega⟩
    rw [decElems, incInt_eq (by omega), bind_ok, h3 n hn, bind_error]
  | _, _, _, _, _, .later (a := a) (b := b) hw hf, hp, hl => by
    obtain ⟨N, e, h1, h2, h3⟩ := elemsFault_dec h hsm hS hB hf hp (by simp at hl; omega)
    obtain ⟨t, M, h4⟩ := dec_of_fits h hsm hS hp hw b
    refine ⟨max N M, e, h1, h2, fun n hn j c hc hj => ?_⟩
    obtain ⟨c, rfl⟩ : ∃ k, c = k + 1 := ⟨c - 1, by omega⟩
    rw [decElems, incInt_eq (by omega), bind_ok, h4 n (by omega), bind_ok]
    simp only
    have := h3 n (by omega) (j + 1) c (by omega) (by omega)
    rw [show (((j + 1 : Nat) : Int) - 1) = (j : Int) - 1 + 1 by omega] at this
    rw [this, bind_error]
end

/-! ## Bytes after a value -/

/-- If something is left, nothing is missing. -/
theorem dec_true_false : ∀ (n : Nat) {p : Ptr} {bin t rest : Bytes} {d : Nat}, rest ≠ [] → Dec T L n true p bin t rest d → Dec T L n false p bin t rest d := by
  intro n
  induction n with
  | zero => intro p bin t rest d _ he; exact he
  | succ n ih =>
    intro p bin t rest d hr he
    rw [Dec] at he ⊢
    cases hg : T.get p with
    | none => rw [hg] at he; exact he
    | some x =>
      rw [hg] at he
      cases x with
      | builtin k => exact he
      | «alias» q => exact he
      | aliasDef t => exact he
      | structDef s => exact he
      | variantDef s => exact he
      | optional q =>
        rcases he with he | ⟨c, bin', h1, h2, h3⟩
        · exact .inl he
        · exact .inr ⟨c, bin', h1, h2, ih hr h3⟩
      | extension q => exact ih hr he
      | array q => exact he
      | variant alts =>
        obtain ⟨i, mid, f, t', d', h1, h2, h3, h4⟩ := he
        exact ⟨i, mid, f, t', d', h1, h2, ih hr h3, h4⟩
      | struct fs =>
        obtain ⟨ms, d', he, h2⟩ := he
        refine ⟨ms, d', ?_, h2⟩
        clear hg h2
        induction fs generalizing bin ms d' with
        | nil => exact he
        | cons f fs ihf =>
          rcases he with ⟨-, -, -, -, h, -⟩ | ⟨-, t, mid, d1, ms', d2, h1, h2, h3⟩
          · exact absurd h hr
          · refine .inr ⟨by simp, t, mid, d1, ms', d2, ?_, ihf _ _ h2, h3⟩
            cases fs with
            | nil => exact ih (by rw [← h2.2.1]; exact hr) h1
            | cons => exact h1

theorem dec_false_true (hS : ∀ n p bin t rest d, Dec T L n false p bin t rest d → ∃ b, bin = b ++ rest) : ∀ (n : Nat) {p : Ptr} {bin t rest : Bytes} {d : Nat}, rest ≠ [] →
    Dec T L n false p bin t rest d → Dec T L n true p bin t rest d := by
  intro n
  induction n with
  | zero => intro p bin t rest d _ he; exact he
  | succ n ih =>
    intro p bin t rest d hr he
    rw [Dec] at he ⊢
    cases hg : T.get p with
    | none => rw [hg] at he; exact he
    | some x =>
      rw [hg] at he
      cases x with
      | builtin k => exact he
      | «alias» q => exact he
      | aliasDef t => exact he
      | structDef s => exact he
      | variantDef s => exact he
      | optional q =>
        rcases he with he | ⟨c, bin', h1, h2, h3⟩
        · exact .inl he
        · exact .inr ⟨c, bin', h1, h2, ih hr h3⟩
      | extension q => exact ih hr he
      | array q => exact he
      | variant alts =>
        obtain ⟨i, mid, f, t', d', h1, h2, h3, h4⟩ := he
        exact ⟨i, mid, f, t', d', h1, h2, ih hr h3, h4⟩
      | struct fs =>
        obtain ⟨ms, d', he, h2⟩ := he
        suffices h' : (∃ b, bin = b ++ rest) ∧ DecFields T (Dec T L n) true fs bin ms rest d' from ⟨ms, d', h'.2, h2⟩
        clear hg h2
        induction fs generalizing bin ms d' with
        | nil => exact ⟨⟨[], he.2.1.symm⟩, he⟩
        | cons f fs ihf =>
          rcases he with ⟨h, -⟩ | ⟨-, t, mid, d1, ms', d2, h1, h2, h3⟩
          · cases h
          · obtain ⟨⟨b, hb⟩, h4⟩ := ihf _ _ h2
            have h1' : Dec T L n false f.type bin t mid d1 := h1
            obtain ⟨a, ha⟩ := hS _ _ _ _ _ _ h1'
            have hm : mid ≠ [] := by rw [hb]; simp [hr]
            refine ⟨⟨a ++ b, by rw [ha, hb]; simp⟩, .inr ⟨?_, t, mid, d1, ms', d2, ?_, h4, h3⟩⟩
            · rintro ⟨-, g, -⟩
              rw [ha] at g
              exact hm (List.append_eq_nil_iff.1 g).2
            · cases hq : fs.isEmpty with
              | true => exact ih hm h1'
              | false => exact h1'

/-- Bytes after a value. -/
theorem extra_iff (h : LoadedThen D T) (hsm : SmallDef D) (hxl : ExtLastDef D) (hS : ∀ k bin t rest, L.fromBin k bin = .ok (t, rest) ↔ ∃ b, bin = b ++ rest ∧ S k b t)
    {p : Ptr} (hp : T.Valid p) (bin : Bytes) : (∃ N t rest, rest ≠ [] ∧ ∀ n ≥ N, dec T L n 0 true p bin = .ok (t, rest)) ↔
      ∃ b r, r ≠ [] ∧ bin = b ++ r ∧ FitsBytes D S 0 p b := by
  constructor
  · rintro ⟨N, t, rest, hr, hd⟩
    obtain ⟨d, h1, h2⟩ := dec_of_ok (c26_resolved h).1 (extTail_of_def h hxl) N 0 true p bin t rest hp (hd N (Nat.le_refl _))
    obtain ⟨b, h3, h4⟩ := dec_shown h (fun k bin t rest => (hS k bin t rest).1) N (dec_true_false N hr h1) (by simp)
    exact ⟨b, rest, hr, h3, t, d, h2, h4⟩
  · rintro ⟨b, r, hr, rfl, t, d, h1, h2⟩
    obtain ⟨N, h3⟩ := shown_dec h (fun k b t hk rest => (hS k _ t rest).2 ⟨b, rfl, hk⟩) h2 hp r (by simp)
    have h4 := dec_false_true (fun n p bin t rest d hd => by
      obtain ⟨b, hb, -⟩ := dec_shown h (fun k bin t rest => (hS k bin t rest).1) n hd (by simp)
      exact ⟨b, hb⟩) N hr h3
    refine ⟨N, t, r, hr, fun n hn => ?_⟩
    rw [dec_of_dec (c26_resolved h).1 (small_of_def h hsm) n 0 true p _ _ _ _ (decR_mono hn h4), limited]
    exact if_pos h1

end
end Abieos
