import Verif.Proofs.LeafAll
import Verif.Proofs.LeafPrefix
/-
C27, C28, C31, C34: conversions between JSON and binary, with the serializers of all builtin types.
-/
namespace Abieos
open Spec

/-! ## Guarded serializers -/

/-- The serializers, restricted to scalars whose encoding satisfies `P`. -/
noncomputable def guardEnc (L : Leaves) (P : Builtin → Bytes → Prop) : Leaves where
  toBin k s := open Classical in if ∃ b, L.toBin k s = .ok b ∧ P k b then L.toBin k s else .error .expected_string
  fromBin := L.fromBin

theorem guardEnc_ok {L : Leaves} {P : Builtin → Bytes → Prop} {k : Builtin} {s : Scalar} {b : Bytes} :
    (guardEnc L P).toBin k s = .ok b ↔ L.toBin k s = .ok b ∧ P k b := by
  simp only [guardEnc]
  constructor
  · intro h
    split at h
    · rename_i hp
      obtain ⟨b', h1, h2⟩ := hp
      rw [h1] at h
      cases h
      exact ⟨h1, h2⟩
    · cases h
  · rintro ⟨h1, h2⟩
    rw [if_pos ⟨b, h1, h2⟩, h1]

theorem encFields_map {T : Table} {E E' : Bool → Ptr → JVal → Bytes → Prop} {allow : Bool} {ms : List (Bytes × JVal)} :
    ∀ (fs : List Field) (b : Bytes), (∀ pre f post x b, fs = pre ++ f :: post → lastValue f.name ms = some x →
      E (allow && post.isEmpty) f.type x b → E' (allow && post.isEmpty) f.type x b) →
      EncFields T E allow ms fs b → EncFields T E' allow ms fs b
  | [], _, _, h => h
  | f :: fs, b, hE, h => by
    rcases h with h | ⟨x, b1, b2, h1, h2, h3, h4⟩
    · exact .inl h
    · refine .inr ⟨x, b1, b2, h1, hE [] f fs x b1 rfl h1 h2, ?_, h4⟩
      exact encFields_map fs b2 (fun pre g post y b e => hE (f :: pre) g post y b (by rw [e]; rfl)) h3

theorem encElems_map {E E' : JVal → Bytes → Prop} : ∀ (l : List JVal) (b : Bytes), (∀ x ∈ l, ∀ b, E x b → E' x b) → EncElems E l b → EncElems E' l b
  | [], _, _, h => h
  | v :: l, b, hE, ⟨b1, b2, h1, h2, h3⟩ =>
    ⟨b1, b2, hE v (List.mem_cons_self ..) _ h1, encElems_map l b2 (fun x hx => hE x (List.mem_cons_of_mem _ hx)) h2, h3⟩

/-- An encoding whose scalars all satisfy `P` is one by the guarded serializers. -/
theorem enc_guard {T : Table} {L : Leaves} {P : Builtin → Bytes → Prop} : ∀ (n : Nat) (a : Bool) (ty : Ptr) (v : JVal) (b : Bytes), Enc T L n a ty v b →
    (∀ a' ty' k s b, Occurs T a ty v a' ty' (ofScalar s) → T.get ty' = some (.builtin k) → L.toBin k s = .ok b → P k b) →
    Enc T (guardEnc L P) n a ty v b := by
  intro n
  induction n with
  | zero => intro a ty v b h; exact h.elim
  | succ n ih =>
    intro a ty v b h hP
    unfold Enc at h ⊢
    split at h
    · rename_i k hk
      obtain ⟨s, rfl, h⟩ := h
      exact ⟨s, rfl, guardEnc_ok.2 ⟨h, hP _ _ k s b (.here ..) hk h⟩⟩
    · rename_i p hk
      rcases h with h | ⟨hv, b', rfl, h⟩
      · exact .inl h
      · exact .inr ⟨hv, b', rfl, ih _ _ _ _ h fun a' ty' k s b ho => hP a' ty' k s b (.optional hk hv ho)⟩
    · rename_i p hk
      exact ih _ _ _ _ h fun a' ty' k s b ho => hP a' ty' k s b (.extension hk ho)
    · rename_i fs hk
      obtain ⟨ms, rfl, h⟩ := h
      refine ⟨ms, rfl, encFields_map fs b ?_ h⟩
      intro pre f post x b e hx h
      exact ih _ _ _ _ h fun a' ty' k s b ho => hP a' ty' k s b (.field (e ▸ hk) hx ho)
    · rename_i p hk
      obtain ⟨l, c, b', rfl, h1, h2, h3, rfl⟩ := h
      refine ⟨l, c, b', rfl, h1, h2, encElems_map l b' ?_ h3, rfl⟩
      intro x hx b h
      exact ih _ _ _ _ h fun a' ty' k s b ho => hP a' ty' k s b (.elem hk hx ho)
    · rename_i alts hk
      obtain ⟨name, x, i, f, c, b', rfl, h1, h2, h3, rfl⟩ := h
      exact ⟨name, x, i, f, c, b', rfl, h1, h2, ih _ _ _ _ h3 fun a' ty' k s b ho => hP a' ty' k s b (.alt hk h1 ho), rfl⟩
    · exact h

/-! ## C27 -/

section
variable {T : Table} {F : Floats}

theorem encStable_builtins (hF : FloatBits F) : EncStable (guardEnc (builtins F) (Lossless F)) (builtins F) := by
  intro k s b hu h
  obtain ⟨h1, h2⟩ := guardEnc_ok.1 h
  exact builtin_encode hF hu h1 h2

/-- What can be said of bytes that serialize a value: they decode, completely, to a text; the text reads as a document; both
conversions accept the document and yield the bytes. -/
theorem of_ser (wf : T.WF) (reg : Regular T) {L : Leaves} {ty : Ptr} (hty : T.Valid ty) {n : Nat} {b t : Bytes} {v : JVal} (h : Ser T L n 0 true ty b t v)
    (hn : 3 * maxStack + 2 < n) (hn' : 3 * v.height + 2 < n) :
    BinToJson T L ty b (.ok (t, [])) ∧ Reads t v ∧ JsonToBin T L ty v (.ok b) ∧ (levels v ≤ maxStack → JsonToBinReorderable T L ty v (.ok b)) := by
  have hd := dec_of_ser wf n 0 true ty b t v [] h (fun _ => rfl)
  rw [List.append_nil] at hd
  obtain ⟨ps, sk, ho, rfl⟩ := encO_of_ser n 0 true ty b t v h
  have ho' : JsonToBin T L ty v (.ok (flat ps)) := by
    rw [jsonToBin_iff wf hty v n hn', ho]; rfl
  refine ⟨?_, reads_of_ser reg.utf8 n 0 true ty _ t v h, ho', ?_⟩
  · rw [binToJson_iff wf hty _ n hn, hd]
  · intro hl
    exact c29_ordered_to_reorderable wf reg.extTail reg.distinct reg.small hty v _ hl ho'

theorem height_lt_levels (v : JVal) : v.height ≤ levels v := by
  induction v using JVal.ind with
  | hnull => simp [JVal.height]
  | hbool => simp [JVal.height]
  | hstr => simp [JVal.height]
  | harr l ih =>
    rw [JVal.height, levels]
    suffices JVal.height.go l ≤ levels.go l by omega
    induction l with
    | nil => simp [JVal.height.go]
    | cons v l ihl =>
      have h1 := ih v (by simp)
      have h2 := ihl fun v hv => ih v (by simp [hv])
      simp only [JVal.height.go, levels.go]
      omega
  | hobj l ih =>
    rw [JVal.height, levels]
    suffices JVal.height.goM l ≤ levels.goM l by omega
    induction l with
    | nil => simp [JVal.height.goM]
    | cons p l ihl =>
      obtain ⟨k, v⟩ := p
      have h1 := ih k v (by simp)
      have h2 := ihl fun k v hv => ih k v (by simp [hv])
      simp only [JVal.height.goM, levels.goM]
      omega

theorem assocSet_mem {k k' : Bytes} {x y : JVal} {l : List (Bytes × JVal)} (h : (k', y) ∈ assocSet k x l) : (k', y) = (k, x) ∨ (k', y) ∈ l := by
  induction l with
  | nil => left; simpa [assocSet] using h
  | cons p l ih =>
    obtain ⟨a, b⟩ := p
    rw [assocSet] at h
    split at h
    · rename_i e
      rcases List.mem_cons.1 h with h | h
      · left; rw [← e]; exact h
      · right; exact List.mem_cons_of_mem _ h
    · rcases List.mem_cons.1 h with h | h
      · right; rw [h]; exact List.mem_cons_self ..
      · rcases ih h with h | h
        · left; exact h
        · right; exact List.mem_cons_of_mem _ h

theorem norm_goM_mem {k : Bytes} {y : JVal} : ∀ {l acc : List (Bytes × JVal)}, (k, y) ∈ norm.goM acc l → (k, y) ∈ acc ∨ ∃ x, (k, x) ∈ l ∧ y = norm x
  | [], acc, h => .inl h
  | (a, b) :: l, acc, h => by
    rw [norm.goM] at h
    rcases norm_goM_mem h with h | ⟨x, h1, h2⟩
    · rcases assocSet_mem h with h | h
      · cases h; exact .inr ⟨b, List.mem_cons_self .., rfl⟩
      · exact .inl h
    · exact .inr ⟨x, List.mem_cons_of_mem _ h1, h2⟩

theorem norm_below (v : JVal) : Below (norm v) v := by
  induction v using JVal.ind with
  | hnull => exact ⟨le_refl _, le_refl _⟩
  | hbool => exact ⟨le_refl _, le_refl _⟩
  | hstr => exact ⟨le_refl _, le_refl _⟩
  | harr l ih =>
    rw [norm_arr]
    apply below_arr
    induction l with
    | nil => exact .nil
    | cons v l ihl => exact .cons (ih v (by simp)) (ihl fun v hv => ih v (by simp [hv]))
  | hobj l ih =>
    rw [norm_obj]
    apply below_obj
    intro k v' h
    rcases norm_goM_mem h with h | ⟨x, h1, rfl⟩
    · cases h
    · exact ⟨k, x, h1, ih k x h1⟩

theorem norm_docUtf8 (v : JVal) (h : DocUtf8 v) : DocUtf8 (norm v) := by
  induction v using JVal.ind with
  | hnull => exact h
  | hbool => exact h
  | hstr => exact h
  | harr l ih =>
    rw [norm_arr]
    rw [DocUtf8, docUtf8_go] at h ⊢
    intro x hx
    obtain ⟨y, hy, rfl⟩ := List.mem_map.1 hx
    exact ih y hy (h y hy)
  | hobj l ih =>
    rw [norm_obj]
    rw [DocUtf8, docUtf8_goM] at h ⊢
    intro k x hx
    rcases norm_goM_mem hx with hx | ⟨y, h1, rfl⟩
    · cases hx
    · exact ih k y h1 (h k y h1)

/-- An encoding by the guarded serializers is a serialization. -/
theorem ser_of_encodes {L1 L : Leaves} (wf : T.WF) (reg : Regular T) (hst : EncStable L1 L) {ty : Ptr} (hty : T.Valid ty) {v : JVal} {b : Bytes} {n : Nat}
    (h : Enc T L1 n true ty v b) (hu : DocUtf8 v) (hd : v.height ≤ maxStack) : ∃ t v', Ser T L n 0 true ty b t v' ∧ Below v' v := by
  obtain ⟨sk, h1⟩ := (encR_iff_enc reg.small n true ty v b).2 h
  obtain ⟨hb1, hb2⟩ := norm_below v
  obtain ⟨t, v', h2, h3, h4⟩ := ser_of_encR wf reg.extTail hst n 0 true ty (norm v) b sk hty (norm_docUtf8 v hu) (by omega) h1
  exact ⟨t, v', h2, by omega, by omega⟩

/-- **C27.** JSON to binary to JSON to binary. If a conversion accepts a document and yields the bytes `b` (the ordered one: of a
document not nested more than 128 deep), and each scalar of the document is encoded without loss, then `bin_to_json` accepts `b`
completely; the text it yields is JSON; both conversions accept the document it says and yield `b` again. -/
theorem c27_json_bin_json (wf : T.WF) (reg : Regular T) (hF : FloatBits F) {ty : Ptr} (hty : T.Valid ty) {v : JVal} {b : Bytes}
    (h : (JsonToBin T (builtins F) ty v (.ok b) ∧ v.height ≤ maxStack) ∨ JsonToBinReorderable T (builtins F) ty v (.ok b))
    (hu : DocUtf8 v) (hl : LosslessDoc T F ty v) :
    ∃ t v', BinToJson T (builtins F) ty b (.ok (t, [])) ∧ Reads t v' ∧ JsonToBin T (builtins F) ty v' (.ok b) ∧
      (levels v ≤ maxStack → JsonToBinReorderable T (builtins F) ty v' (.ok b)) := by
  have hE : v.height ≤ maxStack ∧ Encodes T (builtins F) ty v b := by
    rcases h with ⟨h, hd⟩ | h
    · exact ⟨hd, ((c36_ordered_is_encoding wf reg.extTail reg.distinct reg.small hty v b).1 h).2.2⟩
    · obtain ⟨h1, h2⟩ := (c36_reorderable_is_encoding wf reg.small hty v b).1 h
      have := height_lt_levels v
      exact ⟨by omega, h2⟩
  obtain ⟨hd, m, hE⟩ := hE
  have hE' := enc_mono (Nat.le_add_right m (3 * maxStack + 3)) hE
  obtain ⟨t, v', h1, h2, h3⟩ := ser_of_encodes wf reg (encStable_builtins hF) hty (enc_guard _ _ _ _ _ hE' hl) hu hd
  obtain ⟨g1, g2, g3, g4⟩ := of_ser wf reg hty h1 (by omega) (by omega)
  exact ⟨t, v', g1, g2, g3, fun h => g4 (by omega)⟩

/-! ## C28: from binary -/

/-- The serializers, restricted to decoding what can be encoded again. -/
noncomputable def guardDec (L : Leaves) : Leaves where
  toBin := L.toBin
  fromBin k bin := open Classical in
    if ∃ t r b s, L.fromBin k bin = .ok (t, r) ∧ LeafSer L k b t s then L.fromBin k bin else .error .expected_string

theorem guardDec_of {L : Leaves} {k : Builtin} {bin t r b : Bytes} {s : Scalar} (h : L.fromBin k bin = .ok (t, r)) (hs : LeafSer L k b t s) :
    (guardDec L).fromBin k bin = .ok (t, r) := by
  simp only [guardDec]
  rw [if_pos ⟨t, r, b, s, h, hs⟩, h]

theorem decStable_builtins : DecStable (guardDec (builtins F)) (builtins F) := by
  intro k bin t rest h
  simp only [guardDec] at h
  split at h
  · rename_i hp
    obtain ⟨t', r', b, s, h1, h2⟩ := hp
    rw [h1] at h
    cases h
    obtain ⟨p, hp, rfl, -⟩ := leafPrefix_builtins F k _ _ _ h1
    have := List.length_pos_iff.2 hp
    exact ⟨by simp; omega, b, s, h2⟩
  · cases h

theorem lastValue_absent {k : Bytes} : ∀ {l : List (Bytes × JVal)}, (∀ p ∈ l, p.1 ≠ k) → lastValue k l = none
  | [], _ => rfl
  | (k', v) :: l, h => by
    rw [lastValue, lastValue_absent fun p hp => h p (List.mem_cons_of_mem _ hp)]
    exact if_neg (h (k', v) (List.mem_cons_self ..))

theorem guardFields_of_dec {E E' : Bool → Ptr → Bytes → Res (Bytes × Bytes)} {Q : Bool → Ptr → JVal → Prop} {allow : Bool}
    (hE : ∀ a f bin t rest, T.Valid f → E a f bin = .ok (t, rest) → ∃ v, Reads t v ∧ (Q a f v → E' a f bin = .ok (t, rest))) :
    ∀ (fs : List Field) (i : Nat) (bin t rest : Bytes), (∀ f ∈ fs, T.Valid f.type) → ExtLast T fs → (fs.map (·.name)).Nodup → (∀ f ∈ fs, Utf8 f.name) →
      decFields T E allow fs ((i : Int) - 1) bin = .ok (t, rest) →
      ∃ ms, MembersText (decide (i ≠ 0)) t ms ∧ (∀ p ∈ ms, ∃ f ∈ fs, f.name = p.1) ∧
        ((∀ pre f post x, fs = pre ++ f :: post → lastValue f.name ms = some x → Q (allow && post.isEmpty) f.type x) →
          decFields T E' allow fs ((i : Int) - 1) bin = .ok (t, rest)) := by
  have skip : ∀ (fs : List Field) (pos : Int) (t rest : Bytes), (∀ f ∈ fs, IsExt T f.type) → allow = true →
      decFields T E allow fs pos [] = .ok (t, rest) → t = str "}" ∧ decFields T E' allow fs pos [] = .ok (t, rest) := by
    intro fs
    induction fs with
    | nil =>
      intro pos t rest _ _ h
      refine ⟨?_, h⟩
      simp [decFields, bind_eq_ok] at h
      exact h.2.1.symm
    | cons f fs ih =>
      intro pos t rest hx ha h
      obtain ⟨q, hq⟩ := hx f (by simp)
      simp only [decFields, bind_eq_ok, hq] at h ⊢
      obtain ⟨p, hp, h⟩ := h
      rw [if_pos ⟨trivial, rfl, ha⟩] at h
      obtain ⟨h1, h2⟩ := ih _ _ _ (fun g hg => hx g (by simp [hg])) ha h
      refine ⟨h1, p, hp, ?_⟩
      rw [if_pos ⟨trivial, rfl, ha⟩]
      exact h2
  intro fs
  induction fs with
  | nil =>
    intro i bin t rest _ _ _ _ h
    have h' := h
    simp [decFields, bind_eq_ok] at h
    obtain ⟨-, rfl, -⟩ := h
    exact ⟨[], .nil _, by simp, fun _ => h'⟩
  | cons f fs ih =>
    intro i bin t rest hv hx hd hu h
    have hh := h
    simp only [decFields, bind_eq_ok, incInt_ok] at h
    obtain ⟨p, ⟨hp, rfl⟩, h⟩ := h
    split at h
    · simp at h
    · rename_i d hdd
      split at h
      · rename_i hc
        obtain ⟨rfl, hc, ha⟩ := hc
        have hx' := hx.head ((isExt_iff hdd).2 hc)
        obtain ⟨rfl, h2⟩ := skip (f :: fs) _ _ _ hx' ha hh
        exact ⟨[], .nil _, by simp, fun _ => h2⟩
      · rename_i hc
        simp only [bind_eq_ok] at h
        obtain ⟨⟨t1, r1⟩, h1, ⟨t2, r2⟩, h2, h3⟩ := h
        simp only [Except.ok.injEq, Prod.mk.injEq] at h3
        obtain ⟨rfl, rfl⟩ := h3
        have ei : ((i : Int) - 1 + 1) = ((i + 1 : Nat) : Int) - 1 := by omega
        rw [ei] at h2
        rw [List.map_cons, List.nodup_cons] at hd
        obtain ⟨ms, hms, hk, hq⟩ := ih (i + 1) r1 t2 r2 (fun g hg => hv g (by simp [hg])) hx.cons hd.2 (fun g hg => hu g (by simp [hg])) h2
        obtain ⟨v, hrv, hqv⟩ := hE _ _ _ _ _ (hv f (by simp)) h1
        have e : decide (i + 1 ≠ 0) = true := by simp
        rw [e] at hms
        have := MembersText.cons (k := f.name) (decide (i ≠ 0)) hrv hms
        rw [patch_eq_of_utf8 (hu f (by simp))] at this
        have e2 : (if (i : Int) - 1 + 1 ≠ 0 then str "," else []) = (if decide (i ≠ 0) = true then ([44] : Bytes) else []) := by
          by_cases hi : i = 0
          · simp [hi]
          · have : ((i : Int) - 1 + 1 ≠ 0) := by omega
            rw [if_pos this]; simp [hi]; rfl
        refine ⟨(f.name, v) :: ms, ?_, ?_, ?_⟩
        · rw [e2]
          simp only [List.append_assoc]
          exact this
        · intro p hp
          rcases List.mem_cons.1 hp with rfl | hp
          · exact ⟨f, by simp, rfl⟩
          · obtain ⟨g, hg, e⟩ := hk p hp
            exact ⟨g, by simp [hg], e⟩
        · intro hQ
          have ha : lastValue f.name ms = none := lastValue_absent fun p hp e => by
            obtain ⟨g, hg, e'⟩ := hk p hp
            exact hd.1 (List.mem_map.2 ⟨g, hg, e'.trans e⟩)
          have h1' := hqv (hQ [] f fs v rfl (by rw [lastValue, ha]; exact if_pos rfl))
          have h2' := hq fun pre g post x e hl => hQ (f :: pre) g post x (by rw [e]; rfl) (by rw [lastValue, hl])
          simp only [decFields, bind_eq_ok, incInt_ok]
          refine ⟨_, ⟨hp, rfl⟩, ?_⟩
          rw [hdd]
          simp only
          rw [if_neg hc]
          simp only [bind_eq_ok]
          refine ⟨(t1, r1), h1', (t2, r2), ?_, ?_⟩
          · rw [ei]; exact h2'
          · rfl

theorem guardElems_of_dec {E E' : Bytes → Res (Bytes × Bytes)} {Q : JVal → Prop}
    (hE : ∀ bin t rest, E bin = .ok (t, rest) → ∃ v, Reads t v ∧ (Q v → E' bin = .ok (t, rest))) :
    ∀ (k : Nat) (i : Nat) (bin t rest : Bytes), decElems E k ((i : Int) - 1) bin = .ok (t, rest) →
      ∃ l, ElemsText (decide (i ≠ 0)) t l ∧ ((∀ x ∈ l, Q x) → decElems E' k ((i : Int) - 1) bin = .ok (t, rest)) := by
  intro k
  induction k with
  | zero =>
    intro i bin t rest h
    have hh := h
    simp only [decElems, bind_eq_ok, incInt_ok] at h
    obtain ⟨p, ⟨h1, -⟩, h⟩ := h
    simp at h
    obtain ⟨rfl, rfl⟩ := h
    exact ⟨[], .nil _, fun _ => hh⟩
  | succ k ih =>
    intro i bin t rest h
    simp only [decElems, bind_eq_ok, incInt_ok] at h
    obtain ⟨p, ⟨h1, rfl⟩, ⟨t1, r1⟩, h2, ⟨t2, r2⟩, h3, h4⟩ := h
    simp only [Except.ok.injEq, Prod.mk.injEq] at h4
    obtain ⟨rfl, rfl⟩ := h4
    have ei : ((i : Int) - 1 + 1) = ((i + 1 : Nat) : Int) - 1 := by omega
    rw [ei] at h3
    obtain ⟨l, hl, hq⟩ := ih (i + 1) r1 t2 r2 h3
    obtain ⟨v, hv, hqv⟩ := hE _ _ _ h2
    have e : decide (i + 1 ≠ 0) = true := by simp
    rw [e] at hl
    have := ElemsText.cons (decide (i ≠ 0)) hv hl
    have e2 : (if (i : Int) - 1 + 1 ≠ 0 then str "," else []) = (if decide (i ≠ 0) = true then ([44] : Bytes) else []) := by
      by_cases hi : i = 0
      · simp [hi]
      · have : ((i : Int) - 1 + 1 ≠ 0) := by omega
        rw [if_pos this]; simp [hi]; rfl
    refine ⟨v :: l, ?_, ?_⟩
    · rw [e2]
      simp only [List.append_assoc]
      exact this
    · intro hQ
      simp only [decElems, bind_eq_ok, incInt_ok]
      refine ⟨_, ⟨h1, rfl⟩, (t1, r1), hqv (hQ v (by simp)), (t2, r2), ?_, rfl⟩
      rw [ei]
      exact hq fun x hx => hQ x (by simp [hx])

/-- What is decoded is JSON; and if each scalar in it satisfies `S`, which makes its leaf decode by `L'` too, then so does all of it. -/
theorem dec_guard {L L' : Leaves} {S : Builtin → Scalar → Prop} (wf : T.WF) (reg : Regular T)
    (hL : ∀ k bin t rest, L.fromBin k bin = .ok (t, rest) → ∃ s, Reads t (ofScalar s) ∧ (S k s → L'.fromBin k bin = .ok (t, rest))) :
    ∀ (n lvl : Nat) (allow : Bool) (ty : Ptr) (bin t rest : Bytes), T.Valid ty → dec T L n lvl allow ty bin = .ok (t, rest) →
    ∃ v, Reads t v ∧ (T.rank ty = 0 → v ≠ .null) ∧
      ((∀ a' ty' k s, Occurs T allow ty v a' ty' (ofScalar s) → T.get ty' = some (.builtin k) → S k s) → dec T L' n lvl allow ty bin = .ok (t, rest)) := by
  intro n
  induction n with
  | zero => intro lvl allow ty bin t rest _ h; simp [dec] at h
  | succ n ih =>
    intro lvl allow ty bin t rest hty h
    unfold dec at h
    split at h
    · rename_i k hk
      obtain ⟨s, h1, h2⟩ := hL _ _ _ _ h
      refine ⟨ofScalar s, h1, fun _ => by cases s <;> simp [ofScalar], fun hS => ?_⟩
      unfold dec
      simp only [hk]
      exact h2 (hS _ _ k s (.here ..) hk)
    · rename_i p hk
      have hrk : T.rank ty ≠ 0 := by unfold Table.rank; simp [hk]
      simp only [bind_eq_ok] at h
      obtain ⟨⟨c, r⟩, h1, h⟩ := h
      split at h
      · rename_i hc
        obtain ⟨v, g1, g2, g3⟩ := ih _ _ _ _ _ _ (wf.optional hk).1 h
        refine ⟨v, g1, fun h => absurd h hrk, fun hS => ?_⟩
        unfold dec
        simp only [hk, bind_eq_ok]
        refine ⟨(c, r), h1, ?_⟩
        rw [if_pos hc]
        exact g3 fun a' ty' k s ho => hS a' ty' k s (.optional hk (g2 (wf.optional hk).2.1) ho)
      · rename_i hc
        have h2 := h
        simp only [Except.ok.injEq, Prod.mk.injEq] at h
        obtain ⟨rfl, rfl⟩ := h
        refine ⟨_, reads_null, fun h => absurd h hrk, fun hS => ?_⟩
        unfold dec
        simp only [hk, bind_eq_ok]
        refine ⟨(c, _), h1, ?_⟩
        rw [if_neg hc]
    · rename_i p hk
      have hrk : T.rank ty ≠ 0 := by unfold Table.rank; simp [hk]
      obtain ⟨v, g1, g2, g3⟩ := ih _ _ _ _ _ _ (wf.extension hk).1 h
      refine ⟨v, g1, fun h => absurd h hrk, fun hS => ?_⟩
      unfold dec
      simp only [hk]
      exact g3 fun a' ty' k s ho => hS a' ty' k s (.extension hk ho)
    · rename_i fs hk
      split at h
      · rename_i hlv
        simp only [bind_eq_ok] at h
        obtain ⟨⟨t', r⟩, h1, h2⟩ := h
        simp only [Except.ok.injEq, Prod.mk.injEq] at h2
        obtain ⟨rfl, rfl⟩ := h2
        obtain ⟨ms, g1, -, g3⟩ := guardFields_of_dec
          (Q := fun a f v => ∀ a' ty' k s, Occurs T a f v a' ty' (ofScalar s) → T.get ty' = some (.builtin k) → S k s)
          (fun a f bin t rest hv h => by
            obtain ⟨v, e1, -, e3⟩ := ih _ a f bin t rest hv h
            exact ⟨v, e1, e3⟩) fs 0 bin t' r (wf.struct hk) (reg.extTail _ _ hk) (reg.distinct _ _ hk) (reg.utf8.1 _ _ hk) h1
        refine ⟨_, reads_obj g1, fun _ => by simp, fun hS => ?_⟩
        unfold dec
        simp only [hk]
        rw [if_pos hlv]
        simp only [bind_eq_ok]
        exact ⟨(t', r), g3 fun pre f post x e hx a' ty' k s ho => hS a' ty' k s (.field (e ▸ hk) hx ho), rfl⟩
      · simp at h
    · rename_i p hk
      simp only [bind_eq_ok] at h
      obtain ⟨⟨c, r0⟩, h0, h⟩ := h
      split at h
      · rename_i hlv
        simp only [bind_eq_ok] at h
        obtain ⟨⟨t', r⟩, h1, h2⟩ := h
        simp only [Except.ok.injEq, Prod.mk.injEq] at h2
        obtain ⟨rfl, rfl⟩ := h2
        obtain ⟨l, g1, g3⟩ := guardElems_of_dec
          (Q := fun v => ∀ a' ty' k s, Occurs T false p v a' ty' (ofScalar s) → T.get ty' = some (.builtin k) → S k s)
          (fun bin t rest h => by
            obtain ⟨v, e1, -, e3⟩ := ih _ _ _ bin t rest (wf.array hk).1 h
            exact ⟨v, e1, e3⟩) c 0 r0 t' r h1
        refine ⟨_, reads_arr g1, fun _ => by simp, fun hS => ?_⟩
        unfold dec
        simp only [hk, bind_eq_ok]
        refine ⟨(c, r0), h0, ?_⟩
        rw [if_pos hlv]
        simp only [bind_eq_ok]
        exact ⟨(t', r), g3 fun x hx a' ty' k s ho => hS a' ty' k s (.elem hk hx ho), rfl⟩
      · simp at h
    · rename_i alts hk
      split at h
      · rename_i hlv
        simp only [bind_eq_ok] at h
        obtain ⟨⟨i, r0⟩, h0, h⟩ := h
        split at h
        · simp at h
        · rename_i f hf
          simp only [bind_eq_ok] at h
          obtain ⟨⟨t', r⟩, h1, h2⟩ := h
          simp only [Except.ok.injEq, Prod.mk.injEq] at h2
          obtain ⟨rfl, rfl⟩ := h2
          have hfm := List.mem_of_getElem? hf
          obtain ⟨v, g1, -, g3⟩ := ih _ _ _ _ _ _ (wf.variant hk f hfm) h1
          have hp := reads_pair (name := f.name) g1
          rw [patch_eq_of_utf8 (reg.utf8.2 _ _ hk f hfm)] at hp
          refine ⟨_, hp, fun _ => by simp, fun hS => ?_⟩
          obtain ⟨m, g, hm, -, hg, hgn⟩ := findAlt_first (j := 0) hf
          have hgt := (reg.alts _ _ hk).2 g hg f hfm hgn
          unfold dec
          simp only [hk]
          rw [if_pos hlv]
          simp only [bind_eq_ok]
          refine ⟨(i, r0), h0, ?_⟩
          simp only [hf, bind_eq_ok]
          exact ⟨(t', r), g3 fun a' ty' k s ho => hS a' ty' k s (.alt hk hm (hgt ▸ ho)), rfl⟩
      · simp at h
    · simp at h

theorem height_go_bound {l : List JVal} {m : Nat} (h : ∀ v ∈ l, v.height ≤ m) : JVal.height.go l ≤ m := by
  induction l with
  | nil => simp [JVal.height.go]
  | cons v l ih => simp only [JVal.height.go]; exact Nat.max_le.2 ⟨h v (by simp), ih fun v hv => h v (by simp [hv])⟩

theorem height_goM_bound {l : List (Bytes × JVal)} {m : Nat} (h : ∀ k v, (k, v) ∈ l → v.height ≤ m) : JVal.height.goM l ≤ m := by
  induction l with
  | nil => simp [JVal.height.goM]
  | cons p l ih =>
    obtain ⟨k, v⟩ := p
    simp only [JVal.height.goM]; exact Nat.max_le.2 ⟨h k v (by simp), ih fun k v hv => h k v (by simp [hv])⟩

/-- Serialized values are not nested too deeply. -/
theorem ser_height {L : Leaves} : ∀ (n lvl : Nat) (allow : Bool) (ty : Ptr) (b t : Bytes) (v : JVal), lvl ≤ maxStack →
    Ser T L n lvl allow ty b t v → lvl + v.height ≤ maxStack := by
  intro n
  induction n with
  | zero => intro lvl allow ty b t v _ h; exact h.elim
  | succ n ih =>
    intro lvl allow ty b t v hlv h
    unfold Ser at h
    split at h
    · obtain ⟨s, hs, rfl⟩ := h; cases s <;> exact hlv
    · rcases h with ⟨rfl, rfl, rfl⟩ | ⟨b', rfl, hv, h⟩
      · exact hlv
      · exact ih _ _ _ _ _ _ hlv h
    · exact ih _ _ _ _ _ _ hlv h
    · rename_i fs hk
      obtain ⟨hl, hfs, ms, t', h, rfl, rfl⟩ := h
      obtain ⟨h1, h2⟩ := serFields_keys _ _ _ _ _ h
      rw [JVal.height]
      have := height_goM_bound (l := ms) (m := maxStack - (lvl + 1)) (by
        intro k v hm
        obtain ⟨a, f, b, t, hs⟩ := h2 k v hm
        have := ih _ _ _ _ _ _ hl hs
        omega)
      omega
    · rename_i p hk
      obtain ⟨hl, l, c, b', t', h, rfl, hlen, hc, rfl, rfl⟩ := h
      have : ∀ (l : List JVal) i b t, SerElems (Ser T L n (lvl + 1) false p) i b t l → ∀ v ∈ l, v.height ≤ maxStack - (lvl + 1) := by
        intro l
        induction l with
        | nil => simp
        | cons v l ihl =>
          rintro i b t ⟨b1, b2, t1, t2, h1, h2, rfl, rfl⟩ w hw
          rcases List.mem_cons.1 hw with rfl | hw
          · have := ih _ _ _ _ _ _ hl h1
            omega
          · exact ihl _ _ _ h2 w hw
      have := height_go_bound (this _ _ _ _ h)
      rw [JVal.height]
      omega
    · obtain ⟨hl, name, i, f, c, b', t', x, hf, hc, h, rfl, rfl, rfl⟩ := h
      have := ih _ _ _ _ _ _ hl h
      have e : (JVal.arr [.str name, x]).height = x.height + 1 := by simp [JVal.height, JVal.height.go]
      rw [e]
      omega
    · exact h.elim

/-- **C28.** Binary to JSON to binary. If `bin_to_json` accepts all of `bin` and yields the text `t`, then `t` is JSON; and if
each scalar of the document is a text that the library takes back, then `json_to_bin` accepts the document and yields bytes
which decode to the same text. (They need not be `bin`: `bin` may use longer length prefixes than necessary, or a later one of
two equal alternatives.) -/
theorem c28_bin_json_bin (wf : T.WF) (reg : Regular T) (hF : FloatBits F) {ty : Ptr} (hty : T.Valid ty) {bin t : Bytes}
    (h : BinToJson T (builtins F) ty bin (.ok (t, []))) : ∃ v, Reads t v ∧ (TakesBackDoc T F ty v →
      ∃ b, JsonToBin T (builtins F) ty v (.ok b) ∧ BinToJson T (builtins F) ty b (.ok (t, [])) ∧
        (levels v ≤ maxStack → JsonToBinReorderable T (builtins F) ty v (.ok b))) := by
  have hn : 3 * maxStack + 2 < 3 * maxStack + 3 := by decide
  have h0 := ((binToJson_iff wf hty bin _ hn _).1 h).symm
  obtain ⟨v, hv, -, hg⟩ := dec_guard (L := builtins F) (L' := guardDec (builtins F)) (S := TakesBack F) wf reg (by
    intro k bin t rest h
    obtain ⟨s, h1, h2⟩ := builtin_decode hF h
    refine ⟨s, h1, fun hs => ?_⟩
    obtain ⟨b, hb⟩ := h2 hs
    exact guardDec_of h hb) _ _ _ _ _ _ _ hty h0
  refine ⟨v, hv, fun hl => ?_⟩
  obtain ⟨-, b, v', hs, -⟩ := ser_of_dec wf reg.extTail reg.small reg.alts decStable_builtins _ _ _ _ _ _ _ hty (hg hl) (fun _ => rfl)
  have hh := ser_height _ _ _ _ _ _ _ (Nat.zero_le _) hs
  obtain ⟨g1, g2, g3, g4⟩ := of_ser wf reg hty hs hn (by omega)
  obtain rfl := g2.unique hv
  exact ⟨b, g3, g1, g4⟩

/-- The result of `bin_to_json` is a function of its input. -/
theorem binToJson_unique {L : Leaves} (wf : T.WF) {ty : Ptr} (hty : T.Valid ty) {bin : Bytes} {r r' : Res (Bytes × Bytes)}
    (h : BinToJson T L ty bin r) (h' : BinToJson T L ty bin r') : r = r' := by
  have hn : 3 * maxStack + 2 < 3 * maxStack + 3 := by decide
  rw [(binToJson_iff wf hty bin _ hn _).1 h, (binToJson_iff wf hty bin _ hn _).1 h']

/-- **C28.** If the bytes were produced by a conversion from JSON (as in C27), encoding the decoded JSON gives exactly these bytes. -/
theorem c28_exact_for_encoder_output (wf : T.WF) (reg : Regular T) (hF : FloatBits F) {ty : Ptr} (hty : T.Valid ty) {v v' : JVal} {b t : Bytes}
    (h : (JsonToBin T (builtins F) ty v (.ok b) ∧ v.height ≤ maxStack) ∨ JsonToBinReorderable T (builtins F) ty v (.ok b))
    (hu : DocUtf8 v) (hl : LosslessDoc T F ty v) (hd : BinToJson T (builtins F) ty b (.ok (t, []))) (hr : Reads t v') :
    JsonToBin T (builtins F) ty v' (.ok b) := by
  obtain ⟨t1, v1, h1, h2, h3, -⟩ := c27_json_bin_json wf reg hF hty h hu hl
  have := binToJson_unique wf hty hd h1
  cases this
  obtain rfl := h2.unique hr
  exact h3

/-! ## C31, C34 -/

/-- A C library that reads no numbers. The decoder does not use it. -/
def noFloats : Floats := ⟨fun _ => none, fun _ => none⟩

theorem leafText_builtins : LeafText (builtins F) := by
  intro k bin t rest h
  have h : (builtins noFloats).fromBin k bin = .ok (t, rest) := h
  obtain ⟨s, hs, -⟩ := builtin_decode ⟨fun s v h => by simp [noFloats] at h, fun s v h => by simp [noFloats] at h⟩ h
  exact ⟨_, hs⟩

/-- **C31.** Whatever `bin_to_json` yields is one JSON document. -/
theorem c31_well_formed (wf : T.WF) (hx : ExtTail T) {ty : Ptr} (hty : T.Valid ty) {bin t rest : Bytes}
    (h : BinToJson T (builtins F) ty bin (.ok (t, rest))) : ∃ v, Reads t v := by
  have hn : 3 * maxStack + 2 < 3 * maxStack + 3 := by decide
  have h0 := ((binToJson_iff wf hty bin _ hn _).1 h).symm
  exact reads_of_dec hx leafText_builtins _ _ _ _ _ _ _ h0

/-- **C31.** The same for a JSON parser that is given the text alone. -/
theorem c31_parses (wf : T.WF) (hx : ExtTail T) {ty : Ptr} (hty : T.Valid ty) {bin t rest : Bytes}
    (h : BinToJson T (builtins F) ty bin (.ok (t, rest))) : ∃ v, Reader.read t = some v := by
  obtain ⟨v, hv⟩ := c31_well_formed wf hx hty h
  exact ⟨v, read_of_reads hv⟩

/-- **C34.** `bin_to_json` reads a prefix of its input and leaves the rest; the text depends only on the prefix: if the rest is
replaced by other bytes, the result is the same text, and the other bytes are left. With binary extensions in the ABI, this
needs that there are bytes left in both cases, or in neither: a decoder looks whether the input ends before an extension. -/
theorem c34_reads_prefix (wf : T.WF) {ty : Ptr} (hty : T.Valid ty) {bin t rest : Bytes} (h : BinToJson T (builtins F) ty bin (.ok (t, rest))) :
    ∃ p, bin = p ++ rest ∧ ∀ r, ((∀ q, ¬ IsExt T q) ∨ (rest = [] ↔ r = [])) → BinToJson T (builtins F) ty (p ++ r) (.ok (t, r)) := by
  have hn : 3 * maxStack + 2 < 3 * maxStack + 3 := by decide
  have h0 := ((binToJson_iff wf hty bin _ hn _).1 h).symm
  obtain ⟨p, hp, hr⟩ := prefix_dec (leafPrefix_builtins F) _ _ _ _ _ _ _ h0
  exact ⟨p, hp, fun r ha => (binToJson_iff wf hty _ _ hn _).2 (hr r ha).symm⟩

end

end Abieos
