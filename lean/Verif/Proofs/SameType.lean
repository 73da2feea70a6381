import Verif.Spec.SameType
import Verif.Proofs.Wire
import Verif.Proofs.RefineD
import Verif.Proofs.RefineO
/-!
Tables with corresponding types convert alike.
-/
namespace Abieos
open Spec

/-- corresponding types of two tables -/
def Matches (T T' : Table) (R : Ptr → Ptr → Prop) : Prop :=
  ∀ p q, R p q → ∃ d e, T.get p = some d ∧ T'.get q = some e ∧ SameBuild R d e

variable {T T' : Table} {L : Leaves} {R : Ptr → Ptr → Prop}

theorem Spec.SameBuild.isExt {d e : TData} (h : SameBuild R d e) : d.isExt = e.isExt := by cases h <;> rfl

theorem Spec.SameFields.length {fs gs : List Field} (h : SameFields R fs gs) : fs.length = gs.length := by
  induction h with
  | nil => rfl
  | cons _ _ _ ih => simp [ih]

theorem Spec.SameFields.get {fs gs : List Field} (h : SameFields R fs gs) : ∀ i : Nat,
    (fs[i]? = none ∧ gs[i]? = none) ∨ ∃ f g, fs[i]? = some f ∧ gs[i]? = some g ∧ f.name = g.name ∧ R f.type g.type := by
  induction h with
  | nil => intro i; left; simp
  | cons h1 h2 _ ih =>
    intro i
    cases i with
    | zero => right; exact ⟨_, _, rfl, rfl, h1, h2⟩
    | succ i => simpa using ih i

theorem Spec.SameFields.findAlt {name : Bytes} {fs gs : List Field} (h : SameFields R fs gs) : ∀ i : Nat,
    (Abieos.findAlt name fs i = none ∧ Abieos.findAlt name gs i = none) ∨
      ∃ j f g, Abieos.findAlt name fs i = some (j, f) ∧ Abieos.findAlt name gs i = some (j, g) ∧ R f.type g.type := by
  induction h with
  | nil => intro i; left; exact ⟨rfl, rfl⟩
  | @cons f g fs gs h1 h2 _ ih =>
    intro i
    unfold Abieos.findAlt
    rw [← h1]
    split
    · right; exact ⟨i, f, g, rfl, rfl, h2⟩
    · exact ih (i + 1)

/-! ## binary to JSON -/

theorem same_decFields (hm : Matches T T' R) {E E' : Bool → Ptr → Bytes → Res (Bytes × Bytes)} (hE : ∀ a p q bin, R p q → E a p bin = E' a q bin) {allow : Bool}
    {fs gs : List Field} (h : SameFields R fs gs) : ∀ (pos : Int) (bin : Bytes), decFields T E allow fs pos bin = decFields T' E' allow gs pos bin := by
  induction h with
  | nil => intro pos bin; rfl
  | @cons f g fs gs h1 h2 h3 ih =>
    intro pos bin
    obtain ⟨d, e, e1, e2, e3⟩ := hm _ _ h2
    have el : fs.isEmpty = gs.isEmpty := by cases h3 <;> rfl
    unfold decFields
    simp only [e1, e2, e3.isExt, hE _ _ _ _ h2, ih, h1, el]

theorem same_decElems {E E' : Bytes → Res (Bytes × Bytes)} (hE : ∀ bin, E bin = E' bin) (k : Nat) (pos : Int) (bin : Bytes) :
    decElems E k pos bin = decElems E' k pos bin := by
  have : E = E' := funext hE
  rw [this]

theorem same_dec (hm : Matches T T' R) : ∀ (n lvl : Nat) (a : Bool) (p q : Ptr) (bin : Bytes), R p q → dec T L n lvl a p bin = dec T' L n lvl a q bin := by
  intro n
  induction n with
  | zero => intros; rfl
  | succ n ih =>
    intro lvl a p q bin h
    obtain ⟨d, e, e1, e2, e3⟩ := hm _ _ h
    rw [dec.eq_def, dec.eq_def]
    simp only [e1, e2]
    cases e3 with
    | builtin => rfl
    | optional h => simp only [ih _ _ _ _ _ h]
    | extension h => exact ih _ _ _ _ _ h
    | array h => simp only [same_decElems (fun bin => ih (lvl + 1) false _ _ bin h)]
    | struct h => simp only [same_decFields hm (fun a p q bin h => ih (lvl + 1) a p q bin h) h]
    | variant h =>
      simp only
      split
      · cases varuint32FromBin bin with
        | error e => rfl
        | ok i =>
          rcases h.get i.1 with ⟨h1, h2⟩ | ⟨f, g, h1, h2, h3, h4⟩
          · simp only [bind, Except.bind, h1, h2]
          · simp only [bind, Except.bind, h1, h2, h3, ih _ _ _ _ _ h4]
      · rfl

/-! ## the reorderable conversion -/

theorem same_encRFields (hm : Matches T T' R) {E E' : Bool → Ptr → JVal → Res (Bytes × Bool)} (hE : ∀ a p q v, R p q → E a p v = E' a q v) {allow : Bool}
    {ms : List (Bytes × JVal)} {fs gs : List Field} (h : SameFields R fs gs) : ∀ (sk : Bool) (pos : Int),
    encRFields T E allow ms fs sk pos = encRFields T' E' allow ms gs sk pos := by
  induction h with
  | nil => intros; rfl
  | @cons f g fs gs h1 h2 h3 ih =>
    intro sk pos
    obtain ⟨d, e, e1, e2, e3⟩ := hm _ _ h2
    have el : fs.isEmpty = gs.isEmpty := by cases h3 <;> rfl
    unfold encRFields
    simp only [e1, e2, e3.isExt, hE _ _ _ _ h2, ih, h1, el]

theorem same_encR (hm : Matches T T' R) : ∀ (n : Nat) (a : Bool) (p q : Ptr) (v : JVal), R p q → encR T L n a p v = encR T' L n a q v := by
  intro n
  induction n with
  | zero => intros; rfl
  | succ n ih =>
    intro a p q v h
    obtain ⟨d, e, e1, e2, e3⟩ := hm _ _ h
    rw [encR.eq_def, encR.eq_def]
    simp only [e1, e2]
    cases e3 with
    | builtin => rfl
    | optional h => simp only [ih _ _ _ _ h]
    | extension h => exact ih _ _ _ _ h
    | array h =>
      have : encR T L n false _ = encR T' L n false _ := funext fun v => ih false _ _ v h
      simp only [this]
    | struct h => simp only [same_encRFields hm (fun a p q v h => ih a p q v h) h]
    | variant h =>
      simp only
      split
      · rename_i name x
        rcases h.findAlt (name := name) 0 with ⟨h1, h2⟩ | ⟨j, f, g, h1, h2, h3⟩
        · simp only [h1, h2]
        · simp only [h1, h2, ih _ _ _ _ h3]
      · rfl

/-! ## the ordered conversion, step by step -/

/-- entries of the stack for corresponding types -/
structure SameFrame (R : Ptr → Ptr → Prop) (e e' : OFrame) : Prop where
  type : R e.type e'.type
  allow : e.allow = e'.allow
  pos : e.pos = e'.pos
  sizeIdx : e.sizeIdx = e'.sizeIdx
  altIdx : e.altIdx = e'.altIdx

inductive SameStack (R : Ptr → Ptr → Prop) : List OFrame → List OFrame → Prop
  | nil : SameStack R [] []
  | cons {e e' : OFrame} {K K' : List OFrame} : SameFrame R e e' → SameStack R K K' → SameStack R (e :: K) (e' :: K')

theorem SameStack.length {K K' : List OFrame} (h : SameStack R K K') : K.length = K'.length := by
  induction h with
  | nil => rfl
  | cons _ _ ih => simp [ih]

inductive SamePending (R : Ptr → Ptr → Prop) : Option (Bool × Ptr) → Option (Bool × Ptr) → Prop
  | none : SamePending R none none
  | some {a : Bool} {p q : Ptr} : R p q → SamePending R (some (a, p)) (some (a, q))

structure SameState (R : Ptr → Ptr → Prop) (s s' : OState) : Prop where
  toks : s.toks = s'.toks
  out : s.out = s'.out
  ins : s.ins = s'.ins
  stack : SameStack R s.stack s'.stack
  skipped : s.skipped = s'.skipped
  pending : SamePending R s.pending s'.pending

/-- both fail alike, or both give related results -/
inductive SameRes {α : Type} (Q : α → α → Prop) : Res α → Res α → Prop
  | error {e : Err} : SameRes Q (.error e) (.error e)
  | ok {a b : α} : Q a b → SameRes Q (.ok a) (.ok b)

theorem SameRes.bind {α β : Type} {Q : β → β → Prop} (r : Res α) {f g : α → Res β} (h : ∀ a, SameRes Q (f a) (g a)) : SameRes Q (r >>= f) (r >>= g) := by
  cases r with
  | error e => exact .error
  | ok a => exact h a

theorem same_objectO (hm : Matches T T' R) {s s' : OState} (hs : SameState R s s') {e e' : OFrame} (he : SameFrame R e e') {K K' : List OFrame} (hK : SameStack R K K')
    {fs gs : List Field} (hf : SameFields R fs gs) : SameRes (SameState R) (objectO T s e K fs) (objectO T' s' e' K' gs) := by
  obtain ⟨toks, out, ins, stack, skipped, pending⟩ := s
  obtain ⟨toks', out', ins', stack', skipped', pending'⟩ := s'
  obtain ⟨rfl, rfl, rfl, h1, rfl, h2⟩ := hs
  obtain ⟨t, a, pos, si, ai⟩ := e
  obtain ⟨t', a', pos', si', ai'⟩ := e'
  obtain ⟨h3, rfl, rfl, rfl, rfl⟩ := he
  simp only at h1 h2 h3
  unfold objectO
  simp only [hf.length]
  split
  · exact .error
  · refine .bind _ fun p => ?_
    split
    · exact .ok ⟨rfl, rfl, rfl, hK, rfl, h2⟩
    · rcases hf.get p.toNat with ⟨e1, e2⟩ | ⟨f, g, e1, e2, e3, e4⟩
      · simp only [e1, e2]; exact .error
      · obtain ⟨d, e, e5, e6, e7⟩ := hm _ _ e4
        simp only [e1, e2, e5, e6, e7.isExt]
        split
        · exact .ok ⟨rfl, rfl, rfl, hK, rfl, h2⟩
        · exact .error
  · refine .bind _ fun p => ?_
    split
    · exact .error
    · rcases hf.get p.toNat with ⟨e1, e2⟩ | ⟨f, g, e1, e2, e3, e4⟩
      · simp only [e1, e2]; exact .error
      · simp only [e1, e2, e3]
        split
        · exact .ok ⟨rfl, rfl, rfl, .cons ⟨h3, rfl, rfl, rfl, rfl⟩ hK, rfl, h2⟩
        · exact .error
  · rcases hf.get pos.toNat with ⟨e1, e2⟩ | ⟨f, g, e1, e2, e3, e4⟩
    · simp only [e1, e2]; exact .error
    · simp only [e1, e2]
      split
      · exact .error
      · exact .ok ⟨rfl, rfl, rfl, h1, rfl, .some e4⟩

theorem same_startO (hm : Matches T T' R) {s s' : OState} (hs : SameState R s s') (a : Bool) {p q : Ptr} (h : R p q) :
    SameRes (SameState R) (startO T L s a p) (startO T' L s' a q) := by
  obtain ⟨toks, out, ins, stack, skipped, pending⟩ := s
  obtain ⟨toks', out', ins', stack', skipped', pending'⟩ := s'
  obtain ⟨rfl, rfl, rfl, h1, rfl, h2⟩ := hs
  simp only at h1 h2
  obtain ⟨d, e, e1, e2, e3⟩ := hm _ _ h
  unfold startO
  simp only [e1, e2]
  cases e3 with
  | builtin =>
    simp only
    split
    · exact .error
    · exact .bind _ fun y => .ok ⟨rfl, rfl, rfl, h1, rfl, .none⟩
    · exact .bind _ fun y => .ok ⟨rfl, rfl, rfl, h1, rfl, .none⟩
    · exact .error
  | optional h =>
    simp only
    split
    · exact .error
    · exact .ok ⟨rfl, rfl, rfl, h1, rfl, .none⟩
    · exact .ok ⟨rfl, rfl, rfl, h1, rfl, .some h⟩
  | extension h => exact .ok ⟨rfl, rfl, rfl, h1, rfl, .some h⟩
  | array _ =>
    simp only
    split
    · exact .error
    · exact .ok ⟨rfl, rfl, rfl, .cons ⟨h, rfl, rfl, rfl, rfl⟩ h1, rfl, .none⟩
    · exact .error
  | struct hf =>
    simp only
    split
    · exact .error
    · exact same_objectO hm (s := ⟨_, _, _, stack, _, _⟩) (s' := ⟨_, _, _, stack', _, _⟩) ⟨rfl, rfl, rfl, h1, rfl, .none⟩ (e := ⟨p, a, -1, 0, 0⟩) (e' := ⟨q, a, -1, 0, 0⟩) ⟨h, rfl, rfl, rfl, rfl⟩ h1 hf
    · exact .error
  | variant _ =>
    simp only
    split
    · exact .error
    · exact .ok ⟨rfl, rfl, rfl, .cons ⟨h, rfl, rfl, rfl, rfl⟩ h1, rfl, .none⟩
    · exact .error

theorem same_resumeO (hm : Matches T T' R) {s s' : OState} (hs : SameState R s s') {e e' : OFrame} (he : SameFrame R e e') {K K' : List OFrame} (hK : SameStack R K K') :
    SameRes (SameState R) (resumeO T s e K) (resumeO T' s' e' K') := by
  obtain ⟨d, d', e1, e2, e3⟩ := hm _ _ he.type
  unfold resumeO
  simp only [e1, e2]
  cases e3 with
  | builtin => exact .error
  | optional h => exact .error
  | extension h => exact .error
  | struct hf => exact same_objectO hm hs he hK hf
  | array h =>
    obtain ⟨toks, out, ins, stack, skipped, pending⟩ := s
    obtain ⟨toks', out', ins', stack', skipped', pending'⟩ := s'
    obtain ⟨rfl, rfl, rfl, h1, rfl, h2⟩ := hs
    obtain ⟨t, a, pos, si, ai⟩ := e
    obtain ⟨t', a', pos', si', ai'⟩ := e'
    obtain ⟨h3, rfl, rfl, rfl, rfl⟩ := he
    simp only at h1 h2 h3 ⊢
    split
    · exact .error
    · exact .bind _ fun y => .ok ⟨rfl, rfl, rfl, hK, rfl, h2⟩
    · exact .bind _ fun y => .ok ⟨rfl, rfl, rfl, .cons ⟨h3, rfl, rfl, rfl, rfl⟩ hK, rfl, .some h⟩
  | variant hf =>
    obtain ⟨toks, out, ins, stack, skipped, pending⟩ := s
    obtain ⟨toks', out', ins', stack', skipped', pending'⟩ := s'
    obtain ⟨rfl, rfl, rfl, h1, rfl, h2⟩ := hs
    obtain ⟨t, a, pos, si, ai⟩ := e
    obtain ⟨t', a', pos', si', ai'⟩ := e'
    obtain ⟨h3, rfl, rfl, rfl, rfl⟩ := he
    simp only at h1 h2 h3 ⊢
    refine .bind _ fun p => ?_
    split
    · exact .error
    · split
      · exact .ok ⟨rfl, rfl, rfl, hK, rfl, h2⟩
      · exact .error
    · split
      · split
        · rename_i name _
          rcases hf.findAlt (name := name) 0 with ⟨g1, g2⟩ | ⟨j, f, g, g1, g2, g3⟩
          · simp only [g1, g2]; exact .error
          · simp only [g1, g2]
            exact .bind _ fun y => .ok ⟨rfl, rfl, rfl, .cons ⟨h3, rfl, rfl, rfl, rfl⟩ hK, rfl, h2⟩
        · exact .error
      · split
        · rcases hf.get ai with ⟨g1, g2⟩ | ⟨f, g, g1, g2, g3, g4⟩
          · simp only [g1, g2]; exact .error
          · simp only [g1, g2]
            exact .ok ⟨rfl, rfl, rfl, .cons ⟨h3, rfl, rfl, rfl, rfl⟩ hK, rfl, .some g4⟩
        · exact .error

/-- related next states, or both stop -/
inductive SameNext (R : Ptr → Ptr → Prop) : Option OState → Option OState → Prop
  | stop : SameNext R none none
  | next {s s' : OState} : SameState R s s' → SameNext R (some s) (some s')

theorem same_stepO (hm : Matches T T' R) {s s' : OState} (hs : SameState R s s') : SameRes (SameNext R) (stepO T L s) (stepO T' L s') := by
  have hp := hs.pending
  unfold stepO
  generalize hps : s.pending = u at hp ⊢
  generalize hps' : s'.pending = u' at hp ⊢
  cases hp with
  | some h =>
    simp only
    have := same_startO (L := L) hm hs (by assumption) h
    generalize startO T L s _ _ = r at this ⊢
    generalize startO T' L s' _ _ = r' at this ⊢
    cases this with
    | error => exact .error
    | ok h => exact .ok (.next h)
  | none =>
    simp only
    have hk := hs.stack
    generalize hss : s.stack = S at hk ⊢
    generalize hss' : s'.stack = S' at hk ⊢
    have hl := hk.length
    cases hk with
    | nil => exact .ok .stop
    | cons he hK =>
      simp only [hl]
      split
      · have := same_resumeO hm hs he hK
        generalize resumeO T s _ _ = r at this ⊢
        generalize resumeO T' s' _ _ = r' at this ⊢
        cases this with
        | error => exact .error
        | ok h => exact .ok (.next h)
      · exact .error

theorem same_iterO (hm : Matches T T' R) : ∀ (n : Nat) {s s' : OState}, SameState R s s' → ∀ r, iter (stepO T L) n s = some r →
    ∃ r', iter (stepO T' L) n s' = some r' ∧ SameRes (SameState R) r r' := by
  intro n
  induction n with
  | zero => intro s s' _ r h; cases h
  | succ n ih =>
    intro s s' hs r h
    unfold iter at h ⊢
    have := same_stepO (L := L) hm hs
    generalize stepO T L s = x at this h
    generalize stepO T' L s' = x' at this ⊢
    cases this with
    | error => cases h; exact ⟨_, rfl, .error⟩
    | ok hn =>
      cases hn with
      | stop => cases h; exact ⟨_, rfl, .ok hs⟩
      | next hn => exact ih hn r h

theorem same_tokensToBin (hm : Matches T T' R) {p q : Ptr} (h : R p q) {ts : List Tok} {r : Res Bytes} (hr : TokensToBin T L p ts r) : TokensToBin T' L q ts r := by
  obtain ⟨x, ⟨n, hn⟩, rfl⟩ := hr
  obtain ⟨x', h1, h2⟩ := same_iterO (s := initO p ts) (s' := initO q ts) hm n ⟨rfl, rfl, rfl, .nil, rfl, .some h⟩ _ hn
  refine ⟨x', ⟨n, h1⟩, ?_⟩
  cases h2 with
  | error => rfl
  | ok h2 => show finishO _ = finishO _; unfold finishO; rw [h2.toks, h2.out, h2.ins]

/-! ## definitions -/

theorem same_fields_valid {fs gs : List Field} (h : SameFields R fs gs) (h1 : ∀ f ∈ fs, T.Valid f.type) (h2 : ∀ f ∈ gs, T'.Valid f.type) :
    SameFields (fun p q => R p q ∧ T.Valid p ∧ T'.Valid q) fs gs := by
  induction h with
  | nil => exact .nil
  | cons e1 e2 _ ih =>
    exact .cons e1 ⟨e2, h1 _ (by simp), h2 _ (by simp)⟩ (ih (fun f hf => h1 f (by simp [hf])) fun f hf => h2 f (by simp [hf]))

/-- what a valid type is built of is valid -/
theorem same_valid {D D' : AbiDef} (h : LoadedThen D T) (h' : LoadedThen D' T') (hR : ∀ p q, R p q → ∃ d e, Meaning D p d ∧ Meaning D' q e ∧ SameBuild R d e) :
    Matches T T' fun p q => R p q ∧ T.Valid p ∧ T'.Valid q := by
  rintro p q ⟨h1, h2, h3⟩
  obtain ⟨d, e, e1, e2, e3⟩ := hR p q h1
  have g1 := get_of_meaning h h2 e1
  have g2 := get_of_meaning h' h3 e2
  have w := (c26_resolved h).1
  have w' := (c26_resolved h').1
  refine ⟨d, e, g1, g2, ?_⟩
  cases e3 with
  | builtin => exact .builtin
  | optional hr => exact .optional ⟨hr, (w.optional g1).1, (w'.optional g2).1⟩
  | extension hr => exact .extension ⟨hr, (w.extension g1).1, (w'.extension g2).1⟩
  | array hr => exact .array ⟨hr, (w.array g1).1, (w'.array g2).1⟩
  | struct hf => exact .struct (same_fields_valid hf (w.struct g1) (w'.struct g2))
  | variant hf => exact .variant (same_fields_valid hf (w.variant g1) (w'.variant g2))

/-- types of the same structure are found in the tables and correspond -/
theorem same_found {D D' : AbiDef} (h : LoadedThen D T) (h' : LoadedThen D' T') {type type' : Bytes} (hs : SameType D D' type type') :
    ∃ p q R, (lookupType type T).1 = .ok p ∧ (lookupType type' T').1 = .ok q ∧ R p q ∧ Matches (lookupType type T).2 (lookupType type' T').2 R ∧
      (lookupType type T).2.WF ∧ (lookupType type' T').2.WF ∧ (lookupType type T).2.Valid p ∧ (lookupType type' T').2.Valid q := by
  obtain ⟨R, ⟨p, q, h1, h2, h3⟩, h4⟩ := hs
  have e1 := (c26_lookup h type p).2 h1
  have e2 := (c26_lookup h' type' q).2 h2
  have v1 := c26_found h e1
  have v2 := c26_found h' e2
  exact ⟨p, q, _, e1, e2, ⟨h3, v1, v2⟩, same_valid (h.lookup type) (h'.lookup type') h4, (c26_resolved (h.lookup type)).1, (c26_resolved (h'.lookup type')).1, v1, v2⟩

end Abieos
