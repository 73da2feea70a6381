import Verif.Props.Encode
import Verif.Spec.Occurs
/-! # C35: extensions may be omitted only at the tail -/
namespace Abieos

open Spec

section
variable {T : Table} {L : Leaves}

theorem encFields_at {E : Bool → Ptr → JVal → Bytes → Prop} {allow : Bool} {ms : List (Bytes × JVal)} {f : Field} {x : JVal}
    {post : List Field} (hx : lastValue f.name ms = some x) : ∀ (pre : List Field) (b : Bytes),
    EncFields T E allow ms (pre ++ f :: post) b → ∃ b1 b2 b3, b = b1 ++ b2 ++ b3 ∧ E (allow && post.isEmpty) f.type x b2 ∧
      EncFields T E allow ms post b3 := by
  intro pre
  induction pre with
  | nil =>
    rintro b (⟨-, h, -⟩ | ⟨y, b1, b2, h1, h2, h3, rfl⟩)
    · have := (h f (by simp)).2; rw [hx] at this; simp at this
    · rw [hx] at h1
      cases h1
      exact ⟨[], b1, b2, by simp, h2, h3⟩
  | cons g pre ih =>
    rintro b (⟨-, h, -⟩ | ⟨y, b1, b2, h1, h2, h3, rfl⟩)
    · have := (h f (by simp)).2; rw [hx] at this; simp at this
    · obtain ⟨c1, c2, c3, rfl, h4, h5⟩ := ih _ h3
      exact ⟨b1 ++ c1, c2, c3, by simp, h4, h5⟩

theorem encElems_at {E : JVal → Bytes → Prop} {x : JVal} : ∀ (l : List JVal) (b : Bytes), EncElems E l b → x ∈ l → ∃ b, E x b := by
  intro l
  induction l with
  | nil => intro b _ h; simp at h
  | cons v l ih =>
    rintro b ⟨b1, b2, h1, h2, -⟩ hx
    rcases List.mem_cons.1 hx with rfl | hx
    · exact ⟨_, h1⟩
    · exact ih _ h2 hx

/-- The encoding of a value that occurs at the end is a suffix of the whole encoding. -/
theorem enc_occurs {a a' : Bool} {ty ty' : Ptr} {v v' : JVal} (ho : Occurs T a ty v a' ty' v') :
    ∀ {n : Nat} {b : Bytes}, Enc T L n a ty v b → ∃ m b', Enc T L m a' ty' v' b' ∧ (a' = true → ∃ p, b = p ++ b') := by
  induction ho with
  | here a ty v => intro n b h; exact ⟨n, b, h, fun _ => ⟨[], rfl⟩⟩
  | optional hk hv _ ih =>
    intro n b h
    cases n with
    | zero => exact h.elim
    | succ n =>
      unfold Enc at h
      simp only [hk] at h
      rcases h with ⟨h, -⟩ | ⟨-, b', rfl, h⟩
      · exact absurd h hv
      · obtain ⟨m, b2, h1, h2⟩ := ih h
        refine ⟨m, b2, h1, fun h => ?_⟩
        obtain ⟨p, rfl⟩ := h2 h
        exact ⟨1 :: p, rfl⟩
  | extension hk _ ih =>
    intro n b h
    cases n with
    | zero => exact h.elim
    | succ n =>
      unfold Enc at h
      simp only [hk] at h
      exact ih h
  | field hk hx ho ih =>
    rename_i a a' ty ty' v' x ms pre post f
    intro n b h
    cases n with
    | zero => exact h.elim
    | succ n =>
      unfold Enc at h
      simp only [hk] at h
      obtain ⟨ms', e, h⟩ := h
      cases e
      obtain ⟨b1, b2, b3, rfl, h1, h2⟩ := encFields_at hx _ _ h
      obtain ⟨m, c, h3, h4⟩ := ih h1
      refine ⟨m, c, h3, fun ha => ?_⟩
      obtain ⟨p, rfl⟩ := h4 ha
      have hpost : post = [] := by
        have : ∀ {a a' : Bool} {ty ty' : Ptr} {v v' : JVal}, Occurs T a ty v a' ty' v' → a' = true → a = true := by
          intro a a' ty ty' v v' ho
          induction ho with
          | here => exact id
          | optional _ _ _ ih => exact ih
          | extension _ _ ih => exact ih
          | field _ _ _ ih => intro h; have := ih h; simp at this; exact this.1
          | elem _ _ _ ih => intro h; exact absurd (ih h) (by simp)
          | alt _ _ _ ih => exact ih
        have := this ho ha
        simp at this
        exact this.2
      subst hpost
      have : b3 = [] := h2
      subst this
      exact ⟨b1 ++ p, by simp⟩
  | elem hk hx ho ih =>
    rename_i a a' ty ty' p v' x l
    intro n b h
    cases n with
    | zero => exact h.elim
    | succ n =>
      unfold Enc at h
      simp only [hk] at h
      obtain ⟨l', c, b', e, -, -, h, -⟩ := h
      cases e
      obtain ⟨b1, h1⟩ := encElems_at _ _ h hx
      obtain ⟨m, c, h3, -⟩ := ih h1
      refine ⟨m, c, h3, fun ha => ?_⟩
      have : ∀ {a a' : Bool} {ty ty' : Ptr} {v v' : JVal}, Occurs T a ty v a' ty' v' → a' = true → a = true := by
        intro a a' ty ty' v v' ho
        induction ho with
        | here => exact id
        | optional _ _ _ ih => exact ih
        | extension _ _ ih => exact ih
        | field _ _ _ ih => intro h; have := ih h; simp at this; exact this.1
        | elem _ _ _ ih => intro h; exact absurd (ih h) (by simp)
        | alt _ _ _ ih => exact ih
      exact absurd (this ho ha) (by simp)
  | alt hk hf _ ih =>
    intro n b h
    cases n with
    | zero => exact h.elim
    | succ n =>
      unfold Enc at h
      simp only [hk] at h
      obtain ⟨name, x, i, f, c, b', e, hf', -, h, rfl⟩ := h
      cases e
      rw [hf] at hf'
      cases hf'
      obtain ⟨m, b2, h1, h2⟩ := ih h
      refine ⟨m, b2, h1, fun h => ?_⟩
      obtain ⟨p, rfl⟩ := h2 h
      exact ⟨c ++ p, by simp⟩

theorem encFields_missing {E : Bool → Ptr → JVal → Bytes → Prop} {allow : Bool} {ms : List (Bytes × JVal)} :
    ∀ (fs : List Field) (b : Bytes), EncFields T E allow ms fs b → ∃ pre post, fs = pre ++ post ∧
      (∀ f ∈ pre, lastValue f.name ms ≠ none) ∧ (∀ f ∈ post, lastValue f.name ms = none ∧ IsExt T f.type) ∧
      (post ≠ [] → allow = true) := by
  intro fs
  induction fs with
  | nil => intro b _; exact ⟨[], [], rfl, by simp, by simp, by simp⟩
  | cons f fs ih =>
    rintro b (⟨ha, h, -⟩ | ⟨y, b1, b2, h1, h2, h3, rfl⟩)
    · exact ⟨[], f :: fs, rfl, by simp, fun g hg => ⟨(h g hg).2, (h g hg).1⟩, fun _ => ha⟩
    · obtain ⟨pre, post, rfl, h4, h5, h6⟩ := ih _ h3
      refine ⟨f :: pre, post, rfl, ?_, h5, h6⟩
      intro g hg
      rcases List.mem_cons.1 hg with rfl | hg
      · rw [h1]; simp
      · exact h4 g hg

/-- What both conversions guarantee of an object `ms` that occurs anywhere in an accepted document: the fields it lacks
are the last ones of the struct and are extensions; and if it lacks any, it is at the end of the encoding - the bytes are
some prefix followed by exactly the encoding of this object. -/
def OmitsOnlyTail (T : Table) (L : Leaves) (ty : Ptr) (v : JVal) (b : Bytes) : Prop :=
  ∀ a ty' ms fs, Occurs T true ty v a ty' (.obj ms) → T.get ty' = some (.struct fs) →
    ∃ present missing, fs = present ++ missing ∧ (∀ f ∈ present, lastValue f.name ms ≠ none) ∧
      (∀ f ∈ missing, lastValue f.name ms = none ∧ IsExt T f.type) ∧
      (missing ≠ [] → a = true ∧ ∃ p b', b = p ++ b' ∧ Encodes T L ty' (.obj ms) b')

theorem encodes_omits {ty : Ptr} {v : JVal} {b : Bytes} (h : Encodes T L ty v b) : OmitsOnlyTail T L ty v b := by
  obtain ⟨n, h⟩ := h
  intro a ty' ms fs ho hk
  obtain ⟨m, b', h1, h2⟩ := enc_occurs ho h
  cases m with
  | zero => exact h1.elim
  | succ m =>
    have h1' := h1
    unfold Enc at h1
    simp only [hk] at h1
    obtain ⟨ms', e, h1⟩ := h1
    cases e
    obtain ⟨pre, post, h3, h4, h5, h6⟩ := encFields_missing _ _ h1
    refine ⟨pre, post, h3, h4, h5, fun hp => ?_⟩
    have ha := h6 hp
    subst ha
    obtain ⟨p, hp⟩ := h2 rfl
    exact ⟨rfl, p, b', hp, _, h1'⟩

/-- Reorderable conversion: a field may be omitted only if it is a trailing extension at the end of the value. -/
theorem c35_reorderable_omits_only_tail (wf : T.WF) (hsm : Small T) {ty : Ptr} (hty : T.Valid ty) (v : JVal) (b : Bytes)
    (h : JsonToBinReorderable T L ty v (.ok b)) : OmitsOnlyTail T L ty v b :=
  encodes_omits ((c36_reorderable_is_encoding wf hsm hty v b).1 h).2

/-- Ordered conversion: a field may be omitted only if it is a trailing extension at the end of the value. -/
theorem c35_ordered_omits_only_tail (wf : T.WF) (hx : ExtTail T) (hdf : DistinctFields T) (hsm : Small T) {ty : Ptr}
    (hty : T.Valid ty) (v : JVal) (b : Bytes) (h : JsonToBin T L ty v (.ok b)) : OmitsOnlyTail T L ty v b :=
  encodes_omits ((c36_ordered_is_encoding wf hx hdf hsm hty v b).1 h).2.2

/-! ## With all extensions present -/

theorem encFields_congr {T' : Table} {E E' : Bool → Ptr → JVal → Bytes → Prop} {allow allow' : Bool} {ms : List (Bytes × JVal)} :
    ∀ (fs : List Field), (∀ f ∈ fs, lastValue f.name ms ≠ none) →
      (∀ pre f post x b, fs = pre ++ f :: post → lastValue f.name ms = some x →
        E (allow && post.isEmpty) f.type x b → E' (allow' && post.isEmpty) f.type x b) →
      ∀ b, EncFields T E allow ms fs b → EncFields T' E' allow' ms fs b := by
  intro fs
  induction fs with
  | nil => intro _ _ b h; exact h
  | cons f fs ih =>
    rintro hp h b (⟨-, h', -⟩ | ⟨y, b1, b2, h1, h2, h3, rfl⟩)
    · exact absurd (h' f (by simp)).2 (hp f (by simp))
    · exact .inr ⟨y, b1, b2, h1, h [] f fs y b1 rfl h1 h2,
        ih (fun g hg => hp g (by simp [hg])) (fun pre g post x b e => h (f :: pre) g post x b (by rw [e]; rfl)) b2 h3, rfl⟩

theorem occurs_trans {a a' a'' : Bool} {ty ty' ty'' : Ptr} {v v' v'' : JVal} (h : Occurs T a ty v a' ty' v')
    (h' : Occurs T a' ty' v' a'' ty'' v'') : Occurs T a ty v a'' ty'' v'' := by
  induction h with
  | here => exact h'
  | optional h1 h2 _ ih => exact .optional h1 h2 (ih h')
  | extension h1 _ ih => exact .extension h1 (ih h')
  | field h1 h2 _ ih => exact .field h1 h2 (ih h')
  | elem h1 h2 _ ih => exact .elem h1 h2 (ih h')
  | alt h1 h2 _ ih => exact .alt h1 h2 (ih h')

theorem occurs_flag {a a' : Bool} {ty ty' : Ptr} {v v' : JVal} (h : Occurs T a ty v a' ty' v') :
    ∀ c, ∃ c', Occurs T c ty v c' ty' v' := by
  induction h with
  | here => exact fun c => ⟨c, .here _ _ _⟩
  | optional h1 h2 _ ih => exact fun c => (ih c).imp fun _ => .optional h1 h2
  | extension h1 _ ih => exact fun c => (ih c).imp fun _ => .extension h1
  | field h1 h2 _ ih => exact fun c => (ih _).imp fun _ => .field h1 h2
  | elem h1 h2 _ ih => exact fun c => (ih _).imp fun _ => .elem h1 h2
  | alt h1 h2 _ ih => exact fun c => (ih c).imp fun _ => .alt h1 h2

/-- `Complete`, whatever the flags. -/
def CompleteF (T : Table) (ty : Ptr) (v : JVal) : Prop :=
  ∀ a a' ty' ms fs, Occurs T a ty v a' ty' (.obj ms) → T.get ty' = some (.struct fs) →
    ∀ f ∈ fs, lastValue f.name ms ≠ none

theorem completeF {ty : Ptr} {v : JVal} (h : Complete T ty v) : CompleteF T ty v := by
  intro a a' ty' ms fs ho hk
  obtain ⟨c, hc⟩ := occurs_flag ho true
  exact h c ty' ms fs hc hk

theorem enc_get {T : Table} {p q : Ptr} (h : T.get p = T.get q) (n : Nat) (a : Bool) (v : JVal) (b : Bytes) :
    Enc T L n a p v b ↔ Enc T L n a q v b := by
  cases n with
  | zero => rfl
  | succ n => simp only [Enc, h]

theorem encElems_congr {E E' : JVal → Bytes → Prop} : ∀ (l : List JVal), (∀ x ∈ l, ∀ b, E x b → E' x b) →
    ∀ b, EncElems E l b → EncElems E' l b := by
  intro l
  induction l with
  | nil => intro _ b h; exact h
  | cons v l ih =>
    rintro h b ⟨b1, b2, h1, h2, h3⟩
    exact ⟨b1, b2, h v (by simp) _ h1, ih (fun x hx => h x (by simp [hx])) _ h2, h3⟩

/-- One level of `Enc`, given a translation of the levels below, at a type that is the same in both tables. -/
theorem enc_level {T0 T' : Table} {n m : Nat} {a a' : Bool} {ty : Ptr} {v : JVal} {b : Bytes} (T : Table)
    (h0 : T0.get ty = T.get ty) (h1 : T'.get ty = T.get ty) (hne : ∀ p, T.get ty ≠ some (.extension p)) (hc : CompleteF T ty v)
    (ih : ∀ a a' ty v b, CompleteF T ty v → Enc T0 L n a ty v b → Enc T' L m a' ty v b)
    (h : Enc T0 L (n + 1) a ty v b) : Enc T' L (m + 1) a' ty v b := by
  unfold Enc at h ⊢
  rw [h0] at h
  rw [h1]
  split at h
  · exact h
  · rename_i p hk
    refine h.imp id fun ⟨h1, b', h2, h3⟩ => ⟨h1, b', h2, ih _ _ _ _ _ ?_ h3⟩
    exact fun a a' ty' ms fs ho => hc a a' ty' ms fs (.optional hk h1 ho)
  · rename_i p hk; exact absurd hk (hne p)
  · rename_i fs hk
    obtain ⟨ms, rfl, h2⟩ := h
    refine ⟨ms, rfl, encFields_congr _ (hc true true _ _ _ (.here _ _ _) hk) ?_ _ h2⟩
    intro pre f post x b e hx h
    subst e
    refine ih _ _ _ _ _ ?_ h
    intro c c' ty' ms fs ho
    obtain ⟨c2, ho⟩ := occurs_flag ho (true && post.isEmpty)
    exact hc true c2 ty' ms fs (.field hk hx ho)
  · rename_i p hk
    obtain ⟨l, c, b', rfl, h2, h3, h4, h5⟩ := h
    refine ⟨l, c, b', rfl, h2, h3, encElems_congr _ ?_ _ h4, h5⟩
    intro x hx b h
    refine ih _ _ _ _ _ ?_ h
    intro c c' ty' ms fs ho
    obtain ⟨c2, ho⟩ := occurs_flag ho false
    exact hc true c2 ty' ms fs (.elem hk hx ho)
  · rename_i alts hk
    obtain ⟨name, x, i, f, c, b', rfl, h2, h3, h4, h5⟩ := h
    refine ⟨name, x, i, f, c, b', rfl, h2, h3, ih _ _ _ _ _ ?_ h4, h5⟩
    exact fun a a' ty' ms fs ho => hc a a' ty' ms fs (.alt hk h2 ho)
  · exact h.elim

theorem wf_ext {p q : Ptr} (wf : T.WF) (hk : T.get p = some (.extension q)) : ∀ r, T.get q ≠ some (.extension r) := by
  obtain ⟨d, h1, -, h3⟩ := wf _ _ hk
  intro r hr
  rw [h1] at hr
  cases hr
  simp [TData.isExt] at h3

theorem ordinary_other {T' : Table} (ho : Ordinary T T') {ty : Ptr} (h : ∀ p, T.get ty ≠ some (.extension p)) :
    T'.get ty = T.get ty := by
  rw [ho ty]
  split
  · rename_i p hk; exact absurd hk (h p)
  · rfl

theorem enc_to_ordinary {T' : Table} (wf : T.WF) (ho : Ordinary T T') : ∀ (n : Nat) (a a' : Bool) (ty : Ptr) (v : JVal) (b : Bytes),
    CompleteF T ty v → Enc T L n a ty v b → Enc T' L n a' ty v b := by
  intro n
  induction n with
  | zero => intro a a' ty v b _ h; exact h.elim
  | succ n ih =>
    intro a a' ty v b hc h
    by_cases he : ∃ p, T.get ty = some (.extension p)
    · obtain ⟨p, hk⟩ := he
      have h' : Enc T L n a p v b := by unfold Enc at h; simpa only [hk] using h
      have hc' : CompleteF T p v := fun a a' ty' ms fs ho => hc a a' ty' ms fs (.extension hk ho)
      have := enc_succ _ _ _ _ _ (ih a a' p v b hc' h')
      rw [enc_get (q := p)]
      · exact this
      · rw [ordinary_other ho (wf_ext wf hk), ho ty, hk]
    · have he' : ∀ p, T.get ty ≠ some (.extension p) := fun p hp => he ⟨p, hp⟩
      exact enc_level T rfl (ordinary_other ho he') he' hc ih h

theorem enc_of_ordinary {T' : Table} (wf : T.WF) (ho : Ordinary T T') : ∀ (n : Nat) (a a' : Bool) (ty : Ptr) (v : JVal) (b : Bytes),
    CompleteF T ty v → Enc T' L n a ty v b → Enc T L (2 * n) a' ty v b := by
  intro n
  induction n with
  | zero => intro a a' ty v b _ h; exact h.elim
  | succ n ih =>
    intro a a' ty v b hc h
    by_cases he : ∃ p, T.get ty = some (.extension p)
    · obtain ⟨p, hk⟩ := he
      have hc' : CompleteF T p v := fun a a' ty' ms fs ho => hc a a' ty' ms fs (.extension hk ho)
      have h' : Enc T' L (n + 1) a p v b := by
        rw [enc_get (q := ty)]
        · exact h
        · rw [ordinary_other ho (wf_ext wf hk), ho ty, hk]
      have := enc_level (a' := a') T (ordinary_other ho (wf_ext wf hk)) rfl (wf_ext wf hk) hc' ih h'
      rw [show 2 * (n + 1) = (2 * n + 1) + 1 by omega]
      unfold Enc
      simpa only [hk] using this
    · have he' : ∀ p, T.get ty ≠ some (.extension p) := fun p hp => he ⟨p, hp⟩
      exact enc_succ _ _ _ _ _ (enc_level T (ordinary_other ho he') rfl he' hc ih h)

/-- With all fields present, the encoding is that for the same ABI with ordinary fields instead of extensions. -/
theorem encodes_ordinary {T' : Table} (wf : T.WF) (ho : Ordinary T T') {ty : Ptr} {v : JVal} (hc : Complete T ty v) (b : Bytes) :
    Encodes T L ty v b ↔ Encodes T' L ty v b :=
  ⟨fun ⟨n, h⟩ => ⟨n, enc_to_ordinary wf ho n _ _ _ _ _ (completeF hc) h⟩,
   fun ⟨n, h⟩ => ⟨_, enc_of_ordinary wf ho n _ _ _ _ _ (completeF hc) h⟩⟩

theorem ordinary_get {T' : Table} (wf : T.WF) (ho : Ordinary T T') {ty : Ptr} {d : TData} (h : T'.get ty = some d) :
    ∃ q, T.get q = some d ∧ d.isExt = false := by
  rw [ho ty] at h
  split at h
  · rename_i p hk
    refine ⟨p, h, ?_⟩
    have := wf_ext wf hk
    cases d <;> first | rfl | exact absurd h (this _)
  · rename_i hk
    refine ⟨ty, h, ?_⟩
    cases d <;> first | rfl | exact absurd h (hk _)

theorem ordinary_target {T' : Table} (wf : T.WF) (ho : Ordinary T T') {p : Ptr} {d : TData} (h : T.get p = some d)
    (ht : d.isTarget = true) : ∃ d', T'.get p = some d' ∧ d'.isTarget = true ∧ d'.isExt = false ∧ (d.isExt = false → d' = d) := by
  rw [ho p]
  by_cases he : ∃ q, T.get p = some (.extension q)
  · obtain ⟨q, hk⟩ := he
    rw [h] at hk
    cases hk
    rw [h]
    obtain ⟨d', h1, h2, h3⟩ := wf _ _ h
    exact ⟨d', h1, h2, h3, fun h => by simp [TData.isExt] at h⟩
  · split
    · rename_i q hk; exact absurd ⟨q, hk⟩ he
    · refine ⟨d, h, ht, ?_, fun _ => rfl⟩
      cases d <;> first | rfl | exact absurd ⟨_, h⟩ he

theorem ordinary_wf {T' : Table} (wf : T.WF) (ho : Ordinary T T') : T'.WF := by
  intro k d hk
  obtain ⟨q, h1, h2⟩ := ordinary_get wf ho hk
  have h3 := wf _ _ h1
  cases d with
  | builtin => trivial
  | aliasDef => exact h3
  | structDef => exact h3
  | variantDef => exact h3
  | «alias» p =>
    obtain ⟨d, g1, g2, g3⟩ := h3
    obtain ⟨d', e1, e2, e3, -⟩ := ordinary_target wf ho g1 g2
    exact ⟨d', e1, e2, e3⟩
  | optional p =>
    obtain ⟨d, g1, g2, g3⟩ := h3
    obtain ⟨d', e1, e2, e3, e4⟩ := ordinary_target wf ho g1 g2
    have : d' = d := e4 (by cases d <;> simp_all [TData.isExt, TData.isWrapper])
    exact ⟨d', e1, e2, this ▸ g3⟩
  | array p =>
    obtain ⟨d, g1, g2, g3⟩ := h3
    obtain ⟨d', e1, e2, e3, e4⟩ := ordinary_target wf ho g1 g2
    have : d' = d := e4 (by cases d <;> simp_all [TData.isExt, TData.isWrapper])
    exact ⟨d', e1, e2, this ▸ g3⟩
  | extension => simp [TData.isExt] at h2
  | struct fs =>
    intro f hf
    obtain ⟨d, g1, g2⟩ := h3 f hf
    obtain ⟨d', e1, e2, -⟩ := ordinary_target wf ho g1 g2
    exact ⟨d', e1, e2⟩
  | variant fs =>
    intro f hf
    obtain ⟨d, g1, g2⟩ := h3 f hf
    obtain ⟨d', e1, e2, -⟩ := ordinary_target wf ho g1 g2
    exact ⟨d', e1, e2⟩

/-- Reorderable conversion: with all fields present, extensions are encoded like ordinary fields. -/
theorem c35_reorderable_all_present {T' : Table} (wf : T.WF) (ho : Ordinary T T') (hsm : Small T) {ty : Ptr} (hty : T.Valid ty)
    (v : JVal) (hc : Complete T ty v) (b : Bytes) :
    JsonToBinReorderable T L ty v (.ok b) ↔ JsonToBinReorderable T' L ty v (.ok b) := by
  have hsm' : Small T' := by
    intro k fs hk
    obtain ⟨q, h, -⟩ := ordinary_get wf ho hk
    exact hsm q fs h
  have hty' : T'.Valid ty := by
    obtain ⟨d, h1, h2⟩ := hty
    obtain ⟨d', e1, e2, -⟩ := ordinary_target wf ho h1 h2
    exact ⟨d', e1, e2⟩
  rw [c36_reorderable_is_encoding wf hsm hty, c36_reorderable_is_encoding (ordinary_wf wf ho) hsm' hty', encodes_ordinary wf ho hc]

theorem inOrderTo_get {T : Table} {p q : Ptr} (h : T.get p = T.get q) (n : Nat) (v : JVal) :
    InOrderTo T n p v ↔ InOrderTo T n q v := by
  cases n with
  | zero => rfl
  | succ n => simp only [InOrderTo, h]

theorem inOrder_level {T0 T' : Table} {n m : Nat} {ty : Ptr} {v : JVal} (h0 : T0.get ty = T'.get ty)
    (hne : ∀ p, T'.get ty ≠ some (.extension p)) (ih : ∀ ty v, InOrderTo T0 n ty v → InOrderTo T' m ty v)
    (h : InOrderTo T0 (n + 1) ty v) : InOrderTo T' (m + 1) ty v := by
  unfold InOrderTo at h ⊢
  rw [h0] at h
  split at h
  · exact ih _ _ h
  · rename_i hk; exact absurd hk (hne _)
  · exact ⟨h.1, fun f hf x hx => ih _ _ (h.2 f hf x hx)⟩
  · exact fun x hx => ih _ _ (h x hx)
  · exact fun i f hf => ih _ _ (h i f hf)
  · trivial

theorem inOrder_ordinary {T' : Table} (wf : T.WF) (ho : Ordinary T T') {ty : Ptr} {v : JVal} :
    InOrder T ty v ↔ InOrder T' ty v := by
  have fwd : ∀ n ty v, InOrderTo T (2 * n) ty v → InOrderTo T' n ty v := by
    intro n
    induction n with
    | zero => intros; trivial
    | succ n ih =>
      intro ty v h
      rw [show 2 * (n + 1) = (2 * n + 1) + 1 by omega] at h
      by_cases he : ∃ p, T.get ty = some (.extension p)
      · obtain ⟨p, hk⟩ := he
        unfold InOrderTo at h
        simp only [hk] at h
        have e := ordinary_other ho (wf_ext wf hk)
        rw [inOrderTo_get (q := p) (by rw [e, ho ty, hk])]
        exact inOrder_level e.symm (by rw [e]; exact wf_ext wf hk) ih h
      · have he' : ∀ p, T.get ty ≠ some (.extension p) := fun p hp => he ⟨p, hp⟩
        have e := ordinary_other ho he'
        exact inOrder_level e.symm (by rw [e]; exact he') ih (inOrderTo_pred _ _ _ h)
  have bwd : ∀ n ty v, InOrderTo T' n ty v → InOrderTo T n ty v := by
    intro n
    induction n with
    | zero => intros; trivial
    | succ n ih =>
      intro ty v h
      by_cases he : ∃ p, T.get ty = some (.extension p)
      · obtain ⟨p, hk⟩ := he
        have e := ordinary_other ho (wf_ext wf hk)
        rw [inOrderTo_get (q := p) (by rw [e, ho ty, hk])] at h
        unfold InOrderTo
        simp only [hk]
        exact ih _ _ (inOrderTo_pred _ _ _ h)
      · have he' : ∀ p, T.get ty ≠ some (.extension p) := fun p hp => he ⟨p, hp⟩
        exact inOrder_level (ordinary_other ho he') he' ih h
  exact ⟨fun h n => fwd n _ _ (h _), fun h n => bwd n _ _ (h n)⟩

/-- Ordered conversion: with all fields present, extensions are encoded like ordinary fields. -/
theorem c35_ordered_all_present {T' : Table} (wf : T.WF) (ho : Ordinary T T') (hx : ExtTail T) (hdf : DistinctFields T)
    (hsm : Small T) {ty : Ptr} (hty : T.Valid ty) (v : JVal) (hc : Complete T ty v) (b : Bytes) :
    JsonToBin T L ty v (.ok b) ↔ JsonToBin T' L ty v (.ok b) := by
  have hsm' : Small T' := by
    intro k fs hk
    obtain ⟨q, h, -⟩ := ordinary_get wf ho hk
    exact hsm q fs h
  have hdf' : DistinctFields T' := by
    intro k fs hk
    obtain ⟨q, h, -⟩ := ordinary_get wf ho hk
    exact hdf q fs h
  have hx' : ExtTail T' := by
    rintro k fs - pre f post - ⟨q, hq⟩
    obtain ⟨-, -, h⟩ := ordinary_get wf ho hq
    simp [TData.isExt] at h
  have hty' : T'.Valid ty := by
    obtain ⟨d, h1, h2⟩ := hty
    obtain ⟨d', e1, e2, -⟩ := ordinary_target wf ho h1 h2
    exact ⟨d', e1, e2⟩
  rw [c36_ordered_is_encoding wf hx hdf hsm hty, c36_ordered_is_encoding (ordinary_wf wf ho) hx' hdf' hsm' hty',
    encodes_ordinary wf ho hc, inOrder_ordinary wf ho]

end

end Abieos
